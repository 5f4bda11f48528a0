import Verif.Proofs.ParseTree
/-
Every well-formed statement followed by a semicolon is read back.
-/
set_option linter.unusedSimpArgs false
set_option linter.unusedVariables false
namespace Verif

variable {d : Dialect} {fns : FloatFns}

/-! ### Column definitions -/

/-- What may follow a column definition. -/
def folC : Fk → Bool
  | .sym .Comma => true
  | .sym .RParen => true
  | .sym .Semicolon => true
  | _ => false

theorem folC_cases {f : Fk} (h : folC f = true) : f = .sym .Comma ∨ f = .sym .RParen ∨ f = .sym .Semicolon := by
  unfold folC at h
  split at h <;> simp_all

theorem sym_facts {t : Tok} {k : Sym} (h : fk t = .sym k) : (zt t).word? = none ∧ (zt t).kw? = none := by
  cases t with
  | word w =>
    simp only [fk] at h
    cases hk : kwOf w.keyword with
    | none => simp only [hk] at h; split at h <;> cases h
    | some j => simp only [hk] at h; split at h <;> cases h
  | _ => exact ⟨rfl, rfl⟩

theorem folC_word {t : Tok} (h : folC (fk t) = true) : (zt t).word? = none ∧ (zt t).kw? = none := by
  rcases folC_cases h with h | h | h <;> exact sym_facts h

theorem parse_default {e : Expr} (h : ParsesD fns e) : Ev fun m => ∀ (b : List Token) (rest : List Tok), folE (hd rest) = true →
    prec (hd rest) ≤ e.rp → (prec (hd rest) = 0 ∨ hd rest = .kw .NOT) →
    (parseDefaultExpr (Parsers.at fns m)).runZ b (Z (sg (e.toks fns) ++ rest)) = .ok e.erase (R (sg (e.toks fns)) b, Z rest) := by
  obtain ⟨c, n, hn⟩ := h
  refine ⟨n + 1 + c, fun m hm => ?_⟩
  obtain ⟨k, rfl⟩ : ∃ k, m = (k + 1) + c := ⟨m - 1 - c, by omega⟩
  intro b rest hf hr hq
  have ho := (folE_facts hf).1
  rw [hn (k + 1) (by omega) b rest hf hr, at_defaultLoop]
  simp only [defaultLoopF, zx]
  split
  · simp [zx]
  · simp [zx]
  · next h1 h2 =>
    rcases hq with hq | hq
    · simp [zx, ho, hq]
    · cases rest with
      | nil => cases hq
      | cons t rest =>
        simp only [hd] at hq
        exact absurd (by simp [Z_cons, kw?_of_fk hq]) h1

def SpecE (fns : FloatFns) : ColumnSpec → Prop
  | .check e _ _ => ParsesE fns e
  | _ => True

theorem SpecE.of {s : ColumnSpec} (hw : s.wf d fns = true) : SpecE fns s := by
  cases s with
  | check e p q => exact (Expr.parses e hw).expr hw
  | _ => trivial

/-- The first token of a column constraint. -/
def specHead : ColumnSpec → KW
  | .notNull _ _ => .NOT
  | .unique true _ _ _ => .PRIMARY
  | .unique false _ _ _ => .UNIQUE
  | .references _ _ _ _ => .REFERENCES
  | .check _ _ _ => .CHECK

theorem spec_head {s : ColumnSpec} : ∃ tl, sg (s.toks fns) = kT (specHead s) :: tl := by
  cases s with
  | unique b => cases b <;> exact ⟨_, rfl⟩
  | _ => exact ⟨_, rfl⟩

theorem parse_cols (fns : FloatFns) {cols : List Ident} (h : identsOK d cols = true) :
    Ev fun m => ∀ (b : List Token) (rest : List Tok), (parseColumnNames (Parsers.at fns m)).runZ b (Z (sg (identsT cols) ++ rpar :: rest)) =
      .ok (cols.map Ident.erase) (R (sg (identsT cols)) b, zt rpar :: Z rest) := by
  refine (parse_columnNames fns h).mono fun m hm => ?_
  intro b rest
  exact hm b (rpar :: rest) (by simp [zx, notSym])

theorem parse_columnSpec {s : ColumnSpec} (hw : s.wf d fns = true) : Ev fun m => ∀ (b : List Token) (rest : List Tok),
    (parseColumnSpec (Parsers.at fns m) (zt (kT (specHead s)))).runZ b (Z (sg (s.toks fns) ++ rest)) =
      .ok (some s.erase) (R (sg (s.toks fns)) b, Z rest) := by
  cases s with
  | notNull p q => exact Ev.of fun m b rest => by simp [specHead, ColumnSpec.toks, ColumnSpec.erase, zx, parseColumnSpec]
  | unique k p q r =>
    exact Ev.of fun m b rest => by cases k <;> simp [specHead, ColumnSpec.toks, ColumnSpec.erase, zx, parseColumnSpec]
  | references p q name cols =>
    simp only [ColumnSpec.wf, Bool.and_eq_true] at hw
    refine ((parse_objectName fns hw.1).and (parse_cols fns hw.2)).mono fun m hm => ?_
    intro b rest
    have h1 := fun b rest => hm.1 b (lpar :: rest) (by simp [zx, notSym])
    simp [specHead, ColumnSpec.toks, ColumnSpec.erase, colsT, zx, parseColumnSpec, h1, hm.2]
  | check e p q =>
    refine (SpecE.of hw : ParsesE fns e).mono fun m hm => ?_
    intro b rest
    have h1 := fun b => hm b (rpar :: rest) (by simp [zx, folX_rpar])
    simp [specHead, ColumnSpec.toks, ColumnSpec.erase, zx, parseColumnSpec, parseExpr, h1]

theorem parse_columnConstraints {cs : List ColumnConstraint} (hw : ∀ c ∈ cs, c.wf d fns = true) :
    Ev fun m => Parses (Parsers.at fns m).columnConstraints (sg (columnConstraintsT fns cs)) (cs.map ColumnConstraint.erase) folC := by
  induction cs with
  | nil =>
    refine (Ev.of fun m => ?_).succ
    intro b rest hr
    cases rest with
    | nil => cases hr
    | cons t rest =>
      obtain ⟨h1, h2⟩ := folC_word (t := t) hr
      simp [columnConstraintsT, zx, columnConstraintsF, h1, h2]
  | cons c cs ih =>
    obtain ⟨name, p, s⟩ := c
    have w := hw ⟨name, p, s⟩ (by simp)
    simp only [ColumnConstraint.wf, Bool.and_eq_true] at w
    refine (((parse_columnSpec w.2).and (ih fun c hc => hw c (by simp [hc]))).mono fun m hm => ?_).succ
    intro b rest hr
    obtain ⟨h1, h2⟩ := hm
    have h2 := fun b => h2 b rest hr
    obtain ⟨tl, e⟩ := spec_head (fns := fns) (s := s)
    rw [e] at h1
    simp only [List.cons_append, zx] at h1
    cases name with
    | none =>
      have hk : specHead s ≠ .CONSTRAINT := by
        cases s with
        | unique b => cases b <;> simp [specHead]
        | _ => simp [specHead]
      simp only [columnConstraintsT, constraintNameT, sg_sp, List.nil_append, sg_append, e, List.cons_append, Z_cons, at_columnConstraints,
        columnConstraintsF, runZ_bindM, runZ_peekToken, List.head?_cons, Res.bind_ok, kw?_kT]
      split
      · next h => exact absurd (Option.some.inj h) hk
      · simp [zx, h1, h2, ColumnConstraint.erase]
    | some n =>
      have wn : identOK d n.value = true := w.1
      simp [columnConstraintsT, constraintNameT, zx, columnConstraintsF, e, h1, h2, ColumnConstraint.erase, wn, parseIdentifier_ident wn, Ident.erase]

/-- The keywords that begin a column constraint. -/
def specKw : KW → Bool
  | .CONSTRAINT | .NOT | .UNIQUE | .PRIMARY | .REFERENCES | .CHECK => true
  | _ => false

theorem hd_constraints {cs : List ColumnConstraint} (rest : List Tok) :
    cs = [] ∨ ∃ k tl, sg (columnConstraintsT fns cs) = kT k :: tl ∧ specKw k = true ∧ (k = .NOT → startsNot cs = true) := by
  cases cs with
  | nil => exact .inl rfl
  | cons c cs =>
    right
    obtain ⟨name, p, s⟩ := c
    cases name with
    | some n => exact ⟨.CONSTRAINT, _, by simp only [columnConstraintsT, constraintNameT, zx, List.cons_append]; rfl, rfl, by intro h; cases h⟩
    | none =>
      obtain ⟨tl, e⟩ := spec_head (fns := fns) (s := s)
      refine ⟨specHead s, _, by simp only [columnConstraintsT, constraintNameT, zx, List.nil_append, e, List.cons_append]; rfl, ?_, ?_⟩
      · cases s with
        | unique b => cases b <;> rfl
        | _ => rfl
      · cases s with
        | unique b => cases b <;> (intro h; cases h)
        | notNull p q => intro _; rfl
        | _ => intro h; cases h

theorem columnLoop_stop {m : Nat} {def_ : Option Expr} {specs : List ColumnConstraint} {ds : List AutoIncrement} {rest : List Tok}
    (h : folC (hd rest) = true) (b : List Token) :
    ((Parsers.at fns (m + 1)).columnLoop def_ specs ds).runZ b (Z rest) = .ok (def_, specs, ds) (b, Z rest) := by
  cases rest with
  | nil => cases h
  | cons t rest =>
    obtain ⟨h1, h2⟩ := folC_word (t := t) h
    simp [zx, columnLoopF, h2]

theorem parse_columnLoop3 {cs : List ColumnConstraint} (hw : ∀ c ∈ cs, c.wf d fns = true) :
    Ev fun m => ∀ def_ ds, Parses ((Parsers.at fns m).columnLoop def_ [] ds) (sg (columnConstraintsT fns cs))
      (def_, cs.map ColumnConstraint.erase, ds) folC := by
  refine (((parse_columnConstraints hw).add 1).mono fun m hm => ?_).succ.succ
  intro def_ ds b rest hr
  rcases hd_constraints (fns := fns) (cs := cs) rest with rfl | ⟨k, tl, e, hk, -⟩
  · simp only [columnConstraintsT, zx, List.nil_append, List.map_nil]
    rw [show (columnLoopF (Parsers.at fns (m + 1)) def_ [] ds) = (Parsers.at fns (m + 1 + 1)).columnLoop def_ [] ds from rfl]
    exact columnLoop_stop hr b
  · have h1 := hm b rest hr
    have h2 := fun b => columnLoop_stop (fns := fns) (m := m) (def_ := def_) (specs := cs.map ColumnConstraint.erase) (ds := ds) hr b
    rw [e] at h1 ⊢
    simp only [List.cons_append, Z_cons, R_cons] at h1 ⊢
    rw [at_columnLoop]
    simp only [columnLoopF, runZ_bindM, runZ_peekToken, List.head?_cons, Res.bind_ok, kw?_kT]
    cases k <;> first
      | (cases hk; done)
      | (simp only [columnLoopF.parseSpecs, runZ_bindM, h1, Res.bind_ok, h2])

theorem hd_decorations {ds : List AutoIncrement} (rest : List Tok) :
    hd (sg (decorationsT ds) ++ rest) = if ds.isEmpty then hd rest else .kw .AUTO_INCREMENT := by
  cases ds <;> simp [decorationsT, zx]

theorem parse_columnLoop2 {cs : List ColumnConstraint} (hw : ∀ c ∈ cs, c.wf d fns = true) (ds : List AutoIncrement) :
    Ev fun m => ∀ def_ acc, Parses ((Parsers.at fns m).columnLoop def_ [] acc) (sg (decorationsT ds) ++ sg (columnConstraintsT fns cs))
      (def_, cs.map ColumnConstraint.erase, acc ++ ds.map AutoIncrement.erase) folC := by
  induction ds with
  | nil => simpa [decorationsT, zx] using parse_columnLoop3 hw
  | cons a ds ih =>
    refine (ih.mono fun m hm => ?_).succ
    intro def_ acc b rest hr
    have h1 := fun b => hm def_ (acc ++ [⟨Pos.zero, Pos.zero⟩]) b rest hr
    simp only [List.append_assoc, R_append] at h1
    simp [decorationsT, zx, columnLoopF, h1, AutoIncrement.erase]

/-- The first token after the type of a column. -/
theorem hd_tail {cs : List ColumnConstraint} {ds : List AutoIncrement} {rest : List Tok} (hr : folC (hd rest) = true) :
    folC (hd (sg (decorationsT ds) ++ (sg (columnConstraintsT fns cs) ++ rest))) = true ∨
    hd (sg (decorationsT ds) ++ (sg (columnConstraintsT fns cs) ++ rest)) = .kw .AUTO_INCREMENT ∨
    ∃ k, hd (sg (decorationsT ds) ++ (sg (columnConstraintsT fns cs) ++ rest)) = .kw k ∧ specKw k = true ∧
      (k = .NOT → startsNot cs = true ∧ ds.isEmpty = true) := by
  rw [hd_decorations]
  cases ds with
  | cons a ds => exact .inr (.inl rfl)
  | nil =>
    rcases hd_constraints (fns := fns) (cs := cs) rest with rfl | ⟨k, tl, e, hk, hn⟩
    · exact .inl (by simpa [columnConstraintsT, zx] using hr)
    · right; right
      exact ⟨k, by simp [e, zx], hk, fun h => ⟨hn h, rfl⟩⟩

theorem parse_columnDef {c : ColumnDef} (hw : c.wf d fns = true) :
    Ev fun m => Parses (parseColumnDef (Parsers.at fns m)) (sg (c.toks fns)) c.erase folC := by
  obtain ⟨name, ty, def_, ds, cs⟩ := c
  simp only [ColumnDef.wf, Bool.and_eq_true, List.all_eq_true] at hw
  obtain ⟨⟨⟨w1, w2⟩, w3⟩, w4⟩ := hw
  have key : Ev fun m => Parses ((Parsers.at fns m).columnLoop none [] []) (sg (Expr.toksO fns [sp, kT .DEFAULT, sp] def_) ++
      (sg (decorationsT ds) ++ sg (columnConstraintsT fns cs)))
      (def_.map Expr.erase, cs.map ColumnConstraint.erase, ds.map AutoIncrement.erase) folC := by
    cases def_ with
    | none =>
      refine (parse_columnLoop2 w3 ds).mono fun m hm => ?_
      simpa [Expr.toksO, zx] using hm none []
    | some e =>
      simp only [Bool.and_eq_true, Bool.or_eq_true, Bool.not_eq_true', decide_eq_true_eq] at w4
      obtain ⟨⟨u1, u2⟩, u3⟩ := w4
      refine (((parse_columnLoop2 w3 ds).and (parse_default ((Expr.parses e u1).dflt u2))).mono fun m hm => ?_).succ
      intro b rest hr
      have h1 := fun b => hm.1 (some e.erase) [] b rest hr
      simp only [List.append_assoc, R_append, List.nil_append] at h1
      have h2 := fun b => hm.2 b (sg (decorationsT ds) ++ (sg (columnConstraintsT fns cs) ++ rest)) (by
        rcases hd_tail (fns := fns) (cs := cs) (ds := ds) hr with h | h | ⟨k, h, hk, -⟩
        · rcases folC_cases h with h | h | h <;> rw [h] <;> rfl
        · rw [h]; rfl
        · rw [h]; cases k <;> first | (cases hk; done) | rfl) (by
        rcases hd_tail (fns := fns) (cs := cs) (ds := ds) hr with h | h | ⟨k, h, hk, hn⟩
        · rcases folC_cases h with h | h | h <;> rw [h] <;> exact Nat.zero_le _
        · rw [h]; exact Nat.zero_le _
        · rw [h]
          by_cases hkn : k = .NOT
          · subst hkn
            rcases u3 with (u3 | u3) | u3
            · rw [(hn rfl).1] at u3; cases u3
            · rw [(hn rfl).2] at u3; cases u3
            · exact u3
          · cases k <;> first | (cases hk; done) | (exact absurd rfl hkn) | exact Nat.zero_le _) (by
        rcases hd_tail (fns := fns) (cs := cs) (ds := ds) hr with h | h | ⟨k, h, hk, hn⟩
        · rcases folC_cases h with h | h | h <;> rw [h] <;> exact .inl rfl
        · rw [h]; exact .inl rfl
        · rw [h]; cases k <;> first | (cases hk; done) | exact .inl rfl | exact .inr rfl)
      simp [Expr.toksO, zx, columnLoopF, h2, h1]
  refine (key.and (parse_dataType fns w2)).mono fun m hm => ?_
  intro b rest hr
  obtain ⟨k1, k2⟩ := hm
  have k1 := fun b => k1 b rest hr
  simp only [List.append_assoc, R_append] at k1
  have k2 := fun b => k2 b (sg (Expr.toksO fns [sp, kT .DEFAULT, sp] def_) ++ (sg (decorationsT ds) ++ (sg (columnConstraintsT fns cs) ++ rest))) (by
    rw [hd_opt]
    split
    · rfl
    · rcases hd_tail (fns := fns) (cs := cs) (ds := ds) hr with h | h | ⟨k, h, hk, hn⟩
      · rcases folC_cases h with h | h | h <;> rw [h] <;> rfl
      · rw [h]; rfl
      · rw [h]; cases k <;> first | (cases hk; done) | rfl)
  simp [ColumnDef.toks, ColumnDef.erase, Ident.erase, zx, parseColumnDef, k1, k2, string_ident w1]

/-! ### Table constraints and elements -/

def tSpecHead : TableConstraintSpec → KW
  | .unique true _ _ _ _ => .PRIMARY
  | .unique false _ _ _ _ => .UNIQUE
  | .referential _ _ _ => .FOREIGN
  | .check _ _ _ => .CHECK

theorem tSpec_head {s : TableConstraintSpec} : ∃ tl, sg (s.toks fns) = kT (tSpecHead s) :: tl := by
  cases s with
  | unique b => cases b <;> exact ⟨_, rfl⟩
  | _ => exact ⟨_, rfl⟩

theorem parse_refCols (fns : FloatFns) {cols : List Ident} (h : identsOK d cols = true) :
    Ev fun m => ∀ (b : List Token) (rest : List Tok), ((Parsers.at fns m).listOfIds .Comma).runZ b (Z (sg (identsT cols) ++ rpar :: rest)) =
      .ok (some (cols.map Ident.erase)) (R (sg (identsT cols)) b, zt rpar :: Z rest) := by
  obtain ⟨i, js, rfl, hi, hjs⟩ := identsOK_cons h
  refine ((parse_listOfIdsSep fns fk_comma js hjs).mono fun m hm => ?_).succ
  intro b rest
  have := fun b => hm b (rpar :: rest) (by simp [zx, notSym])
  simp [sg_identsT, zx, listOfIdsF, this, string_ident hi, Ident.erase]

theorem parse_tableConstraintSpec {s : TableConstraintSpec} (hw : s.wf d fns = true) : Ev fun m => ∀ (b : List Token) (rest : List Tok),
    (parseTableConstraintSpec (Parsers.at fns m) (zt (kT (tSpecHead s)))).runZ b (Z (sg (s.toks fns) ++ rest)) =
      .ok s.erase (R (sg (s.toks fns)) b, Z rest) := by
  cases s with
  | unique k p q r cols =>
    refine (parse_cols (d := d) fns hw).mono fun m hm => ?_
    intro b rest
    cases k <;> simp [tSpecHead, TableConstraintSpec.toks, TableConstraintSpec.erase, colsT, zx, parseTableConstraintSpec, hm]
  | referential p cols key =>
    obtain ⟨tn, kc, kp⟩ := key
    simp only [TableConstraintSpec.wf, Bool.and_eq_true] at hw
    obtain ⟨⟨w1, w2⟩, w3⟩ := hw
    refine ((parse_cols fns w1).and (parse_refCols fns w3)).mono fun m hm => ?_
    intro b rest
    simp [tSpecHead, TableConstraintSpec.toks, TableConstraintSpec.erase, ReferenceKeyExpr.erase, Ident.erase, colsT, zx, parseTableConstraintSpec,
      hm.1, hm.2, string_ident w2]
  | check p q e =>
    refine ((Expr.parses e hw).expr hw).mono fun m hm => ?_
    intro b rest
    have h1 := fun b => hm b (rpar :: rest) (by simp [zx, folX_rpar])
    simp [tSpecHead, TableConstraintSpec.toks, TableConstraintSpec.erase, zx, parseTableConstraintSpec, parseExpr, h1]

theorem parse_tableConstraint {c : TableConstraint} (hw : c.wf d fns = true) : Ev fun m => ∀ (b : List Token) (rest : List Tok),
    (parseTableConstraints (Parsers.at fns m)).runZ b (Z (sg (c.toks fns) ++ rest)) = .ok c.erase (R (sg (c.toks fns)) b, Z rest) := by
  obtain ⟨p, name, s⟩ := c
  simp only [TableConstraint.wf, Bool.and_eq_true] at hw
  refine (parse_tableConstraintSpec hw.2).mono fun m hm => ?_
  intro b rest
  obtain ⟨tl, e⟩ := tSpec_head (fns := fns) (s := s)
  rw [e] at hm
  simp only [List.cons_append, Z_cons, R_cons] at hm
  cases name with
  | none =>
    have hk : tSpecHead s ≠ .CONSTRAINT := by
      cases s with
      | unique b => cases b <;> simp [tSpecHead]
      | _ => simp [tSpecHead]
    simp [TableConstraint.toks, constraintNameT, TableConstraint.erase, zx, parseTableConstraints, e, hk, hm]
  | some n =>
    have wn : identOK d n.value = true := hw.1
    simp [TableConstraint.toks, constraintNameT, TableConstraint.erase, Ident.erase, zx, parseTableConstraints, e, hm, parseIdentifier_ident wn]

/-- The keywords that begin a table constraint. -/
def tConKw : KW → Bool
  | .CONSTRAINT | .PRIMARY | .CHECK | .FOREIGN | .UNIQUE => true
  | _ => false

theorem hd_tableConstraint {c : TableConstraint} : ∃ k tl, sg (c.toks fns) = kT k :: tl ∧ tConKw k = true := by
  obtain ⟨p, name, s⟩ := c
  cases name with
  | some n => exact ⟨.CONSTRAINT, _, rfl, rfl⟩
  | none =>
    obtain ⟨tl, e⟩ := tSpec_head (fns := fns) (s := s)
    refine ⟨tSpecHead s, tl, e, ?_⟩
    cases s with
    | unique b => cases b <;> rfl
    | _ => rfl

theorem parse_element {e : TableElement} (hw : e.wf d fns = true) : ∃ t w tl, sg (e.toks fns) = t :: tl ∧ (zt t).word? = some w ∧
    Ev fun m => ∀ (b : List Token) (rest : List Tok), folC (hd rest) = true →
      (parseElement (Parsers.at fns m) w).runZ (zt t :: b) (Z (tl ++ rest)) = .ok e.erase (R (sg (e.toks fns)) b, Z rest) := by
  cases e with
  | constraint c =>
    obtain ⟨k, tl, e, hk⟩ := hd_tableConstraint (fns := fns) (c := c)
    refine ⟨kT k, ⟨k.str, none, k.str⟩, tl, e, rfl, (parse_tableConstraint hw).mono fun m hm => ?_⟩
    intro b rest hr
    have h1 := hm b rest
    rw [e] at h1
    simp only [List.cons_append, Z_cons] at h1
    simp only [TableElement.toks, e, TableElement.erase, parseElement, runZ_bindM, runZ_prevToken_cons, Res.bind_ok, kwOf_str]
    cases k <;> first
      | (cases hk; done)
      | (simp only [parseElement.parseC, runZ_bindM, h1, Res.bind_ok, runZ_pure])
  | column c =>
    obtain ⟨tl, e⟩ : ∃ tl, sg (c.toks fns) = identTok c.name.value :: tl := ⟨_, by simp only [ColumnDef.toks, zx]; rfl⟩
    have hi : identOK d c.name.value = true := by
      simp only [TableElement.wf, ColumnDef.wf, Bool.and_eq_true] at hw
      exact hw.1.1.1
    refine ⟨_, identWord c.name.value, tl, e, by simp [zx], (parse_columnDef hw).mono fun m hm => ?_⟩
    intro b rest hr
    have h1 := hm b rest hr
    rw [e] at h1
    simp only [List.cons_append, Z_cons] at h1
    simp only [TableElement.toks, e, TableElement.erase, parseElement, runZ_bindM, runZ_prevToken_cons, Res.bind_ok, h1, runZ_pure]
    have := softKw_ident hi
    split <;> first
      | (rename_i hk; rw [hk] at this; cases this; done)
      | simp only [runZ_bindM, h1, Res.bind_ok, runZ_pure]

theorem parse_elements {es : List TableElement} (hne : es ≠ []) (hw : ∀ e ∈ es, e.wf d fns = true) :
    Ev fun m => ∀ (b : List Token) (rest : List Tok),
      (Parsers.at fns m).elements.runZ b (Z (sg (elementsT fns es) ++ rpar :: rest)) =
        .ok (es.map TableElement.erase) (zt rpar :: R (sg (elementsT fns es)) b, Z rest) := by
  induction es with
  | nil => exact absurd rfl hne
  | cons e es ih =>
    obtain ⟨t, w, tl, et, ew, he⟩ := parse_element (hw e (by simp))
    cases es with
    | nil =>
      refine (he.mono fun m hm => ?_).succ
      intro b rest
      have h1 := fun b => hm b (rpar :: rest) (by simp [zx]; rfl)
      rw [et] at h1
      simp [elementsT, sepT, zx, et, elementsF, ew, h1]
    | cons e' es =>
      refine ((he.and (ih (by simp) fun x hx => hw x (by simp [hx]))).mono fun m hm => ?_).succ
      intro b rest
      have h1 := fun b rest => hm.1 b (comma :: rest) (by simp [zx]; rfl)
      have h2 := fun b => hm.2 b rest
      rw [et] at h1
      rw [elementsT]
      simp [sepT, zx, et, elementsF, ew, h1, h2]

/-! ### Table options -/

theorem parse_optionName {eq : Bool} {name : Ident} (h : identOK d name.value = true) (b : List Token) (rest : List Tok) :
    parseOptionName.runZ b (Z (sg (if eq then [eqT, sp] else []) ++ identTok name.value :: rest)) =
      .ok (eq, name.erase) (R (sg (if eq then [eqT, sp] else []) ++ [identTok name.value]) b, Z rest) := by
  cases eq <;> simp [zx, parseOptionName, parseIdentifier_ident h, Ident.erase, fk_ident h]

theorem parse_tableOption {o : TableOption} (hw : o.wf d = true) (b : List Token) (rest : List Tok) :
    parseTableOption.runZ b (Z (sg o.toks ++ rest)) = .ok o.erase (R (sg o.toks) b, Z rest) := by
  cases o with
  | engine p eq name =>
    have h1 := fun b => parse_optionName (eq := eq) hw b rest
    simp [TableOption.toks, TableOption.erase, zx, parseTableOption, h1]
  | charset df p q eq name =>
    have h1 := fun b => parse_optionName (eq := eq) hw b rest
    cases df <;> simp [TableOption.toks, TableOption.erase, zx, parseTableOption, h1]

theorem parse_tableOptions {os : List TableOption} (hl : os.length ≤ 1) (hw : ∀ o ∈ os, o.wf d = true) :
    Ev fun m => Parses (Parsers.at fns m).tableOptions (sg (optionsT os)) (os.map TableOption.erase) (fun f => f == .sym .Semicolon) := by
  refine (Ev.of fun m => ?_).succ.succ
  intro b rest hr
  simp only [beq_iff_eq] at hr
  have stop : ∀ r b, (tableOptionsF r).runZ b (Z rest) = .ok [] (b, Z rest) := by
    intro r b
    cases rest with
    | nil => cases hr
    | cons t rest =>
      simp only [hd] at hr
      simp [zx, tableOptionsF, hr, (sym_facts hr).1]
  match os, hl, hw with
  | [], _, _ =>
    simp only [optionsT, sg_nil, List.nil_append, at_tableOptions, stop, R_nil, List.map_nil]
  | [o], _, hw =>
    have h1 := fun b => parse_tableOption (hw o (by simp)) b rest
    have h2 : ∃ k tl, sg o.toks = kT k :: tl := by
      cases o with
      | engine p eq name => exact ⟨_, _, rfl⟩
      | charset df p q eq name => cases df <;> exact ⟨_, _, rfl⟩
    obtain ⟨k, tl, e⟩ := h2
    rw [e] at h1
    simp only [List.cons_append, Z_cons] at h1
    have h3 : ∀ b, (Parsers.at fns (m + 1)).tableOptions.runZ b (Z rest) = .ok [] (b, Z rest) := stop _
    rw [at_tableOptions, tableOptionsF]
    generalize (Parsers.at fns (m + 1)).tableOptions = p at h3
    simp [optionsT, sepT, e, zx, h1, h3]

/-! ### Assignments and rows -/

theorem parse_assignments {as : List Assignment} (hne : as ≠ []) (hw : ∀ a ∈ as, a.wf d fns = true) :
    Ev fun m => Parses (Parsers.at fns m).assignments (sg (assignmentsT fns as)) (as.map Assignment.erase) folL := by
  induction as with
  | nil => exact absurd rfl hne
  | cons a as ih =>
    obtain ⟨i, v⟩ := a
    have w := hw ⟨i, v⟩ (by simp)
    simp only [Assignment.wf, Bool.and_eq_true] at w
    have he := (Expr.parses v w.2).expr w.2
    cases as with
    | nil =>
      refine (he.mono fun m hm => ?_).succ
      intro b rest hr
      obtain ⟨h1, h2⟩ := folL_facts hr
      have h3 := fun b => hm b rest h1
      simp [assignmentsT, Assignment.toks, Assignment.erase, Ident.erase, sepT, zx, assignmentsF, parseExpr, h3, h2, string_ident w.1]
    | cons a' as =>
      refine ((he.and (ih (by simp) fun x hx => hw x (by simp [hx]))).mono fun m hm => ?_).succ
      intro b rest hr
      have h1 := fun b rest => hm.1 b (comma :: rest) (by simp [zx]; rfl)
      have h2 := fun b => hm.2 b rest hr
      rw [assignmentsT]
      simp [Assignment.toks, Assignment.erase, Ident.erase, sepT, zx, assignmentsF, parseExpr, h1, h2, string_ident w.1]

theorem parse_rows {rs : List RowValueExpr} (hne : rs ≠ []) (hw : ∀ r ∈ rs, r.wf d fns = true) :
    Ev fun m => Parses (Parsers.at fns m).rows (sg (rowsT fns rs)) (rs.map RowValueExpr.erase) (notSym .Comma) := by
  induction rs with
  | nil => exact absurd rfl hne
  | cons r rs ih =>
    obtain ⟨vs, p, q⟩ := r
    have w := hw ⟨vs, p, q⟩ (by simp)
    simp only [RowValueExpr.wf, Bool.and_eq_true, Bool.not_eq_true', List.isEmpty_eq_false_iff] at w
    have he := parse_exprList w.1 (Expr.parsesL vs w.2)
    cases rs with
    | nil =>
      refine (he.mono fun m hm => ?_).succ
      intro b rest hr
      simp only [notSym, decide_eq_true_eq] at hr
      have h3 := fun b => hm b (rpar :: rest) (by simp [zx]; rfl)
      simp [rowsT, RowValueExpr.toks, RowValueExpr.erase, sepT, zx, rowsF, h3, hr]
    | cons r' rs =>
      refine ((he.and (ih (by simp) fun x hx => hw x (by simp [hx]))).mono fun m hm => ?_).succ
      intro b rest hr
      have h1 := fun b rest => hm.1 b (rpar :: rest) (by simp [zx]; rfl)
      have h2 := fun b => hm.2 b rest hr
      rw [rowsT]
      simp [RowValueExpr.toks, RowValueExpr.erase, sepT, zx, rowsF, h1, h2]

/-! ### Statements -/

/-- `ParseStatement` reads the statement up to a semicolon. -/
def ParsesSt (fns : FloatFns) (s : Stmt) : Prop :=
  Ev fun m => Parses (Parsers.at fns m).statement (sg (s.toks fns)) s.erase (fun f => f == .sym .Semicolon)

theorem eraseOpt_eq (w : Option Expr) : Expr.eraseOpt w = w.map Expr.erase := by
  cases w <;> rfl

theorem ev_where {w : Option Expr} (hw : Expr.wfO d fns w = true) :
    Ev fun m => ∀ e, w = some e → Parses ((Parsers.at fns m).subexpr 0) (sg (e.toks fns)) e.erase folX :=
  ev_opt' (Q := fun m e => Parses ((Parsers.at fns m).subexpr 0) (sg (e.toks fns)) e.erase folX)
    fun e he => (Expr.parsesO w hw e he).1

theorem where_semi {m : Nat} {w : Option Expr}
    (hw : ∀ e, w = some e → Parses ((Parsers.at fns m).subexpr 0) (sg (e.toks fns)) e.erase folX) {rest : List Tok}
    (hr : hd rest = .sym .Semicolon) (b : List Token) :
    (do
      if ← kw .WHERE then do
        let e ← parseExpr (Parsers.at fns m)
        pure (some e)
      else pure none : P (Option Expr)).runZ b (Z (sg (Expr.toksO fns [sp, kT .WHERE, sp] w) ++ rest)) =
      .ok (w.map Expr.erase) (R (sg (Expr.toksO fns [sp, kT .WHERE, sp] w)) b, Z rest) := by
  rw [opt_expr hw (by rw [hr]; simp) (by rw [hr]; rfl), eraseOpt_eq]

theorem hd_where {w : Option Expr} {rest : List Tok} (hr : hd rest = .sym .Semicolon) :
    hd (sg (Expr.toksO fns [sp, kT .WHERE, sp] w) ++ rest) = .kw .WHERE ∨
    hd (sg (Expr.toksO fns [sp, kT .WHERE, sp] w) ++ rest) = .sym .Semicolon := by
  rw [hd_opt]; split
  · exact .inl rfl
  · exact .inr hr

theorem parse_stQuery {q : QueryStmt} (hw : (Stmt.query q).wf d fns = true) : ParsesSt fns (.query q) := by
  simp only [Stmt.wf, Bool.and_eq_true] at hw
  refine ((QueryStmt.parses q hw.1).mono fun m hm => ?_).succ
  intro b rest hr
  simp only [beq_iff_eq] at hr
  have h1 := fun b => hm b rest (by rw [hr]; rfl)
  obtain ⟨k, tl, e, hk⟩ := query_startsSelect (fns := fns) hw.1 hw.2
  rw [e] at h1
  simp only [List.cons_append, Z_cons] at h1
  rcases hk with rfl | ⟨rfl, -⟩ <;> simp [Stmt.toks, Stmt.erase, e, zx, statementF, statementF.parseQueryStmt, h1]

theorem parse_stDelete {p : Pos} {name : ObjectName} {w : Option Expr} (hw : (Stmt.delete p name w).wf d fns = true) :
    ParsesSt fns (.delete p name w) := by
  simp only [Stmt.wf, Bool.and_eq_true] at hw
  refine (((parse_objectName fns hw.1).and (ev_where hw.2)).mono fun m hm => ?_).succ
  intro b rest hr
  simp only [beq_iff_eq] at hr
  have h1 := fun b => hm.1 b (sg (Expr.toksO fns [sp, kT .WHERE, sp] w) ++ rest) (by
    rcases hd_where (fns := fns) (w := w) hr with h | h <;> rw [h] <;> rfl)
  have h2 := where_semi hm.2 hr
  simp only [Stmt.toks, Stmt.erase, zx, List.append_assoc, List.cons_append, statementF, parseDelete] at h1 h2 ⊢
  simp [zx, h1, h2]

theorem parse_stUpdate {p : Pos} {name : ObjectName} {as : List Assignment} {w : Option Expr} (hw : (Stmt.update p name as w).wf d fns = true) :
    ParsesSt fns (.update p name as w) := by
  simp only [Stmt.wf, Bool.and_eq_true, Bool.not_eq_true', List.isEmpty_eq_false_iff, List.all_eq_true] at hw
  obtain ⟨⟨⟨w1, w2⟩, w3⟩, w4⟩ := hw
  refine (((parse_objectName fns w1).and ((parse_assignments w2 w3).and (ev_where w4))).mono fun m hm => ?_).succ
  intro b rest hr
  simp only [beq_iff_eq] at hr
  have h1 := fun b rest => hm.1 b (kT .SET :: rest) (by simp [zx, notSym])
  have h3 := fun b => hm.2.1 b (sg (Expr.toksO fns [sp, kT .WHERE, sp] w) ++ rest) (by
    rcases hd_where (fns := fns) (w := w) hr with h | h <;> rw [h] <;> rfl)
  have h2 := where_semi hm.2.2 hr
  simp only [Stmt.toks, Stmt.erase, zx, List.append_assoc, List.cons_append, statementF, parseUpdate] at h1 h2 ⊢
  simp [zx, h1, h2, h3]

theorem parse_stView {p : Pos} {name : ObjectName} {q : QueryStmt} {mz : Bool} (hw : (Stmt.createView p name q mz).wf d fns = true) :
    ParsesSt fns (.createView p name q mz) := by
  simp only [Stmt.wf, Bool.and_eq_true, Bool.not_eq_true'] at hw
  obtain ⟨⟨w1, w2⟩, rfl⟩ := hw
  refine (((parse_objectName fns w1).and (QueryStmt.parses q w2)).mono fun m hm => ?_).succ
  intro b rest hr
  simp only [beq_iff_eq] at hr
  have h1 := fun b rest => hm.1 b (kT .AS :: rest) (by simp [zx, notSym])
  have h2 := fun b => hm.2 b rest (by rw [hr]; rfl)
  simp [Stmt.toks, Stmt.erase, zx, statementF, parseCreate, parseCreateView, h1, h2]

theorem hd_objectName {o : ObjectName} (h : o.wf d = true) (rest : List Tok) :
    (hd (sg o.toks ++ rest)).soft = true := by
  obtain ⟨is⟩ := o
  obtain ⟨i, js, e', hi, hjs⟩ := identsOK_cons h
  simp only at e'; subst e'
  rw [show sg (ObjectName.toks ⟨i :: js⟩) = _ from sg_dottedT i js]
  simp [zx, soft_ident hi]

/-- A name is not taken for several keywords if the second does not follow. -/
theorem kws_objectName {o : ObjectName} (h : o.wf d = true) {k k2 : KW} {ks : List KW} {rest : List Tok}
    (h2 : hd rest ≠ .kw k2) (ho : hd rest ≠ .odd) (b : List Token) :
    (parseKeywords (k :: k2 :: ks)).runZ b (Z (sg o.toks ++ rest)) = .ok none (b, Z (sg o.toks ++ rest)) := by
  obtain ⟨is⟩ := o
  obtain ⟨i, js, e', hi, hjs⟩ := identsOK_cons h
  simp only at e'; subst e'
  rw [show sg (ObjectName.toks ⟨i :: js⟩) = _ from sg_dottedT i js]
  by_cases hk : fk (identTok i.value) = .kw k
  · cases js <;> simp [zx, idTail, hk, h2, ho]
  · simp [zx, hk, fk_ident hi]

theorem parse_stTable {p : Pos} {name : ObjectName} {es : List TableElement} {ne : Bool} {os : List TableOption}
    (hw : (Stmt.createTable p name es ne os).wf d fns = true) : ParsesSt fns (.createTable p name es ne os) := by
  simp only [Stmt.wf, Bool.and_eq_true, Bool.not_eq_true', List.isEmpty_eq_false_iff, List.all_eq_true, decide_eq_true_eq] at hw
  obtain ⟨⟨⟨⟨w1, w2⟩, w3⟩, w4⟩, w5⟩ := hw
  refine (((parse_objectName fns w1).and ((parse_elements w2 w3).and (parse_tableOptions (fns := fns) w4 w5))).mono fun m hm => ?_).succ
  intro b rest hr
  have h1 := fun b rest => hm.1 b (lpar :: rest) (by simp [zx, notSym])
  have h3 := fun b => hm.2.2 b rest hr
  have h4 := fun rest b => kws_objectName (k := .IF) (k2 := .NOT) (ks := [.EXISTS]) (rest := lpar :: rest) w1
    (by simp [zx]) (by simp [zx]) b
  cases ne <;> simp [Stmt.toks, Stmt.erase, zx, statementF, parseCreate, parseCreateTable, parseElements, h1, hm.2.1, h3, h4]

theorem parse_stDropTable {names : List ObjectName} {c : Bool} {p : Pos} {ie : Bool} {q : Pos}
    (hw : (Stmt.dropTable names c p ie q).wf d fns = true) : ParsesSt fns (.dropTable names c p ie q) := by
  simp only [Stmt.wf, Bool.and_eq_true, beq_iff_eq, List.all_eq_true] at hw
  obtain ⟨w1, w2⟩ := hw
  obtain ⟨name, rfl⟩ := List.length_eq_one_iff.mp w1
  have w := w2 name (by simp)
  refine ((parse_objectName fns w).mono fun m hm => ?_).succ
  intro b rest hr
  simp only [beq_iff_eq] at hr
  have h4 := fun b => kws_objectName (k := .IF) (k2 := .EXISTS) (ks := []) (rest := sg (cascadeT c) ++ rest) w
    (by cases c <;> simp [cascadeT, zx, hr]) (by cases c <;> simp [cascadeT, zx, hr]) b
  have h1 := fun b => hm b (sg (cascadeT c) ++ rest) (by cases c <;> simp [cascadeT, zx, notSym, hr])
  cases c <;> cases ie <;>
    (simp only [cascadeT, zx, List.nil_append, List.cons_append, if_true, Bool.false_eq_true, if_false] at h1 h4
     simp [Stmt.toks, Stmt.toks.namesT, sepT, cascadeT, Stmt.erase, zx, statementF, parseDrop, parseCascade, h1, h4, hr])

theorem parse_stDropIndex {p : Pos} {names : List Ident} (hw : (Stmt.dropIndex p names).wf d fns = true) :
    ParsesSt fns (.dropIndex p names) := by
  refine ((parse_columnNames (d := d) fns hw).mono fun m hm => ?_).succ
  intro b rest hr
  simp only [beq_iff_eq] at hr
  have h1 := fun b => hm b rest (by rw [hr]; rfl)
  simp [Stmt.toks, Stmt.erase, zx, statementF, parseDrop, h1]

theorem parse_stExplain {s : Stmt} {p : Pos} (h : ParsesSt fns s) : ParsesSt fns (.explain s p) := by
  refine (h.mono fun m hm => ?_).succ
  intro b rest hr
  have h1 := fun b => hm b rest hr
  simp [Stmt.toks, Stmt.erase, zx, statementF, h1]

theorem parse_stIndex {p q : Pos} {name : ObjectName} {u : Bool} {indexName methodName : Option Ident} {cols : List Ident} {w : Option Expr}
    (hw : (Stmt.createIndex p name u indexName methodName cols q w).wf d fns = true) :
    ParsesSt fns (.createIndex p name u indexName methodName cols q w) := by
  simp only [Stmt.wf, Bool.and_eq_true] at hw
  obtain ⟨⟨⟨⟨w1, w2⟩, w3⟩, w4⟩, w5⟩ := hw
  refine (((parse_objectName fns w1).and ((parse_cols fns w4).and (ev_where w5))).mono fun m hm => ?_).succ
  intro b rest hr
  simp only [beq_iff_eq] at hr
  obtain ⟨h1, h2, h3⟩ := hm
  have h3 := where_semi h3 hr
  have h4 := fun rest => Fk.soft_facts (hd_objectName w1 rest)
  have h5 := fun b rest => h1 b (lpar :: rest) (by simp [zx, notSym])
  have h6 := fun b rest => h1 b (kT .USING :: rest) (by simp [zx, notSym])
  simp only [zx] at h3 h5 h6
  cases indexName with
  | none =>
    cases methodName with
    | none => cases u <;> simp [Stmt.toks, colsT, Stmt.erase, zx, statementF, parseCreate, parseCreateIndex, h5, h2, h3, h4]
    | some mn =>
      have wm : identOK d mn.value = true := w3
      cases u <;> simp [Stmt.toks, colsT, Stmt.erase, zx, statementF, parseCreate, parseCreateIndex, h6, h2, h3, h4, parseIdentifier_ident wm, Ident.erase]
  | some i =>
    have wi : identOK d i.value = true := w2
    cases methodName with
    | none => cases u <;> simp [Stmt.toks, colsT, Stmt.erase, zx, statementF, parseCreate, parseCreateIndex, h5, h2, h3, h4, parseIdentifier_ident wi, fk_ident wi, Ident.erase]
    | some mn =>
      have wm : identOK d mn.value = true := w3
      cases u <;> simp [Stmt.toks, colsT, Stmt.erase, zx, statementF, parseCreate, parseCreateIndex, h6, h2, h3, h4, parseIdentifier_ident wm,
        parseIdentifier_ident wi, fk_ident wi, Ident.erase]

theorem hd_query {q : QueryStmt} (hw : q.wf d fns = true) (rest : List Tok) :
    hd (sg (q.toks fns) ++ rest) = .kw .WITH ∨ hd (sg (q.toks fns) ++ rest) = .kw .SELECT ∨ hd (sg (q.toks fns) ++ rest) = .sym .LParen := by
  obtain ⟨p, ctes, body, os, lim⟩ := q
  simp only [QueryStmt.wf, Bool.and_eq_true] at hw
  rw [query_toks]
  cases ctes with
  | cons c cs => left; simp [zx]
  | nil =>
    right
    simp only [List.isEmpty_nil, if_true, List.nil_append, sg_append, List.append_assoc]
    exact hd_body hw.1.1.2 _

/-- The assignments of ON DUPLICATE KEY UPDATE. -/
def onT (fns : FloatFns) (as : List Assignment) : List Tok :=
  if as.isEmpty then [] else sp :: kT .ON :: sp :: kT .DUPLICATE :: sp :: kT .KEY :: sp :: kT .UPDATE :: sp :: assignmentsT fns as

theorem parse_stInsert {p : Pos} {name : ObjectName} {cols : List Ident} {src : InsertSource} {as : List Assignment}
    (hw : (Stmt.insert p name cols src as).wf d fns = true) : ParsesSt fns (.insert p name cols src as) := by
  simp only [Stmt.wf, Bool.and_eq_true, Bool.or_eq_true, List.isEmpty_iff, List.all_eq_true] at hw
  obtain ⟨⟨⟨⟨w1, w2⟩, w3⟩, w4⟩, w5⟩ := hw
  have ec : Ev fun m => cols ≠ [] → ∀ (b : List Token) (rest : List Tok), (parseColumnNames (Parsers.at fns m)).runZ b (Z (sg (identsT cols) ++ rpar :: rest)) =
      .ok (cols.map Ident.erase) (R (sg (identsT cols)) b, zt rpar :: Z rest) :=
    ev_opt fun h => parse_cols fns (w2.resolve_left h)
  have ea : Ev fun m => as ≠ [] → Parses (Parsers.at fns m).assignments (sg (assignmentsT fns as)) (as.map Assignment.erase) folL :=
    ev_opt fun h => parse_assignments h w4
  have es : Ev fun m => ∀ (b : List Token) (rest : List Tok), (hd rest = .sym .Semicolon ∨ (hd rest = .kw .ON ∧ as ≠ [])) →
      (do
        if ← kw .VALUES then do
          let rows ← (Parsers.at fns m).rows
          pure (InsertSource.constructor Pos.zero rows)
        else do
          let q ← (Parsers.at fns m).query
          pure (.subQuery q) : P InsertSource).runZ b (Z (sg (src.toks fns) ++ rest)) = .ok src.erase (R (sg (src.toks fns)) b, Z rest) := by
    cases src with
    | constructor p rows =>
      simp only [InsertSource.wf, Bool.and_eq_true, Bool.not_eq_true', List.isEmpty_eq_false_iff, List.all_eq_true] at w3
      refine (parse_rows w3.1 w3.2).mono fun m hm => ?_
      intro b rest hr
      have h1 := fun b => hm b rest (by rcases hr with h | h <;> simp [h, notSym])
      simp [InsertSource.toks, InsertSource.erase, zx, h1]
    | subQuery q =>
      refine (QueryStmt.parses q w3).mono fun m hm => ?_
      intro b rest hr
      have h1 := fun b => hm b rest (by
        rcases hr with h | ⟨h, ha⟩
        · rw [h]; rfl
        · rw [h]
          simp only [Bool.and_eq_true, Bool.or_eq_true, List.isEmpty_iff] at w5
          exact w5.2.resolve_left ha)
      have h2 : hd (sg (q.toks fns) ++ rest) ≠ .kw .VALUES ∧ hd (sg (q.toks fns) ++ rest) ≠ .odd := by
        rcases hd_query (fns := fns) w3 rest with h | h | h <;> rw [h] <;> simp
      simp [InsertSource.toks, InsertSource.erase, zx, h1, h2]
  refine (((parse_objectName fns w1).and (ec.and (ea.and es))).mono fun m hm => ?_).succ
  intro b rest hr
  simp only [beq_iff_eq] at hr
  obtain ⟨h1, h2, h3, h4⟩ := hm
  have ho : hd (sg (onT fns as) ++ rest) = .sym .Semicolon ∨ (hd (sg (onT fns as) ++ rest) = .kw .ON ∧ as ≠ []) := by
    cases as with
    | nil => left; simpa [onT, zx] using hr
    | cons a as => right; simp [onT, zx]
  have k4 := fun b => h4 b (sg (onT fns as) ++ rest) ho
  have k3 : ∀ b, (do
      match ← parseKeywords [.ON, .DUPLICATE, .KEY, .UPDATE] with
      | some _ => (Parsers.at fns m).assignments
      | none => pure [] : P (List Assignment)).runZ b (Z (sg (onT fns as) ++ rest)) =
      .ok (as.map Assignment.erase) (R (sg (onT fns as)) b, Z rest) := by
    intro b
    cases hac : as with
    | nil => simp [onT, zx, hr]
    | cons a as' =>
      rw [hac] at h3
      have := fun b => h3 (by simp) b rest (by rw [hr]; rfl)
      simp [onT, zx, this]
  have hs : hd (sg (src.toks fns) ++ (sg (onT fns as) ++ rest)) ≠ .sym .Period ∧ (cols = [] → hd (sg (src.toks fns) ++ (sg (onT fns as) ++ rest)) ≠ .sym .LParen) := by
    cases src with
    | constructor p rows => simp [InsertSource.toks, zx]
    | subQuery q =>
      refine ⟨?_, fun hc => ?_⟩
      · rcases hd_query (fns := fns) w3 (sg (onT fns as) ++ rest) with h | h | h <;> (simp only [InsertSource.toks]; rw [h]; simp)
      · simp [hc] at w5
        obtain ⟨k, tl, e, hk⟩ := query_startsSelect (fns := fns) w3 w5.1
        simp [InsertSource.toks, e, zx]
  have k2 : ∀ b, (do
      if ← consumeToken .LParen then do
        let c ← parseColumnNames (Parsers.at fns m)
        expectToken .RParen
        pure c
      else pure [] : P (List Ident)).runZ b (Z (sg (if cols.isEmpty then [] else colsT cols ++ [sp]) ++ (sg (src.toks fns) ++ (sg (onT fns as) ++ rest)))) =
      .ok (cols.map Ident.erase) (R (sg (if cols.isEmpty then [] else colsT cols ++ [sp])) b, Z (sg (src.toks fns) ++ (sg (onT fns as) ++ rest))) := by
    intro b
    cases hcc : cols with
    | nil => simp [zx, hs.2 hcc]
    | cons c cs =>
      rw [hcc] at h2
      have := h2 (by simp)
      simp [zx, colsT, this]
  have k1 := fun b => h1 b (sg (if cols.isEmpty then [] else colsT cols ++ [sp]) ++ (sg (src.toks fns) ++ (sg (onT fns as) ++ rest))) (by
    cases hcc : cols with
    | nil => simpa [zx, notSym] using hs.1
    | cons c cs => simp [zx, colsT, notSym])
  have ht : sg ((Stmt.insert p name cols src as).toks fns) = kT .INSERT :: kT .INTO :: (sg name.toks ++ (sg (if cols.isEmpty then [] else colsT cols ++ [sp]) ++
      (sg (src.toks fns) ++ sg (onT fns as)))) := by
    simp only [Stmt.toks, zx, onT]
  rw [ht]
  simp only [List.cons_append, List.append_assoc, Z_cons, at_statement, statementF, runZ_bindM, runZ_nextOrErr_cons, Res.bind_ok, word_kT, kwOf_str,
    runZ_prevToken_cons]
  rw [parseInsert, runZ_bindM, zt_kwOrErr_yes (fk_kT _), Res.bind_ok, runZ_bindM, zt_expectKeyword_yes (fk_kT _), Res.bind_ok, runZ_bindM, k1, Res.bind_ok,
    runZ_bindM, k2, Res.bind_ok, runZ_bindM, k4, Res.bind_ok, runZ_bindM]
  erw [k3]
  rw [Res.bind_ok, runZ_pure]
  simp only [Stmt.erase, zx]

theorem cascade_semi {c : Bool} {rest : List Tok} (hr : hd rest = .sym .Semicolon) (b : List Token) :
    parseCascade.runZ b (Z (sg (cascadeT c) ++ rest)) = .ok (c, Pos.zero) (R (sg (cascadeT c)) b, Z rest) := by
  cases c <;> simp [cascadeT, zx, parseCascade, hr]

theorem parse_alterColumn {a : AlterColumnAction} (hw : a.wf d fns = true) {name : Ident} (hn : identOK d name.value = true) :
    Ev fun m => ∀ (t : Tok) (b : List Token) (rest : List Tok), hd rest = .sym .Semicolon →
      (parseAlterColumn (Parsers.at fns m) (zt t)).runZ b (Z (identTok name.value :: (sg (a.toks fns) ++ rest))) =
        .ok (.alterColumn name.erase Pos.zero a.erase) (R (identTok name.value :: sg (a.toks fns)) b, Z rest) := by
  cases a with
  | setDefault p e =>
    simp only [AlterColumnAction.wf, Bool.and_eq_true] at hw
    refine (parse_default ((Expr.parses e hw.1).dflt hw.2)).mono fun m hm => ?_
    intro t b rest hr
    have h1 := fun b => hm b rest (by rw [hr]; rfl) (by rw [hr]; exact Nat.zero_le _) (by rw [hr]; exact .inl rfl)
    simp [AlterColumnAction.toks, AlterColumnAction.erase, Ident.erase, zx, parseAlterColumn, parseIdentifier_ident hn, h1]
  | pgAlterDataType p ty =>
    refine (parse_dataType (d := d) fns hw).mono fun m hm => ?_
    intro t b rest hr
    have h1 := fun b => hm b rest (by rw [hr]; rfl)
    simp [AlterColumnAction.toks, AlterColumnAction.erase, Ident.erase, zx, parseAlterColumn, parseIdentifier_ident hn, h1]
  | _ =>
    refine Ev.of fun m => ?_
    intro t b rest hr
    simp [AlterColumnAction.toks, AlterColumnAction.erase, Ident.erase, zx, parseAlterColumn, parseIdentifier_ident hn, nthTok]

theorem parse_alterAction {a : AlterTableAction} (hw : a.wf d fns = true) : Ev fun m => ∀ (b : List Token) (rest : List Tok),
    hd rest = .sym .Semicolon →
      (parseAlterAction (Parsers.at fns m)).runZ b (Z (sg (a.toks fns) ++ rest)) = .ok a.erase (R (sg (a.toks fns)) b, Z rest) := by
  cases a with
  | addColumn p c =>
    refine (parse_columnDef hw).mono fun m hm => ?_
    intro b rest hr
    have h1 := fun b => hm b rest (by rw [hr]; rfl)
    simp [AlterTableAction.toks, AlterTableAction.erase, zx, parseAlterAction, h1, nthTok]
  | addConstraint p c =>
    refine (parse_tableConstraint hw).mono fun m hm => ?_
    intro b rest hr
    obtain ⟨k, tl, e, hk⟩ := hd_tableConstraint (fns := fns) (c := c)
    have hk' : k ≠ .COLUMN := by rintro rfl; cases hk
    have h1 := fun b => hm b rest
    rw [e] at h1
    simp only [List.cons_append, Z_cons, R_cons] at h1
    simp [AlterTableAction.toks, AlterTableAction.erase, zx, parseAlterAction, e, hk', h1]
  | dropConstraint name p c q =>
    refine Ev.of fun m => ?_
    intro b rest hr
    have h1 := fun b => cascade_semi (c := c) hr b
    have wn : identOK d name.value = true := hw
    simp [AlterTableAction.toks, AlterTableAction.erase, Ident.erase, zx, parseAlterAction, parseIdentifier_ident wn, h1, nthTok]
  | removeColumn name c p q =>
    refine Ev.of fun m => ?_
    intro b rest hr
    have h1 := fun b => cascade_semi (c := c) hr b
    have wn : identOK d name.value = true := hw
    simp [AlterTableAction.toks, AlterTableAction.erase, Ident.erase, zx, parseAlterAction, parseIdentifier_ident wn, h1, nthTok]
  | alterColumn name p a =>
    simp only [AlterTableAction.wf, Bool.and_eq_true] at hw
    refine (parse_alterColumn hw.2 hw.1).mono fun m hm => ?_
    intro b rest hr
    have h1 := fun t b => hm t b rest hr
    simp only [Z_cons, R_cons] at h1
    simp [AlterTableAction.toks, AlterTableAction.erase, zx, parseAlterAction, h1, nthTok]

theorem hd_action {a : AlterTableAction} (rest : List Tok) : hd (sg (a.toks fns) ++ rest) ≠ .sym .Period := by
  cases a <;> simp [AlterTableAction.toks, zx]

theorem parse_stAlter {p : Pos} {name : ObjectName} {a : AlterTableAction} (hw : (Stmt.alterTable p name a).wf d fns = true) :
    ParsesSt fns (.alterTable p name a) := by
  simp only [Stmt.wf, Bool.and_eq_true] at hw
  refine (((parse_objectName fns hw.1).and (parse_alterAction hw.2)).mono fun m hm => ?_).succ
  intro b rest hr
  simp only [beq_iff_eq] at hr
  have h1 := fun b => hm.1 b (sg (a.toks fns) ++ rest) (by simpa [notSym] using hd_action rest)
  have h2 := fun b => hm.2 b rest hr
  simp [Stmt.toks, Stmt.erase, zx, statementF, parseAlter, h1, h2]

theorem Stmt.parses : (s : Stmt) → s.wf d fns = true → ParsesSt fns s
  | .query _, h => parse_stQuery h
  | .insert _ _ _ _ _, h => parse_stInsert h
  | .copy _ _ _ _, h => by simp [Stmt.wf] at h
  | .update _ _ _ _, h => parse_stUpdate h
  | .delete _ _ _, h => parse_stDelete h
  | .createView _ _ _ _, h => parse_stView h
  | .createTable _ _ _ _ _, h => parse_stTable h
  | .alterTable _ _ _, h => parse_stAlter h
  | .dropTable _ _ _ _ _, h => parse_stDropTable h
  | .createIndex _ _ _ _ _ _ _ _, h => parse_stIndex h
  | .dropIndex _ _, h => parse_stDropIndex h
  | .explain s _, h => parse_stExplain (Stmt.parses s (by simpa only [Stmt.wf] using h))

end Verif
