import Verif.Proofs.ReadQuery
/-
Completeness of the grammar: set operations and queries.
-/
set_option linter.unusedSimpArgs false
namespace Verif
open Spec

variable {fns : FloatFns} {ks : List Tok}

/-! ### Set operations -/

/-- `parseQueryBody` reads the set expression and continues with its loop. -/
def ReadsB (fns : FloatFns) (s : SetExpr) (ks : List Tok) : Prop :=
  ∃ c, Ev fun m => ∀ (p : Nat) (b : List Token) (rest : List Tok), p < s.lp → folB s.edge (hd rest) = true →
    setPrec (hd rest) ≤ s.rp →
    ((Parsers.at fns (m + c)).queryBody p).runZ b (Z (ks ++ rest)) =
      ((Parsers.at fns m).bodyLoop p s.erase).runZ (R ks b) (Z rest)

/-- `parseQueryBody` reads exactly the set expression. -/
def ReadsBF (fns : FloatFns) (s : SetExpr) (ks : List Tok) : Prop :=
  Ev fun m => ∀ (p : Nat) (b : List Token) (rest : List Tok), p < s.lp → folB s.edge (hd rest) = true →
    setPrec (hd rest) ≤ s.rp → setPrec (hd rest) ≤ p →
    ((Parsers.at fns m).queryBody p).runZ b (Z (ks ++ rest)) = .ok s.erase (R ks b, Z rest)

def AllB (fns : FloatFns) (s : SetExpr) : Prop := ∀ ks, K (s.lang fns clean) ks → ReadsB fns s ks

theorem ReadsB.full {s : SetExpr} (h : ReadsB fns s ks) : ReadsBF fns s ks := by
  obtain ⟨c, n, hn⟩ := h
  refine ⟨n + 1 + c, fun m hm => ?_⟩
  obtain ⟨k, rfl⟩ : ∃ k, m = (k + 1) + c := ⟨m - 1 - c, by omega⟩
  intro p b rest hp hf hr hq
  rw [hn (k + 1) (by omega) p b rest hp hf hr, bodyLoop_stop hf hq]

theorem hd_body' {ks : List Tok} {s : SetExpr} (hw : s.shape freeWord = true) (h : K (s.lang fns clean) ks) (rest : List Tok) :
    hd (ks ++ rest) = .kw .SELECT ∨ hd (ks ++ rest) = .sym .LParen := by
  match s with
  | .selectExpr _ => simp [SetExpr.shape] at hw
  | .select (.mk _ _ _ _ _ _ _) =>
    simp only [SetExpr.lang, SQLSelect.lang] at h
    eatK h w hf hk
    exact .inl hf
  | .query _ _ q =>
    simp only [SetExpr.lang] at h
    replace h : K ((sym .LParen ⬝ _) ⬝ _) ks := h
    replace h := K.assoc h
    eatS h s
    exact .inr rfl
  | .setOp op all l r =>
    simp only [SetExpr.shape, Bool.and_eq_true] at hw
    simp only [SetExpr.lang] at h
    obtain ⟨u, v, rfl, hl, h'⟩ := K.cat h
    rw [List.append_assoc]
    exact hd_body' (s := l) hw.1.1.1 hl _

theorem setlp_pos' {s : SetExpr} (hw : s.shape freeWord = true) : 0 < s.lp := by
  match s with
  | .selectExpr _ => simp [SetExpr.lp]
  | .select _ => simp [SetExpr.lp]
  | .query _ _ q => simp [SetExpr.lp]
  | .setOp op all l r =>
    simp only [SetExpr.shape, Bool.and_eq_true] at hw
    have := setlp_pos' (s := l) hw.1.1.1
    have h2 : 0 < op.level := by cases op <;> simp [SetOp.level]
    simp only [SetExpr.lp]
    omega

theorem read_setSelect {s : SQLSelect}
    (hs : ∀ ks, K (s.lang fns clean) ks → ∃ w tl, ks = .word w :: tl ∧ fk (.word w) = .kw .SELECT ∧
      Ev fun m => ∀ (b : List Token) (rest : List Tok), folB s.edge (hd rest) = true →
      (parseSelect (Parsers.at fns m) Pos.zero).runZ b (Z (tl ++ rest)) = .ok (.select s.erase) (R tl b, Z rest)) :
    AllB fns (.select s) := by
  intro ks h
  simp only [SetExpr.lang] at h
  obtain ⟨w, tl, rfl, hw, h⟩ := hs ks h
  refine ⟨1, h.mono fun m hm => ?_⟩
  intro p b rest hp hf hr
  have h1 := fun b => hm b rest hf
  simp [SetExpr.erase, zx, at_queryBody, queryBodyF, hw, h1]

theorem read_setQuery {q : QueryStmt} {x y : Pos} (hq : AllQ fns q) : AllB fns (.query x y q) := by
  intro ks h
  simp only [SetExpr.lang] at h
  drop_ h with -
  replace h : K (sym .LParen ⬝ _ ⬝ sym .RParen) ks := h
  eatS h s
  split_ h h1 k1 k2
  eatS h s'
  refine ⟨1, (hq _ h1).mono fun m hm => ?_⟩
  intro p b rest hp hf hr
  have h1 := fun b => hm b (.sym .RParen s' :: rest) (by nxt)
  simp [SetExpr.erase, zx, queryBodyF, h1]

theorem setOp_K {op : SetOp} (h : K (setOpLang op) ks) : ∃ w, ks = [.word w] ∧ fk (.word w) = .kw op.kw ∧ kwOf w.keyword = some op.kw := by
  cases op with
  | union f t => simp only [setOpLang] at h; eatK h w hf hk; drop_ h with -; exact ⟨w, rfl, hf, hk⟩
  | except f t => simp only [setOpLang] at h; eatK h w hf hk; drop_ h with -; exact ⟨w, rfl, hf, hk⟩
  | intersect f t => simp only [setOpLang] at h; eatK h w hf hk; drop_ h with -; exact ⟨w, rfl, hf, hk⟩

theorem read_setOp {op : SetOp} {all : Bool} {l r : SetExpr} (hw : (SetExpr.setOp op all l r).shape freeWord = true)
    (hl : AllB fns l) (hr : AllB fns r) : AllB fns (.setOp op all l r) := by
  simp only [SetExpr.shape, Bool.and_eq_true, decide_eq_true_eq] at hw
  obtain ⟨⟨⟨w1, w2⟩, w3⟩, w4⟩ := hw
  intro ks h
  simp only [SetExpr.lang] at h
  split_ h h1 k1 k2
  split_ h h2 k2 k3
  split_ h h3 k3 k4
  replace h2 := setOp_K h2
  obtain ⟨w, rfl, hfw, hkw⟩ := h2
  replace h3 := flag_K h3
  obtain ⟨c, hl⟩ := hl _ h1
  refine ⟨1 + c, ((hl.add 1).and (hr _ h).full).mono fun m hm => ?_⟩
  intro p b rest hp hf hrp
  obtain ⟨hl, hr⟩ := hm
  have e1 : m + (1 + c) = m + 1 + c := by omega
  simp only [SetExpr.lp] at hp
  simp only [SetExpr.rp] at hrp
  have e2 := fun b => hr op.level b rest w4 hf (by omega) (by omega)
  have e3 : hd (k4 ++ rest) ≠ .kw .ALL ∧ hd (k4 ++ rest) ≠ .odd := by
    rcases hd_body' w2 h rest with h | h <;> rw [h] <;> simp
  rw [e1]
  simp only [List.append_assoc, List.cons_append, List.nil_append, SetExpr.erase]
  rw [hl p b _ (by omega) (by simp only [hd_cons, hfw]; cases op <;> rfl) (by simp only [hd_cons, hfw]; cases op <;> exact w3)]
  rcases h3 with ⟨rfl, rfl⟩ | ⟨w', rfl, rfl, hf', -⟩
  · cases op <;>
      (simp only [SetOp.level, SetOp.kw] at e2 hkw hfw
       simp only [SetOp.level] at hp
       have hp' := fun n (h : p < n) => Nat.not_le.2 h
       have hp' := hp' _ (Nat.lt_of_lt_of_le hp (Nat.min_le_left _ _))
       simp [zx, SetOp.kw, bodyLoopF, setOperator, SetOp.erase, e2, e3, hp', hkw, hfw])
  · cases op <;>
      (simp only [SetOp.level, SetOp.kw] at e2 hkw hfw
       simp only [SetOp.level] at hp
       have hp' := fun n (h : p < n) => Nat.not_le.2 h
       have hp' := hp' _ (Nat.lt_of_lt_of_le hp (Nat.min_le_left _ _))
       simp [zx, SetOp.kw, bodyLoopF, setOperator, SetOp.erase, e2, e3, hp', hkw, hfw, hf'])

/-! ### Queries -/

def CTER (fns : FloatFns) : CTE → Prop
  | .mk _ q _ => AllQ fns q

theorem read_cteList {cs : List CTE} (hw : CTE.shapes freeWord cs = true) (ha : ∀ c ∈ cs, CTER fns c)
    (h : K (sepBy .Comma (CTE.langs fns clean cs)) ks) :
    Ev fun m => Parses (Parsers.at fns m).cteList ks (CTE.erases cs) (notSym .Comma) := by
  induction cs generalizing ks with
  | nil => simp only [CTE.langs, sepBy] at h; exact h.never.elim
  | cons c cs ih =>
    obtain ⟨a, q, p⟩ := c
    simp only [CTE.shapes, CTE.shape, Bool.and_eq_true] at hw
    have hq : AllQ fns q := ha (.mk a q p) (by simp)
    have one : ∀ {ks}, K (CTE.lang fns clean (.mk a q p)) ks → ∃ w w' s s' vs,
        ks = .word w :: .word w' :: .sym .LParen s :: (vs ++ [.sym .RParen s']) ∧ w.string = a.value ∧ Free (fk (.word w)) ∧
        fk (.word w') = .kw .AS ∧ K (q.lang fns clean) vs := by
      intro ks h
      simp only [CTE.lang] at h
      eatI h hw.1.1 w hf hk e
      eatK h w' hf' hk'
      drop_ h with -
      replace h : K (sym .LParen ⬝ _ ⬝ sym .RParen) _ := h
      eatS h s
      split_ h h1 k1 k2
      eatS h s'
      exact ⟨w, w', s, s', k1, rfl, e, hf, hf', h1⟩
    cases cs with
    | nil =>
      simp only [CTE.langs, sepBy] at h
      obtain ⟨w, w', s, s', vs, rfl, e, hf, hf', h⟩ := one h
      refine ((hq _ ‹_›).mono fun m hm => ?_).succ
      intro b rest hr
      simp only [notSym, decide_eq_true_eq] at hr
      have h1 := fun b => hm b (.sym .RParen s' :: rest) (by nxt)
      simp [CTE.erases, CTE.erase, Ident.erase, zx, cteListF, h1, hr, hf', e]
    | cons c' cs =>
      simp only [CTE.langs, sepBy] at h
      split_ h h1 k1 k2
      replace h1 := one h1
      obtain ⟨w, w', s, s', vs, rfl, e, hf, hf', h1⟩ := h1
      eatS h s2
      refine (((hq _ h1).and (ih hw.2 (fun x hx => ha x (by simp [hx])) h)).mono fun m hm => ?_).succ
      intro b rest hr
      have h1 := fun b rest => hm.1 b (.sym .RParen s' :: rest) (by nxt)
      have h2 := fun b => hm.2 b rest hr
      rw [CTE.erases]
      simp [CTE.erase, Ident.erase, zx, cteListF, h1, h2, hf', e]

theorem longOK_num {v : LongValue} (hv : longOK v = true) : sizeOK v.long.toNat = true ∧ ((v.long.toNat : Nat) : Int) = v.long := by
  obtain ⟨h1, h2⟩ := longOK_eq hv
  simp only [longOK, Bool.and_eq_true, decide_eq_true_eq] at hv
  constructor
  · simp only [sizeOK, decide_eq_true_eq]; omega
  · omega

theorem limit_K {l : Option LimitExpr} (hw : ∀ x, l = some x → x.wf = true) (h : K (limitLang l) ks) : (l = none ∧ ks = []) ∨
    ∃ x w tl, l = some x ∧ ks = .word w :: tl ∧ fk (.word w) = .kw .LIMIT ∧ ∀ (b : List Token) (rest : List Tok),
      hd rest ≠ .kw .OFFSET → hd rest ≠ .odd → parseLimit.runZ b (Z (tl ++ rest)) = .ok x.erase (R tl b, Z rest) := by
  match l with
  | none =>
    simp only [limitLang] at h
    drop_ h with -
    exact .inl ⟨rfl, rfl⟩
  | some ⟨none, ap, lp, none⟩ =>
    simp only [limitLang] at h
    eatK h w hf hk
    eatK h w2 hf2 hk2
    drop_ h with -
    refine .inr ⟨_, w, _, rfl, rfl, hf, fun b rest h1 h2 => ?_⟩
    simp [LimitExpr.erase, zx, parseLimit, hf2]
  | some ⟨none, _, _, some _⟩ => simp only [limitLang] at h; exact h.never.elim
  | some ⟨some n, ap, lp, none⟩ =>
    have hw := hw _ rfl
    simp only [LimitExpr.wf, Bool.and_eq_true] at hw
    obtain ⟨w1, w2⟩ := longOK_num hw.1
    simp only [limitLang] at h
    eatK h w hf hk
    eat h with ⟨s, rfl, hn⟩
    drop_ h with -
    replace hn := hn w1

    refine .inr ⟨_, w, _, rfl, rfl, hf, fun b rest h1 h2 => ?_⟩
    simp [LimitExpr.erase, LongValue.erase, zx, parseLimit, literalInt_number hn, w2, h1, h2]
  | some ⟨some n, ap, lp, some o⟩ =>
    have hw := hw _ rfl
    simp only [LimitExpr.wf, Bool.and_eq_true] at hw
    obtain ⟨w1, w2⟩ := longOK_num hw.1
    obtain ⟨u1, u2⟩ := longOK_num (v := o) hw.2
    simp only [limitLang] at h
    eatK h w hf hk
    eat h with ⟨s, rfl, hn⟩
    eatK h w3 hf2 hk2
    eat h with ⟨s', rfl, hn'⟩
    drop_ h with -
    replace hn := hn w1

    replace hn' := hn' u1

    refine .inr ⟨_, w, _, rfl, rfl, hf, fun b rest h1 h2 => ?_⟩
    simp [LimitExpr.erase, LongValue.erase, zx, parseLimit, literalInt_number hn, literalInt_number hn', w2, u2, hf2, h1, h2]

theorem fQ_facts {e : Edge} {f : Fk} (h : folQ e f = true) : folB e f = true ∧ setPrec f = 0 ∧ f ≠ .kw .ORDER ∧ f ≠ .kw .LIMIT ∧
    f ≠ .kw .OFFSET ∧ f ≠ .odd ∧ f ≠ .eof ∧ (fL f && f != .kw .ASC && f != .kw .DESC) = true := by
  unfold folQ at h
  split at h
  all_goals first
    | (cases h; done)
    | (cases e <;> first | (cases h; done) | (refine ⟨rfl, rfl, ?_, ?_, ?_, ?_, ?_, rfl⟩ <;> (intro he; cases he)))

theorem ctes_nil {es : List CTE} : CTE.langs fns clean es = [] ↔ es = [] := by
  cases es with
  | nil => simp [CTE.langs]
  | cons e es => simp [CTE.langs]

theorem orders_nil {es : List OrderByExpr} : OrderByExpr.langs fns clean es = [] ↔ es = [] := by
  cases es with
  | nil => simp [OrderByExpr.langs]
  | cons e es => simp [OrderByExpr.langs]

theorem read_query {p : Pos} {ctes : List CTE} {body : SetExpr} {os : List OrderByExpr} {lim : Option LimitExpr}
    (hw : (QueryStmt.mk p ctes body os lim).shape freeWord = true) (hc : ∀ c ∈ ctes, CTER fns c) (hb : AllB fns body)
    (ho : ∀ e p asc, .mk e p asc ∈ os → AllE fns e) : AllQ fns (.mk p ctes body os lim) := by
  simp only [QueryStmt.shape, Bool.and_eq_true] at hw
  obtain ⟨⟨⟨w1, w2⟩, w3⟩, w4⟩ := hw
  intro ks h
  simp only [QueryStmt.lang] at h
  split_ h hC C k1
  split_ h hB B k2
  split_ h hO O k3
  drop_ h with -
  replace hC := clause_K hC
  replace hO := clause2_K hO
  replace h := limit_K (fun x hx => by subst hx; simp only [Bool.and_eq_true] at w4; exact w4.1) h
  have e1 : Ev fun m => ∀ w vs, C = .word w :: vs → Parses (Parsers.at fns m).cteList vs (CTE.erases ctes) (notSym .Comma) := by
    rcases hC with ⟨rfl, -⟩ | ⟨w, vs, rfl, -, -, hC⟩
    · exact Ev.of fun m w vs h => by cases h
    · exact (read_cteList w1 hc hC).mono fun m hm w vs h => by cases h; exact hm
  have e3 : Ev fun m => ∀ w w' vs, O = .word w :: .word w' :: vs → Parses (Parsers.at fns m).orderByList vs (OrderByExpr.erases os)
      (fun f => fL f && f != .kw .ASC && f != .kw .DESC) := by
    rcases hO with ⟨rfl, -⟩ | ⟨w, w', vs, rfl, -, -, -, hO⟩
    · exact Ev.of fun m w w' vs h => by cases h
    · exact (read_orderByList ho hO).mono fun m hm w w' vs h => by cases h; exact hm
  refine ((e1.and ((hb _ hB).full.and e3)).mono fun m hm => ?_).succ
  obtain ⟨e1, e2, e3⟩ := hm
  intro b rest hr
  obtain ⟨-, -, fo, fl, ff, fd, -, fa⟩ := fQ_facts hr
  generalize k3 = L at h
  have h4 : hd (L ++ rest) = if lim.isSome then .kw .LIMIT else hd rest := by
    rcases h with ⟨rfl, rfl⟩ | ⟨x, w, tl, rfl, rfl, hf, -⟩
    · rfl
    · exact hf
  have hOe : (O = [] ∧ os = []) ∨ ∃ w w' vs, O = .word w :: .word w' :: vs ∧ fk (.word w) = .kw .ORDER ∧ fk (.word w') = .kw .BY ∧ os ≠ [] := by
    rcases hO with ⟨rfl, hn⟩ | ⟨w, w', vs, rfl, hf, hf', hn, -⟩
    · rw [orders_nil] at hn; exact .inl ⟨rfl, hn⟩
    · exact .inr ⟨w, w', vs, rfl, hf, hf', fun e => hn (orders_nil.2 e)⟩
  have h3 : hd (O ++ (L ++ rest)) = if os.isEmpty then hd (L ++ rest) else .kw .ORDER := by
    rcases hOe with ⟨rfl, rfl⟩ | ⟨w, w', vs, rfl, hf, hf', hn⟩
    · rfl
    · rw [List.isEmpty_eq_false_iff.2 hn]; exact hf
  have k4 : hd (L ++ rest) ≠ .kw .ORDER ∧ hd (L ++ rest) ≠ .odd ∧ (fL (hd (L ++ rest)) && hd (L ++ rest) != .kw .ASC && hd (L ++ rest) != .kw .DESC) = true := by
    rw [h4]; split
    · decide
    · exact ⟨fo, fd, fa⟩
  have k3 : folB body.edge (hd (O ++ (L ++ rest))) = true ∧ setPrec (hd (O ++ (L ++ rest))) = 0 := by
    rw [h3]
    cases hoc : os with
    | cons o os => exact ⟨rfl, rfl⟩
    | nil =>
      simp only [List.isEmpty_nil, if_true]
      rw [h4]
      cases hlc : lim with
      | none =>
        rw [hoc, hlc] at hr
        simp only [QueryStmt.edge, List.isEmpty_nil, Option.isNone_none, Bool.and_true, if_true] at hr
        exact ⟨(fQ_facts hr).1, (fQ_facts hr).2.1⟩
      | some l =>
        simp only [hoc, hlc, List.isEmpty_nil, Bool.not_true, Bool.false_or, Bool.and_eq_true, beq_iff_eq] at w4
        rw [w4.2]
        exact ⟨rfl, rfl⟩
  have hbd := hd_body' (fns := fns) w2 hB (O ++ (L ++ rest))
  have s2 := fun b => e2 0 b (O ++ (L ++ rest)) (setlp_pos' w2) k3.1 (by omega) (by omega)
  have s4 : ∀ b, (do
      if ← kw .LIMIT then do
        let l ← parseLimit
        pure (some l)
      else pure none : P (Option LimitExpr)).runZ b (Z (L ++ rest)) = .ok (lim.map LimitExpr.erase) (R L b, Z rest) := by
    intro b
    rcases h with ⟨rfl, rfl⟩ | ⟨x, w, tl, rfl, rfl, hf, h⟩
    · simp [zx, fl, fd]
    · have h5 := fun b => h b rest ff fd
      simp [zx, hf, h5]
  have s3 : ∀ b, (do
      match ← parseKeywords [.ORDER, .BY] with
      | some _ => (Parsers.at fns m).orderByList
      | none => pure [] : P (List OrderByExpr)).runZ b (Z (O ++ (L ++ rest))) = .ok (OrderByExpr.erases os) (R O b, Z (L ++ rest)) := by
    intro b
    rcases hOe with ⟨rfl, rfl⟩ | ⟨w, w', vs, rfl, hf, hf', hn⟩
    · simp [OrderByExpr.erases, zx, k4]
    · have := fun b => e3 w w' vs rfl b (L ++ rest) k4.2.2
      simp [zx, this, hf, hf']
  have s1 : ∀ b, (do if ← kw .WITH then (Parsers.at fns m).cteList else pure [] : P (List CTE)).runZ b
      (Z (C ++ (B ++ (O ++ (L ++ rest))))) = .ok (CTE.erases ctes) (R C b, Z (B ++ (O ++ (L ++ rest)))) := by
    intro b
    rcases hC with ⟨rfl, hn⟩ | ⟨w, vs, rfl, hf, -, -⟩
    · rw [ctes_nil] at hn; subst hn
      have : hd (B ++ (O ++ (L ++ rest))) ≠ .kw .WITH ∧ hd (B ++ (O ++ (L ++ rest))) ≠ .odd := by
        rcases hbd with h | h <;> rw [h] <;> simp
      simp [CTE.erases, zx, this]
    · have := fun b => e1 w vs rfl b (B ++ (O ++ (L ++ rest))) (by
        rcases hbd with h | h <;> rw [h] <;> simp [notSym])
      simp [zx, this, hf]
  simp only [List.append_assoc]
  rw [at_query, queryF, runZ_bindM, s1, Res.bind_ok, runZ_bindM, s2, Res.bind_ok, runZ_bindM]
  erw [s3]
  rw [Res.bind_ok, runZ_bindM, s4, Res.bind_ok, runZ_pure]
  simp only [QueryStmt.erase, R_append]

end Verif
