import Verif.Proofs.ReadExpr3
import Verif.Proofs.ParseQuery
/-
Completeness of the grammar: select lists, table references and SELECT.
-/
set_option linter.unusedSimpArgs false
namespace Verif
open Spec

variable {fns : FloatFns} {ks : List Tok}

/-! ### Aliases -/

theorem alias_K {bad : List KW} {a : Ident} (ha : freeWord a.value = true) (h : K (aliasLang bad a) ks) :
    ∃ w, Free (fk (.word w)) ∧ freeKw (kwOf w.keyword) = true ∧ w.string = a.value ∧
      (ks = [.word w] ∨ ∃ w', fk (.word w') = .kw .AS ∧ ks = [.word w', .word w]) := by
  replace h : K (kwd .AS ⬝ word [] a ⊹ word bad a) ks := h
  alt_ h
  · eatK h w' hf' hk'
    eatI h ha w hf hk e
    exact ⟨w, hf, hk, e, .inr ⟨w', hf', rfl⟩⟩
  · eatI h ha w hf hk e
    exact ⟨w, hf, hk, e, .inl rfl⟩

theorem read_alias1 {table : KW → Bool} (ht : ∀ k : KW, k.free = true → table k = false) {bad : List KW} {a : Ident} (ha : freeWord a.value = true) (h : K (aliasLang bad a) ks)
    (b : List Token) (rest : List Tok) : (parseOptionalAlias table).runZ b (Z (ks ++ rest)) = .ok (some a.erase) (R ks b, Z rest) := by
  obtain ⟨w, hf, hk, e, rfl | ⟨w', hf', rfl⟩⟩ := alias_K ha h
  · simp [parseOptionalAlias, zx, hf, isReserved_free hk ht, e, Ident.erase]
  · simp [parseOptionalAlias, zx, hf', hf, e, Ident.erase]

theorem hd_alias1 {bad : List KW} {a : Ident} (ha : freeWord a.value = true) (h : K (aliasLang bad a) ks) (rest : List Tok) :
    Free (hd (ks ++ rest)) ∨ hd (ks ++ rest) = .kw .AS := by
  obtain ⟨w, hf, hk, e, rfl | ⟨w', hf', rfl⟩⟩ := alias_K ha h
  · exact .inl hf
  · exact .inr hf'

theorem read_alias {table : KW → Bool} (ht : ∀ k : KW, k.free = true → table k = false) {o : Option Ident} (hs : optIdentShape freeWord o = true) (h : K (tableAliasLang clean o) ks)
    {rest : List Tok} (hr : o = none → noAlias table (hd rest) = true) (b : List Token) :
    (parseOptionalAlias table).runZ b (Z (ks ++ rest)) = .ok (o.map Ident.erase) (R ks b, Z rest) := by
  cases o with
  | none =>
    replace h : K eps ks := h
    drop_ h with -
    simpa [zx] using alias_none (hr rfl) b
  | some a => exact read_alias1 ht hs h b rest

theorem hd_alias {o : Option Ident} (hs : optIdentShape freeWord o = true) (h : K (tableAliasLang clean o) ks) (rest : List Tok) :
    Free (hd (ks ++ rest)) ∨ hd (ks ++ rest) = .kw .AS ∨ hd (ks ++ rest) = hd rest := by
  cases o with
  | none =>
    replace h : K eps ks := h
    drop_ h with -
    exact .inr (.inr rfl)
  | some a => exact (hd_alias1 hs h rest).elim .inl fun h => .inr (.inl h)

/-! ### Select lists -/

theorem fItem_facts {e : Edge} {f : Fk} (h : folItem e f = true) : fX f = true := by
  unfold folItem at h
  split at h <;> first | rfl | cases h

/-- The item of a select list, with the expression read. -/
def ItemR (fns : FloatFns) : SelectItem → Prop
  | .unnamed e => AllE fns e
  | .alias e _ => AllE fns e
  | _ => True

theorem read_item {i : SelectItem} (hw : i.shape freeWord = true) (hi : ItemR fns i) (h : K (i.lang fns clean) ks) :
    Ev fun m => Parses (do let e ← parseExpr (Parsers.at fns m); itemP e) ks i.erase (folItem i.edge) := by
  match i with
  | .unnamed e =>
    simp only [SelectItem.shape, Bool.and_eq_true] at hw
    simp only [SelectItem.lang] at h
    have hi : AllE fns e := hi
    refine (hi _ h).mono fun m hm => ?_
    intro b rest hr
    have h1 := fun b => hm b rest (fItem_facts hr)
    have h2 := fun b => alias_none (folItem_alias hr rfl) b
    simp [SelectItem.erase, zx, parseExpr, h1, itemP_other (erase_notWild hw.2), h2]
  | .alias e a =>
    simp only [SelectItem.shape, Bool.and_eq_true] at hw
    simp only [SelectItem.lang] at h
    have hi : AllE fns e := hi
    split_ h h1 k1 k2
    refine (hi _ h1).mono fun m hm => ?_
    intro b rest hr
    have h1 := fun b => hm b (k2 ++ rest) (by
      rcases hd_alias1 hw.1.2 h rest with e | e
      · exact fX_free e.1
      · rw [e]; decide)
    have h2 := fun b => read_alias1 free_column hw.1.2 h b rest
    simp [SelectItem.erase, zx, parseExpr, h1, itemP_other (erase_notWild hw.2), h2]
  | .qualifiedWildcard p =>
    simp only [SelectItem.shape] at hw
    simp only [SelectItem.lang] at h
    have hi : ReadsE fns (.qualifiedWildcard p.idents) ks := (read_qualifiedWildcard hw h).sub.full.expr hw
    refine hi.mono fun m hm => ?_
    intro b rest hr
    have h1 := fun b => hm b rest (fItem_facts hr)
    simp only [SelectItem.erase, runZ_bindM, parseExpr, h1, Expr.erase, itemP]
    simp [zx, ObjectName.erase]
  | .wildcard _ _ => simp [SelectItem.shape] at hw

theorem read_selectList {is : List SelectItem} (hw : SelectItem.shapes freeWord is = true)
    (hi : ∀ i ∈ is, ItemR fns i) (h : K (sepBy .Comma (SelectItem.langs fns clean is)) ks) :
    Ev fun m => Parses (Parsers.at fns m).selectList ks (SelectItem.erases is)
      (fun f => folItem (itemsEdge is) f && f != .sym .Comma) := by
  induction is generalizing ks with
  | nil => simp only [SelectItem.langs, sepBy] at h; exact h.never.elim
  | cons i is ih =>
    simp only [SelectItem.shapes, Bool.and_eq_true] at hw
    cases is with
    | nil =>
      simp only [SelectItem.langs, sepBy] at h
      refine ((read_item hw.1 (hi i (by simp)) h).mono fun m hm => ?_).succ
      intro b rest hr
      simp only [Bool.and_eq_true, bne_iff_ne] at hr
      have h1 := hm b rest hr.1
      cases rest with
      | nil => exact absurd rfl (folItem_facts hr.1).2.1
      | cons t rest =>
        simp only [hd] at hr
        rw [selectList_runZ, h1]
        simp [zx, hr.2, SelectItem.erases]
    | cons i' is =>
      simp only [SelectItem.langs, sepBy] at h
      split_ h hl u v
      eatS h s
      refine (((read_item hw.1 (hi i (by simp)) hl).and (ih hw.2 (fun x hx => hi x (by simp [hx])) h)).mono fun m hm => ?_).succ
      intro b rest hr
      have h1 := fun rest => hm.1 b (.sym .Comma s :: rest) (by simp [zx, folItem])
      have h2 := fun b => hm.2 b rest (by simpa [itemsEdge] using hr)
      rw [selectList_runZ, List.append_assoc, List.cons_append, h1, SelectItem.erases]
      simp [zx, h2]

/-! ### Table references -/

theorem fTab_facts {e : Edge} {f : Fk} (h : folTab e f = true) : fX f = true := by
  unfold folTab at h
  split at h
  all_goals try rfl
  unfold joinWord at h
  split at h
  all_goals first | rfl | cases h

/-- The subquery or hints of a table factor, read. -/
def FactorR (fns : FloatFns) : TableFactor → Prop
  | .table _ _ _ _ hints _ => ∀ e ∈ hints, AllE fns e
  | .derived _ _ _ _ q _ => AllQ fns q

theorem hints_K {es : List Expr} (h : K (clause (fun L => kwd .WITH ⬝ parens L) (Expr.langs fns clean es)) ks) :
    (es = [] ∧ ks = []) ∨ ∃ w s s' vs, es ≠ [] ∧ ks = .word w :: .sym .LParen s :: (vs ++ [.sym .RParen s']) ∧ fk (.word w) = .kw .WITH ∧
      K (sepBy .Comma (Expr.langs fns clean es)) vs := by
  cases es with
  | nil =>
    simp only [Expr.langs] at h
    replace h : K eps ks := h
    drop_ h with -
    exact .inl ⟨rfl, rfl⟩
  | cons e es =>
    rw [langs_cons] at h ⊢
    replace h : K (kwd .WITH ⬝ sym .LParen ⬝ sepBy .Comma (e.lang fns clean :: Expr.langs fns clean es) ⬝ sym .RParen) ks := h
    eatK h w hf hk
    eatS h s
    split_ h h1 k1 k2
    eatS h s'
    exact .inr ⟨w, s, s', k1, by simp, rfl, hf, h1⟩

theorem read_factor {f : TableFactor} (hw : f.shape freeWord = true) (hf : FactorR fns f) (h : K (f.lang fns clean) ks) :
    Ev fun m => Parses (parseTableFactor (Parsers.at fns m)) ks f.erase (folTab f.edge) := by
  match f with
  | .derived lateral p1 p2 p3 q alias =>
    simp only [TableFactor.shape, Bool.and_eq_true] at hw
    simp only [TableFactor.lang] at h
    have hf : AllQ fns q := hf
    split_ h h1 k1 k2
    replace h : K ((sym .LParen ⬝ q.lang fns clean ⬝ sym .RParen) ⬝ _) k2 := h
    replace h := K.assoc h
    eatS h s
    replace h := K.assoc h
    split_ h h2 k2 k3
    eatS h s'
    drop_ h with -
    refine (hf _ h2).mono fun m hm => ?_
    intro b rest hr
    have e1 := fun b rest => hm b (.sym .RParen s' :: rest) (by nxt)
    have e2 := fun b => read_alias free_table (rest := rest) hw.2 h
      (fun h => folTab_alias hr (by rw [h]; simp [TableFactor.edge])) b
    rcases flag_K h1 with ⟨rfl, rfl⟩ | ⟨w, rfl, rfl, hfw, -⟩
    · simp [TableFactor.erase, zx, parseTableFactor, e1, e2]
    · simp [TableFactor.erase, zx, parseTableFactor, e1, e2, hfw]
  | .table name alias (a :: as) p hints p' =>
    simp only [TableFactor.lang] at h
    split_ h h1 k1 k2
    eatS h s
    split_ h h2 k2 k3
    split_ h h3 k3 k4
    split_ h h4 k4 k5
    replace h := h.skip.2
    drop_ h with hc
    cases hc
  | .table name alias [] p hints p' =>
    simp only [TableFactor.shape, Bool.and_eq_true] at hw
    obtain ⟨⟨⟨hn, ha⟩, -⟩, hh⟩ := hw
    have hf : ∀ e ∈ hints, AllE fns e := hf
    simp only [TableFactor.lang] at h
    split_ h h1 k1 k2
    replace h : K (eps ⬝ _) k2 := h
    replace h := h.skip.2
    split_ h h2 k2 k3
    drop_ h with -
    rcases hints_K h with ⟨rfl, rfl⟩ | ⟨w, s, s', vs, hne, rfl, hfw, h⟩
    · refine (read_objectName (fns := fns) hn h1).mono fun m hm => ?_
      intro b rest hr
      obtain ⟨-, -, f1, f2, f3, f4⟩ := folTab_facts hr
      have hA : hd (k2 ++ rest) ≠ .sym .LParen ∧ hd (k2 ++ rest) ≠ .sym .Period := by
        rcases hd_alias ha h2 rest with e | e | e
        · simp [e]
        all_goals rw [e]; simp [f2, f3]
      have e1 := fun b => hm b (k2 ++ rest) (by simp [notSym, hA])
      have e2 := fun b => read_alias free_table (rest := rest) ha h2
        (fun h => folTab_alias hr (by rw [h]; simp [TableFactor.edge])) b
      have e3 := hd_objectName' hn h1 (k2 ++ rest)
      simp [TableFactor.erase, Expr.erases, zx, parseTableFactor, e1, e2, e3, hA, f1, f4]
    · refine ((read_objectName (fns := fns) hn h1).and (read_exprList hf h)).mono fun m hm => ?_
      intro b rest hr
      have hA : ∀ rest, hd (k2 ++ .word w :: rest) ≠ .sym .LParen ∧ hd (k2 ++ .word w :: rest) ≠ .sym .Period := by
        intro rest
        rcases hd_alias ha h2 (.word w :: rest) with e | e | e
        · simp [e]
        all_goals rw [e]; simp [zx, hfw]
      have e1 := fun b rest => hm.1 b (k2 ++ .word w :: rest) (by simp [notSym, hA])
      have e2 := fun b rest => read_alias free_table (rest := .word w :: rest) ha h2
        (fun h => by nxt) b
      have e3 := fun rest => hd_objectName' hn h1 (k2 ++ .word w :: rest)
      have e4 := fun b => hm.2 b (.sym .RParen s' :: rest) (by nxt)
      simp only [zx] at e2
      simp [TableFactor.erase, Expr.erases, zx, parseTableFactor, e1, e2, e3, hA, e4, hfw]

/-- `parseTableReference` reads the reference and continues with its loop. -/
def ReadsR (fns : FloatFns) (t : TableRef) (ks : List Tok) : Prop :=
  ∃ c, Ev fun m => ∀ (b : List Token) (rest : List Tok), folTab t.edge (hd rest) = true →
    (t.open_ = true ∨ joinWord (hd rest) = false) →
    (Parsers.at fns (m + c)).tableRef.runZ b (Z (ks ++ rest)) =
      ((Parsers.at fns m).tableRefLoop t.base.erase t.erase).runZ (R ks b) (Z rest)

/-- `parseTableReference` reads exactly the reference. -/
def ReadsT (fns : FloatFns) (t : TableRef) (ks : List Tok) : Prop :=
  Ev fun m => Parses (Parsers.at fns m).tableRef ks t.erase (fun f => folTab t.edge f && !joinWord f)

def ReadsJ (fns : FloatFns) (s : JoinSpec) (ks : List Tok) : Prop :=
  Ev fun m => Parses (parseJoinSpec (Parsers.at fns m)) ks s.erase (folTab .closed)

def AllR (fns : FloatFns) (t : TableRef) : Prop := ∀ ks, K (t.lang fns clean) ks → ReadsR fns t ks
def AllT (fns : FloatFns) (t : TableRef) : Prop := ∀ ks, K (t.lang fns clean) ks → ReadsT fns t ks
def AllJ (fns : FloatFns) (s : JoinSpec) : Prop := ∀ ks, K (s.lang fns clean) ks → ReadsJ fns s ks

theorem ReadsR.full {t : TableRef} (h : ReadsR fns t ks) : ReadsT fns t ks := by
  obtain ⟨c, n, hn⟩ := h
  refine ⟨n + 1 + c, fun m hm => ?_⟩
  obtain ⟨k, rfl⟩ : ∃ k, m = (k + 1) + c := ⟨m - 1 - c, by omega⟩
  intro b rest hr
  simp only [Bool.and_eq_true, Bool.not_eq_true'] at hr
  rw [hn (k + 1) (by omega) b rest hr.1 (.inr hr.2)]
  simp [zx, tableRefLoopF, right_none hr.1 hr.2]

theorem AllR.full {t : TableRef} (h : AllR fns t) : AllT fns t := fun ks hk => (h ks hk).full

theorem read_refFactor {f : TableFactor} (hw : f.shape freeWord = true) (hf : FactorR fns f) : AllR fns (.factor f) := by
  intro ks h
  simp only [TableRef.lang] at h
  refine ⟨1, (read_factor hw hf h).mono fun m hm => ?_⟩
  intro b rest hr hj
  have h1 := fun b => hm b rest hr
  simp [TableRef.erase, TableRef.base, zx, tableRefF, h1]

theorem read_cross {l : TableFactor} {f : TableFactor} (hl : AllR fns (.factor l)) (hw : f.shape freeWord = true) (hf : FactorR fns f) :
    AllR fns (.cross (.factor l) f) := by
  intro ks h
  rw [TableRef.lang] at h
  split_ h h1 k1 k2
  replace h : K (eps ⬝ _) k2 := h
  replace h := h.skip.2
  eatK h w hf1 hk1
  eatK h w2 hf2 hk2
  obtain ⟨c, hl⟩ := hl _ h1
  refine ⟨1 + c, ((hl.add 1).and (read_factor hw hf h)).mono fun m hm => ?_⟩
  intro b rest hr hj
  have e1 : m + (1 + c) = m + 1 + c := by omega
  have e2 := fun b rest => hm.1 b (.word w :: rest) (by nxt) (.inl rfl)
  have e3 := fun b => hm.2 b rest hr
  simp only [List.append_assoc, List.cons_append, e1] at e2 ⊢
  rw [e2]
  simp [TableRef.erase, TableRef.base, zx, tableRefLoopF, parseTableReferenceRight, e3, hf1, hk1, hf2, hk2]

theorem read_joinSpec {s : JoinSpec} (hw : s.shape freeWord = true) (he : ∀ e p, s = .condition e p → AllE fns e) : AllJ fns s := by
  intro ks h
  match s with
  | .condition e p =>
    simp only [JoinSpec.lang] at h
    eatK h w hf hk
    refine (he e p rfl _ h).mono fun m hm => ?_
    intro b rest hr
    have h1 := fun b => hm b rest (fTab_facts hr)
    simp [JoinSpec.erase, zx, parseJoinSpec, parseExpr, h1, hf]
  | .namedColumns cols p q =>
    simp only [JoinSpec.shape] at hw
    simp only [JoinSpec.lang] at h
    eatK h w hf hk
    drop_ h with -
    replace h : K (sym .LParen ⬝ _ ⬝ sym .RParen) _ := h
    eatS h s
    split_ h h1 k1 k2
    eatS h s'
    refine (read_columnNames (fns := fns) hw h1).mono fun m hm => ?_
    intro b rest hr
    have h1 := fun b => hm b (.sym .RParen s' :: rest) (by simp [zx, notSym])
    simp only [parseColumnNames] at h1
    simp [JoinSpec.erase, zx, parseJoinSpec, h1, hf]

theorem hd_spec' {s : JoinSpec} (h : K (s.lang fns clean) ks) (rest : List Tok) :
    hd (ks ++ rest) = .kw .ON ∨ hd (ks ++ rest) = .kw .USING := by
  match s with
  | .condition e p => simp only [JoinSpec.lang] at h; eatK h w hf hk; exact .inl hf
  | .namedColumns cols p q => simp only [JoinSpec.lang] at h; eatK h w hf hk; exact .inr hf

/-- The words of the type of a join. -/
def joinWords : JoinCond → List KW
  | .INNER => [.INNER]
  | .LEFT => [.LEFT]
  | .RIGHT => [.RIGHT]
  | .FULL => [.FULL]
  | .LEFTOUTER => [.LEFT, .OUTER]
  | .RIGHTOUTER => [.RIGHT, .OUTER]
  | .FULLOUTER => [.FULL, .OUTER]
  | .IMPLICIT => []

/-- The tokens are the keywords. -/
inductive Words : List KW → List Tok → Prop
  | nil : Words [] []
  | cons {k : KW} {kws : List KW} {w : SQLWord} {ks : List Tok} : fk (.word w) = .kw k → kwOf w.keyword = some k → Words kws ks →
      Words (k :: kws) (.word w :: ks)

theorem joinType_K {nat : Bool} {ty : JoinType} (h : K (joinTypeLang nat ty) ks) : Words (joinWords ty.cond) ks := by
  obtain ⟨ty, p1, p2⟩ := ty
  cases ty with
  | INNER =>
    cases nat with
    | true =>
      replace h : K (spans p1 p2 (kwd .INNER)) ks := h
      eatK h w1 hf1 hk1
      exact .cons hf1 hk1 .nil
    | false =>
      replace h : K (kwd .INNER ⬝ unset2 p1 p2) ks := h
      eatK h w1 hf1 hk1
      drop_ h with -
      exact .cons hf1 hk1 .nil
  | LEFT =>
    replace h : K (spans p1 p2 (kwd .LEFT)) ks := h
    eatK h w1 hf1 hk1
    exact .cons hf1 hk1 .nil
  | RIGHT =>
    replace h : K (kwd .RIGHT ⬝ unset2 p1 p2) ks := h
    eatK h w1 hf1 hk1
    drop_ h with -
    exact .cons hf1 hk1 .nil
  | FULL =>
    replace h : K (kwd .FULL ⬝ unset2 p1 p2) ks := h
    eatK h w1 hf1 hk1
    drop_ h with -
    exact .cons hf1 hk1 .nil
  | LEFTOUTER =>
    replace h : K (spans p1 p2 (kwd .LEFT) ⬝ kwd .OUTER) ks := h
    eatK h w1 hf1 hk1
    eatK h w2 hf2 hk2
    exact .cons hf1 hk1 (.cons hf2 hk2 .nil)
  | RIGHTOUTER =>
    replace h : K (kwd .RIGHT ⬝ kwd .OUTER ⬝ unset2 p1 p2) ks := h
    eatK h w1 hf1 hk1
    eatK h w2 hf2 hk2
    drop_ h with -
    exact .cons hf1 hk1 (.cons hf2 hk2 .nil)
  | FULLOUTER =>
    replace h : K (kwd .FULL ⬝ kwd .OUTER ⬝ unset2 p1 p2) ks := h
    eatK h w1 hf1 hk1
    eatK h w2 hf2 hk2
    drop_ h with -
    exact .cons hf1 hk1 (.cons hf2 hk2 .nil)
  | IMPLICIT =>
    replace h : K (unset2 p1 p2) ks := h
    drop_ h with -
    exact .nil

theorem read_qualified {l r : TableRef} {ty : JoinType} {s : JoinSpec} (ho : l.open_ = true) (hl : AllR fns l)
    (hr : AllT fns r) (hs : AllJ fns s) : AllR fns (.qualified l ty r s) := by
  intro ks h
  simp only [TableRef.lang] at h
  split_ h h1 k1 k2
  split_ h h2 k2 k3
  eatK h w hf0 hk0
  split_ h h3 k4 k5
  obtain ⟨c, hl⟩ := hl _ h1
  replace h2 := joinType_K h2
  obtain ⟨ty, p1, p2⟩ := ty
  refine ⟨1 + c, ((hl.add 1).and ((hr _ h3).and (hs _ h))).mono fun m hm => ?_⟩
  intro b rest hf hj
  obtain ⟨hl, hr, hs⟩ := hm
  have e1 : m + (1 + c) = m + 1 + c := by omega
  have e3 := fun b => hs b rest hf
  have e2 := fun b => hr b (k5 ++ rest) (by rcases hd_spec' (fns := fns) h rest with h | h <;> rw [h] <;> simp [folTab, joinWord])
  simp only [List.append_assoc, List.cons_append, e1]
  cases ty with
  | IMPLICIT =>
    cases h2
    simp only [List.nil_append]
    rw [hl b _ (by nxt) (.inl ho)]
    simp [TableRef.erase, TableRef.base, JoinType.erase, zx, tableRefLoopF, parseTableReferenceRight, parseQualifiedJoin, parseJoinType, e2, e3,
      hf0, hk0]
  | INNER =>
    obtain _ | ⟨hf1, hk1, _ | _⟩ := h2
    simp only [List.cons_append, List.nil_append]
    rw [hl b _ (by nxt) (.inl ho)]
    simp [TableRef.erase, TableRef.base, JoinType.erase, zx, tableRefLoopF, parseTableReferenceRight, parseQualifiedJoin, parseJoinType, e2, e3,
      hf0, hk0, hf1, hk1]
  | LEFT =>
    obtain _ | ⟨hf1, hk1, _ | _⟩ := h2
    simp only [List.cons_append, List.nil_append]
    rw [hl b _ (by nxt) (.inl ho)]
    simp [TableRef.erase, TableRef.base, JoinType.erase, zx, tableRefLoopF, parseTableReferenceRight, parseQualifiedJoin, parseJoinType, e2, e3,
      hf0, hk0, hf1, hk1]
  | RIGHT =>
    obtain _ | ⟨hf1, hk1, _ | _⟩ := h2
    simp only [List.cons_append, List.nil_append]
    rw [hl b _ (by nxt) (.inl ho)]
    simp [TableRef.erase, TableRef.base, JoinType.erase, zx, tableRefLoopF, parseTableReferenceRight, parseQualifiedJoin, parseJoinType, e2, e3,
      hf0, hk0, hf1, hk1]
  | FULL =>
    obtain _ | ⟨hf1, hk1, _ | _⟩ := h2
    simp only [List.cons_append, List.nil_append]
    rw [hl b _ (by nxt) (.inl ho)]
    simp [TableRef.erase, TableRef.base, JoinType.erase, zx, tableRefLoopF, parseTableReferenceRight, parseQualifiedJoin, parseJoinType, e2, e3,
      hf0, hk0, hf1, hk1]
  | LEFTOUTER | RIGHTOUTER | FULLOUTER =>
    obtain _ | ⟨hf1, hk1, _ | ⟨hf2, hk2, _ | _⟩⟩ := h2
    simp only [List.cons_append, List.nil_append]
    rw [hl b _ (by nxt) (.inl ho)]
    simp [TableRef.erase, TableRef.base, JoinType.erase, zx, tableRefLoopF, parseTableReferenceRight, parseQualifiedJoin, parseJoinType, e2, e3,
      hf0, hk0, hf1, hk1, hf2, hk2]

theorem read_natural {l r : TableRef} {ty : JoinType} (ho : l.open_ = true) (hl : AllR fns l)
    (hr : AllT fns r) : AllR fns (.natural l ty r) := by
  intro ks h
  simp only [TableRef.lang] at h
  split_ h h1 k1 k2
  eatK h w3 hf3 hk3
  split_ h h2 k2 k3
  eatK h w hf0 hk0
  obtain ⟨c, hl⟩ := hl _ h1
  replace h2 := joinType_K h2
  obtain ⟨ty, p1, p2⟩ := ty
  refine ⟨1 + c, ((hl.add 1).and (hr _ h)).mono fun m hm => ?_⟩
  intro b rest hf hj
  obtain ⟨hl, hr⟩ := hm
  have e1 : m + (1 + c) = m + 1 + c := by omega
  have hj : joinWord (hd rest) = false := by
    rcases hj with hj | hj
    · cases hj
    · exact hj
  have e2 := fun b => hr b rest (by simp only [hj]; simpa [TableRef.edge] using hf)
  simp only [List.append_assoc, List.cons_append, e1]
  rw [hl b _ (by nxt) (.inl ho)]
  cases ty with
  | IMPLICIT =>
    cases h2
    simp [TableRef.erase, TableRef.base, JoinType.erase, zx, tableRefLoopF, parseTableReferenceRight, parseQualifiedJoin, parseJoinType, e2,
      hf0, hk0, hf3, hk3]
  | INNER | LEFT | RIGHT | FULL =>
    obtain _ | ⟨hf1, hk1, _ | _⟩ := h2
    simp [TableRef.erase, TableRef.base, JoinType.erase, zx, tableRefLoopF, parseTableReferenceRight, parseQualifiedJoin, parseJoinType, e2,
      hf0, hk0, hf1, hk1, hf3, hk3]
  | LEFTOUTER | RIGHTOUTER | FULLOUTER =>
    obtain _ | ⟨hf1, hk1, _ | ⟨hf2, hk2, _ | _⟩⟩ := h2
    simp [TableRef.erase, TableRef.base, JoinType.erase, zx, tableRefLoopF, parseTableReferenceRight, parseQualifiedJoin, parseJoinType, e2,
      hf0, hk0, hf1, hk1, hf2, hk2, hf3, hk3]

/-! ### FROM -/

theorem read_from {ts : List TableRef} (ha : ∀ t ∈ ts, AllT fns t) (h : K (sepBy .Comma (TableRef.langs fns clean ts)) ks) :
    Ev fun m => Parses (parseFromClause (Parsers.at fns m)) ks (TableRef.erases ts) (folFrom (refsEdge ts)) := by
  induction ts generalizing ks with
  | nil => simp only [TableRef.langs, sepBy] at h; exact h.never.elim
  | cons t ts ih =>
    cases ts with
    | nil =>
      simp only [TableRef.langs, sepBy] at h
      obtain ⟨n, hn⟩ := ha t (by simp) _ h
      refine ⟨n + 1, fun m hm => ?_⟩
      obtain ⟨m, rfl⟩ : ∃ k, m = k + 1 := ⟨m - 1, by omega⟩
      intro b rest hr
      simp only [folFrom, Bool.and_eq_true, bne_iff_ne, Bool.not_eq_true'] at hr
      have h1 := fun b => hn (m + 1) (by omega) b rest (by simp only [hr.1.2]; simpa [refsEdge] using hr.1.1)
      have e0 : (Parsers.at fns (m + 1)).fromRest = fromRestF (Parsers.at fns m) := rfl
      simp only [TableRef.erases, parseFromClause, runZ_bindM, h1, Res.bind_ok, e0]
      simp [fromRestF, zx, hr.2]
    | cons t' ts =>
      simp only [TableRef.langs, sepBy] at h
      split_ h h1 k1 k2
      split_ h h3 k3 k2
      eatS h3 s
      obtain ⟨n, hn⟩ := ((ha t (by simp) _ h1).and ((ih (fun x hx => ha x (by simp [hx])) h)))
      refine ⟨n + 1, fun m hm => ?_⟩
      obtain ⟨m, rfl⟩ : ∃ k, m = k + 1 := ⟨m - 1, by omega⟩
      intro b rest hr
      have h1 := fun b rest => (hn (m + 1) (by omega)).1 b (.sym .Comma s :: rest) (by simp [zx, folTab, joinWord])
      have h2 := fun b => (hn m (by omega)).2 b rest (by simpa [refsEdge] using hr)
      have e0 : (Parsers.at fns (m + 1)).fromRest = fromRestF (Parsers.at fns m) := rfl
      simp only [parseFromClause] at h2
      have h3 : ∀ b, ((Parsers.at fns (m + 1)).fromRest).runZ b (Z (.sym .Comma s :: (k2 ++ rest))) =
          .ok (TableRef.erases (t' :: ts)) (R (.sym .Comma s :: k2) b, Z rest) := by
        intro b
        rw [e0, fromRestF, Z_cons, runZ_bindM]
        have h2 := h2 (zt (.sym .Comma s) :: b)
        rw [runZ_bindM] at h2
        simp [zx] at h2 ⊢
        exact h2
      rw [TableRef.erases, parseFromClause]
      simp only [List.append_assoc, List.cons_append, List.nil_append, runZ_bindM, h1, Res.bind_ok]
      rw [h3]
      simp only [Res.bind_ok, zx]


/-! ### SELECT -/

/-- An optional clause with one keyword. -/
theorem clause_K {k : KW} {as : List Lang} (h : K (clause (kwd k ⬝ ·) as) ks) : (ks = [] ∧ as = []) ∨
    ∃ w vs, ks = .word w :: vs ∧ fk (.word w) = .kw k ∧ as ≠ [] ∧ K (sepBy .Comma as) vs := by
  cases as with
  | nil => exact .inl ⟨(K.nil (a := eps) h).1, rfl⟩
  | cons a as =>
    replace h : K (kwd k ⬝ sepBy .Comma (a :: as)) ks := h
    eatK h w hf hk
    exact .inr ⟨w, _, rfl, hf, by simp, h⟩

/-- An optional clause with two keywords. -/
theorem clause2_K {k k' : KW} {as : List Lang} (h : K (clause (kwd k ⬝ kwd k' ⬝ ·) as) ks) : (ks = [] ∧ as = []) ∨
    ∃ w w' vs, ks = .word w :: .word w' :: vs ∧ fk (.word w) = .kw k ∧ fk (.word w') = .kw k' ∧ as ≠ [] ∧ K (sepBy .Comma as) vs := by
  cases as with
  | nil => exact .inl ⟨(K.nil (a := eps) h).1, rfl⟩
  | cons a as =>
    replace h : K (kwd k ⬝ kwd k' ⬝ sepBy .Comma (a :: as)) ks := h
    eatK h w hf hk
    eatK h w2 hf2 hk2
    exact .inr ⟨w, w2, _, rfl, hf, hf2, by simp, h⟩

theorem optional_K {k : KW} {o : Option Expr} (h : K (optional (kwd k ⬝ ·) (Expr.langO fns clean o)) ks) : (ks = [] ∧ o = none) ∨
    ∃ w vs e, ks = .word w :: vs ∧ fk (.word w) = .kw k ∧ o = some e ∧ K (e.lang fns clean) vs := by
  cases o with
  | none =>
    simp only [Expr.langO, Spec.optional] at h
    exact .inl ⟨(K.nil (a := eps) h).1, rfl⟩
  | some e =>
    simp only [Expr.langO, Spec.optional] at h
    eatK h w hf hk
    exact .inr ⟨w, _, e, rfl, hf, rfl, h⟩

theorem langs_nil {es : List Expr} : Expr.langs fns clean es = [] ↔ es = [] := by
  cases es with
  | nil => simp [Expr.langs]
  | cons e es => simp [Expr.langs]

theorem refs_nil {es : List TableRef} : TableRef.langs fns clean es = [] ↔ es = [] := by
  cases es with
  | nil => simp [TableRef.langs]
  | cons e es => simp [TableRef.langs]

/-- An optional expression after a keyword. -/
theorem read_optExpr {k : KW} {o : Option Expr} (ha : ∀ e, o = some e → AllE fns e)
    (h : K (optional (kwd k ⬝ ·) (Expr.langO fns clean o)) ks) :
    Ev fun m => ∀ (b : List Token) (rest : List Tok), hd rest ≠ .kw k → fX (hd rest) = true →
    (do
      if ← kw k then do
        let e ← parseExpr (Parsers.at fns m)
        pure (some e)
      else pure none : P (Option Expr)).runZ b (Z (ks ++ rest)) = .ok (Expr.eraseOpt o) (R ks b, Z rest) := by
  replace h := optional_K h
  rcases h with ⟨rfl, rfl⟩ | ⟨w, vs, e, rfl, hf, rfl, h⟩
  · refine Ev.of fun m b rest hk hx => ?_
    have ho := fE_odd (fX_facts hx).1
    simp [Expr.eraseOpt, zx, hk, ho]
  · refine (ha e rfl _ h).mono fun m hm b rest hk hx => ?_
    have h1 := fun b => hm b rest hx
    simp [Expr.eraseOpt, zx, parseExpr, h1, hf]

theorem hd_optional {k : KW} {o : Option Expr} (h : K (optional (kwd k ⬝ ·) (Expr.langO fns clean o)) ks) (rest : List Tok) :
    hd (ks ++ rest) = if o.isSome then .kw k else hd rest := by
  rcases optional_K h with ⟨rfl, rfl⟩ | ⟨w, vs, e, rfl, hf, rfl, h⟩
  · rfl
  · simp [zx, hf]

theorem fB_facts {e : Edge} {f : Fk} (h : folB e f = true) : fL f = true ∧ f ≠ .eof ∧ f ≠ .kw .HAVING ∧ f ≠ .kw .GROUP ∧
    f ≠ .kw .WHERE ∧ f ≠ .kw .FROM ∧ folItem e f = true ∧ folFrom e f = true := by
  unfold folB at h
  split at h
  all_goals first
    | (cases h; done)
    | (cases e <;> first | (cases h; done) | (refine ⟨rfl, ?_, ?_, ?_, ?_, ?_, rfl, rfl⟩ <;> (intro he; cases he)))

theorem read_select {distinct : Bool} {projection : List SelectItem} {from_ : List TableRef} {where_ : Option Expr}
    {groupBy : List Expr} {having : Option Expr} {p : Pos}
    (hw : (SQLSelect.mk distinct projection from_ where_ groupBy having p).shape freeWord = true)
    (hi : ∀ i ∈ projection, ItemR fns i) (ht : ∀ t ∈ from_, AllT fns t) (hwh : ∀ e, where_ = some e → AllE fns e)
    (hg : ∀ e ∈ groupBy, AllE fns e) (hh : ∀ e, having = some e → AllE fns e)
    (h : K ((SQLSelect.mk distinct projection from_ where_ groupBy having p).lang fns clean) ks) :
    ∃ w tl, ks = .word w :: tl ∧ fk (.word w) = .kw .SELECT ∧ Ev fun m => ∀ (b : List Token) (rest : List Tok),
      folB (SQLSelect.mk distinct projection from_ where_ groupBy having p).edge (hd rest) = true →
      (parseSelect (Parsers.at fns m) Pos.zero).runZ b (Z (tl ++ rest)) =
      .ok (.select (SQLSelect.mk distinct projection from_ where_ groupBy having p).erase) (R tl b, Z rest) := by
  simp only [SQLSelect.shape, Bool.and_eq_true, Bool.not_eq_true', List.isEmpty_eq_false_iff] at hw
  obtain ⟨⟨⟨⟨⟨⟨w1, w2⟩, w3⟩, w4⟩, w5⟩, w6⟩, w7⟩ := hw
  simp only [SQLSelect.lang] at h
  eatK h w hfw hkw
  refine ⟨w, _, rfl, hfw, ?_⟩
  split_ h hD D k1
  split_ h hP PP k2
  split_ h hF F k3
  split_ h hW W k4
  split_ h hG G H
  replace hF := clause_K hF
  replace hG := clause2_K hG
  have e1 := read_selectList w2 hi hP
  have e2 : Ev fun m => ∀ w vs, F = .word w :: vs →
      Parses (parseFromClause (Parsers.at fns m)) vs (TableRef.erases from_) (folFrom (refsEdge from_)) := by
    rcases hF with ⟨rfl, -⟩ | ⟨w, vs, rfl, -, -, hF⟩
    · exact Ev.of fun m w vs h => by cases h
    · exact (read_from ht hF).mono fun m hm w vs h => by cases h; exact hm
  have e3 := read_optExpr hwh hW
  have e4 : Ev fun m => ∀ w w' vs, G = .word w :: .word w' :: vs →
      Parses (Parsers.at fns m).exprList vs (Expr.erases groupBy) fL := by
    rcases hG with ⟨rfl, -⟩ | ⟨w, w', vs, rfl, -, -, -, hG⟩
    · exact Ev.of fun m w w' vs h => by cases h
    · exact (read_exprList hg hG).mono fun m hm w w' vs h => by cases h; exact hm
  have e5 := read_optExpr hh h
  refine (e1.and (e2.and (e3.and (e4.and e5)))).mono fun m hm => ?_
  obtain ⟨e1, e2, e3, e4, e5⟩ := hm
  intro b rest hr
  obtain ⟨fl, -, fh, fg, fw, ff, -, -⟩ := fB_facts hr
  have h4 : hd (H ++ rest) = if having.isSome then .kw .HAVING else hd rest := hd_optional h rest
  have h3 : hd (G ++ (H ++ rest)) = if groupBy.isEmpty then hd (H ++ rest) else .kw .GROUP := by
    rcases hG with ⟨rfl, hn⟩ | ⟨w, w', vs, rfl, hf, -, hn, -⟩
    · rw [langs_nil] at hn; subst hn; rfl
    · have : groupBy.isEmpty = false := by
        cases groupBy with
        | nil => exact absurd (langs_nil.2 rfl) hn
        | cons => rfl
      rw [this]; exact hf
  have h2 : hd (W ++ (G ++ (H ++ rest))) = if where_.isSome then .kw .WHERE else hd (G ++ (H ++ rest)) := hd_optional hW _
  have hFe : (F = [] ∧ from_ = []) ∨ ∃ w vs, F = .word w :: vs ∧ fk (.word w) = .kw .FROM ∧ from_ ≠ [] := by
    rcases hF with ⟨rfl, hn⟩ | ⟨w, vs, rfl, hf, hn, -⟩
    · rw [refs_nil] at hn; exact .inl ⟨rfl, hn⟩
    · exact .inr ⟨w, vs, rfl, hf, fun e => hn (refs_nil.2 e)⟩
  have h1 : hd (F ++ (W ++ (G ++ (H ++ rest)))) = if from_.isEmpty then hd (W ++ (G ++ (H ++ rest))) else .kw .FROM := by
    rcases hFe with ⟨rfl, rfl⟩ | ⟨w, vs, rfl, hf, hn⟩
    · rfl
    · rw [List.isEmpty_eq_false_iff.2 hn]; exact hf
  have k4' : fL (hd (H ++ rest)) = true ∧ hd (H ++ rest) ≠ .kw .GROUP ∧ hd (H ++ rest) ≠ .kw .WHERE ∧ hd (H ++ rest) ≠ .kw .FROM := by
    rw [h4]; split
    · decide
    · exact ⟨fl, fg, fw, ff⟩
  have k3' : fX (hd (G ++ (H ++ rest))) = true ∧ hd (G ++ (H ++ rest)) ≠ .kw .WHERE ∧ hd (G ++ (H ++ rest)) ≠ .kw .FROM := by
    rw [h3]; split
    · exact ⟨(fL_facts k4'.1).1, k4'.2.2⟩
    · decide
  have k2' : hd (W ++ (G ++ (H ++ rest))) ≠ .kw .FROM ∧ hd (W ++ (G ++ (H ++ rest))) ≠ .odd ∧
      (folItem (fromEdge projection from_) (hd (W ++ (G ++ (H ++ rest)))) = true ∧
      folFrom (fromEdge projection from_) (hd (W ++ (G ++ (H ++ rest)))) = true) := by
    cases hwc : where_ with
    | some e => rw [h2, hwc]; exact ⟨by simp, by simp, rfl, rfl⟩
    | none =>
      rw [h2, hwc]
      simp only [Option.isSome_none, Bool.false_eq_true, if_false]
      rw [h3]
      cases hgc : groupBy with
      | cons e es => exact ⟨by simp, by simp, rfl, rfl⟩
      | nil =>
        simp only [List.isEmpty_nil, if_true]
        rw [h4]
        cases hhc : having with
        | some e =>
          simp only [hwc, hgc, hhc, Option.isNone_some, Option.isSome_none, List.isEmpty_nil, Bool.not_true, Bool.or_false, Bool.false_or, beq_iff_eq] at w7
          rw [w7]
          exact ⟨by simp, by simp, rfl, rfl⟩
        | none =>
          simp only [Option.isSome_none, Bool.false_eq_true, if_false]
          simp only [SQLSelect.edge, hwc, hgc, hhc, Option.isSome_none, List.isEmpty_nil, Bool.not_true, Bool.or_false, Bool.false_eq_true, if_false] at hr
          have := fB_facts hr
          exact ⟨ff, fE_odd (fX_facts (fL_facts fl).1).1, this.2.2.2.2.2.2⟩
  have k1' : folItem (itemsEdge projection) (hd (F ++ (W ++ (G ++ (H ++ rest))))) = true ∧ hd (F ++ (W ++ (G ++ (H ++ rest)))) ≠ .sym .Comma := by
    rw [h1]
    cases hfc : from_ with
    | nil =>
      simp only [List.isEmpty_nil, if_true]
      rw [hfc] at k2'
      refine ⟨k2'.2.2.1, ?_⟩
      have := k2'.2.2.2
      simp only [folFrom, Bool.and_eq_true, bne_iff_ne] at this
      exact this.2
    | cons t ts => exact ⟨rfl, by simp⟩
  have s5 := fun b => e5 b rest fh (fL_facts fl).1
  have s3 := fun b => e3 b (G ++ (H ++ rest)) k3'.2.1 k3'.1
  have s4 : ∀ b, (do
      match ← parseKeywords [.GROUP, .BY] with
      | some _ => (Parsers.at fns m).exprList
      | none => pure [] : P (List Expr)).runZ b (Z (G ++ (H ++ rest))) = .ok (Expr.erases groupBy) (R G b, Z (H ++ rest)) := by
    intro b
    rcases hG with ⟨rfl, hn⟩ | ⟨w, w', vs, rfl, hf, hf', -, -⟩
    · rw [langs_nil] at hn; subst hn
      have ho := fE_odd (fX_facts (fL_facts k4'.1).1).1
      simp [Expr.erases, zx, k4'.2.1, ho]
    · have := fun b => e4 w w' vs rfl b (H ++ rest) k4'.1
      simp [zx, this, hf, hf']
  have s2 : ∀ b, (do if ← kw .FROM then parseFromClause (Parsers.at fns m) else pure [] : P (List TableRef)).runZ b
      (Z (F ++ (W ++ (G ++ (H ++ rest))))) = .ok (TableRef.erases from_) (R F b, Z (W ++ (G ++ (H ++ rest)))) := by
    intro b
    rcases hFe with ⟨rfl, rfl⟩ | ⟨w, vs, rfl, hf, hn⟩
    · simp [TableRef.erases, zx, k2'.1, k2'.2.1]
    · have hfe : fromEdge projection from_ = refsEdge from_ := by
        cases hfc : from_ with
        | nil => exact absurd hfc hn
        | cons t ts =>
          simp only [fromEdge, refsEdge]
          cases hl : (t :: ts).getLast? with
          | none => simp at hl
          | some x => rfl
      rw [hfe] at k2'
      have := fun b => e2 w vs rfl b _ k2'.2.2.2
      simp [zx, this, hf]
  have s1 := fun b => e1 b (F ++ (W ++ (G ++ (H ++ rest)))) (by simp [k1'])
  have hst := startE_facts (hdItems w2 hP (F ++ (W ++ (G ++ (H ++ rest)))))
  have s0 : ∀ b, (do
      match ← parseKeyword .DISTINCT with
      | .eof => .err
      | .no _ => pure false
      | .yes _ => pure true : P Bool).runZ b (Z (D ++ (PP ++ (F ++ (W ++ (G ++ (H ++ rest))))))) =
      .ok distinct (R D b, Z (PP ++ (F ++ (W ++ (G ++ (H ++ rest)))))) := by
    intro b
    rcases flag_K hD with ⟨rfl, rfl⟩ | ⟨w, rfl, rfl, hf, -⟩
    · simp only [List.nil_append]
      cases hl : PP ++ (F ++ (W ++ (G ++ (H ++ rest)))) with
      | nil => rw [hl] at hst; exact absurd rfl hst.2.1
      | cons t tl =>
        rw [hl] at hst
        simp only [hd] at hst
        simp [zx, hst]
    · simp [zx, hf]
  simp only [List.append_assoc]
  rw [parseSelect, runZ_bindM]
  erw [s0]
  rw [Res.bind_ok, runZ_bindM, s1, Res.bind_ok, runZ_bindM, s2, Res.bind_ok, runZ_bindM]
  erw [s3]
  rw [Res.bind_ok, runZ_bindM]
  erw [s4]
  rw [Res.bind_ok, runZ_bindM]
  erw [s5]
  rw [Res.bind_ok, runZ_pure]
  simp only [SQLSelect.erase, R_append]

end Verif
