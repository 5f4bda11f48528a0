import Verif.Proofs.ParseExpr
/-
Parsing printed queries: one lemma per construct, assuming that the parts are parsed back.
-/
set_option linter.unusedSimpArgs false
namespace Verif

variable {d : Dialect} {fns : FloatFns}

/-! ### What may follow -/

/-- What may follow a select item with the given edge. -/
def folItem (e : Edge) : Fk → Bool
  | .sym .Comma => true
  | .sym .RParen => true
  | .sym .Semicolon => true
  | .kw .FROM => true
  | .kw .WHERE => true
  | .kw .GROUP => true
  | .kw .ORDER => true
  | .kw .UNION => true
  | .kw .EXCEPT => true
  | .kw .INTERSECT => true
  | .kw .HAVING => e != .col
  | .kw .LIMIT => e != .col
  | .kw .ON => e != .col
  | _ => false

/-- A word with which a join begins. -/
def joinWord : Fk → Bool
  | .kw .JOIN => true
  | .kw .LEFT => true
  | .kw .RIGHT => true
  | .kw .FULL => true
  | .kw .INNER => true
  | .kw .CROSS => true
  | .kw .NATURAL => true
  | _ => false

/-- What may follow a table reference with the given edge. -/
def folTab (e : Edge) : Fk → Bool
  | .sym .Comma => true
  | .sym .RParen => true
  | .sym .Semicolon => true
  | .kw .WHERE => true
  | .kw .GROUP => true
  | .kw .ORDER => true
  | .kw .UNION => true
  | .kw .EXCEPT => true
  | .kw .INTERSECT => true
  | .kw .ON => true
  | .kw .USING => true
  | .kw .HAVING => e == .closed
  | .kw .LIMIT => e == .closed
  | f => joinWord f

/-- What may follow a set expression with the given edge. -/
def folB (e : Edge) : Fk → Bool
  | .sym .RParen => true
  | .sym .Semicolon => true
  | .kw .ORDER => true
  | .kw .UNION => true
  | .kw .EXCEPT => true
  | .kw .INTERSECT => true
  | .kw .ON => e != .col
  | .kw .LIMIT => e == .closed
  | _ => false

/-- The binding strength of a set operator. -/
def setPrec : Fk → Nat
  | .kw .UNION => 10
  | .kw .EXCEPT => 10
  | .kw .INTERSECT => 20
  | _ => 0

/-- The word is not taken for an alias. -/
def noAlias (table : KW → Bool) : Fk → Bool
  | .kw .AS => false
  | .kw k => table k
  | .id => false
  | .odd => false
  | _ => true

theorem kw_of_fk {t : Tok} {k : KW} (h : fk t = .kw k) : ∃ w, (zt t).word? = some w ∧ kwOf w.keyword = some k := by
  have := kw?_of_fk h
  simp only [Token.kw?] at this
  cases hw : (zt t).word? with
  | none => rw [hw] at this; cases this
  | some w => rw [hw] at this; exact ⟨w, rfl, this⟩

theorem word_of_fk {t : Tok} (h : ∀ k, fk t ≠ .kw k) (hi : fk t ≠ .id) (ho : fk t ≠ .odd) : (zt t).word? = none := by
  cases t with
  | word w =>
    exfalso
    simp only [fk] at h hi ho
    cases hk : kwOf w.keyword with
    | none =>
      simp only [hk] at h hi ho
      split at ho <;> simp_all
    | some j =>
      simp only [hk] at h hi ho
      split at ho <;> simp_all
  | _ => rfl

theorem alias_none {table : KW → Bool} {rest : List Tok} (h : noAlias table (hd rest) = true) (b : List Token) :
    (parseOptionalAlias table).runZ b (Z rest) = .ok none (b, Z rest) := by
  have ho : hd rest ≠ .odd := fun e => by rw [e] at h; cases h
  have ha : hd rest ≠ .kw .AS := fun e => by rw [e] at h; cases h
  cases rest with
  | nil => simp [parseOptionalAlias, zx]
  | cons t rest =>
    simp only [hd] at h ho ha
    cases hf : fk t with
    | eof => 
      cases t <;> simp [fk] at hf
      split at hf <;> split at hf <;> cases hf
    | odd => exact absurd hf ho
    | id => rw [hf] at h; cases h
    | kw k =>
      obtain ⟨w, h1, h2⟩ := kw_of_fk hf
      rw [hf] at h
      have h3 : table k = true := by
        have ha' : k ≠ .AS := fun e => ha (by rw [hf, e])
        unfold noAlias at h
        split at h <;> simp_all
      simp [parseOptionalAlias, zx, ho, ha, h1, isReserved, h2, h3]
    | sym k =>
      have := word_of_fk (t := t) (by simp [hf]) (by simp [hf]) (by simp [hf])
      simp [parseOptionalAlias, zx, ho, ha, this]
    | lit =>
      have := word_of_fk (t := t) (by simp [hf]) (by simp [hf]) (by simp [hf])
      simp [parseOptionalAlias, zx, ho, ha, this]

theorem alias_some {table : KW → Bool} {a : Ident} (h : identOK d a.value = true) (b a' : List Token) :
    (parseOptionalAlias table).runZ b (zt (kT .AS) :: zt (identTok a.value) :: a') =
      .ok (some a.erase) (zt (identTok a.value) :: zt (kT .AS) :: b, a') := by
  simp [parseOptionalAlias, zx, string_ident h, Ident.erase]

theorem parse_aliasT {table : KW → Bool} {a : Option Ident} (h : optIdentOK d a = true) {rest : List Tok}
    (hr : a = none → noAlias table (hd rest) = true) (b : List Token) :
    (parseOptionalAlias table).runZ b (Z (sg (aliasT a) ++ rest)) =
      .ok (a.map Ident.erase) (R (sg (aliasT a)) b, Z rest) := by
  cases a with
  | none => simpa [aliasT, zx] using alias_none (hr rfl) b
  | some a =>
    have h' : identOK d a.value = true := h
    simp [aliasT, zx, alias_some h']

/-! ### Select lists -/

theorem folItem_facts {e : Edge} {f : Fk} (h : folItem e f = true) : folX f = true ∧ f ≠ .eof ∧ f ≠ .odd := by
  refine ⟨?_, fun e => ?_, fun e => ?_⟩
  · unfold folItem at h
    split at h <;> first | rfl | cases h
  · rw [e] at h; cases h
  · rw [e] at h; cases h
theorem folItem_alias {e : Edge} {f : Fk} (h : folItem e f = true) (he : e = .col) : noAlias reservedForColumnAlias f = true := by
  subst he
  unfold folItem at h
  split at h <;> first | rfl | cases h

theorem erase_notWild {e : Expr} (h : (match e with
    | .qualifiedWildcard _ => false
    | _ => true) = true) (ids : List Ident) : e.erase ≠ .qualifiedWildcard ids := by
  cases e <;> simp [Expr.erase] at h ⊢

/-- The item of a select list, with the expression parsed back. -/
def ItemE (fns : FloatFns) : SelectItem → Prop
  | .unnamed e => ParsesE fns e
  | .alias e _ => ParsesE fns e
  | _ => True

/-- parser.go:482-500: what follows the expression of an item. -/
def itemP (e : Expr) : P SelectItem := do
  match e with
  | .qualifiedWildcard ids => pure (SelectItem.qualifiedWildcard ⟨ids⟩)
  | _ => do
    match ← parseOptionalAlias reservedForColumnAlias with
    | some a => pure (.alias e a)
    | none => pure (.unnamed e)

theorem itemP_other {e : Expr} (h : ∀ ids, e ≠ .qualifiedWildcard ids) : itemP e = (do
    match ← parseOptionalAlias reservedForColumnAlias with
    | some a => pure (.alias e a)
    | none => pure (.unnamed e)) := by
  unfold itemP
  split
  · exact absurd rfl (h _)
  · rfl

theorem Res.bind_assoc' {σ α β γ : Type} (x : Res σ α) (f : α → σ → Res σ β) (g : β → σ → Res σ γ) :
    (x.bind f).bind g = x.bind fun a s => (f a s).bind g := by
  cases x <;> rfl

theorem selectList_runZ (m : Nat) (b a : List Token) : ((Parsers.at fns (m + 1)).selectList).runZ b a =
    ((do let e ← parseExpr (Parsers.at fns m); itemP e : P SelectItem).runZ b a).bind fun item s =>
      (do
        let t ← mustPeek
        if t.isSym .Comma then do
          let _ ← mustNext
          let items ← (Parsers.at fns m).selectList
          pure (item :: items)
        else pure [item] : P (List SelectItem)).runZ s.1 s.2 := by
  rw [show (Parsers.at fns (m + 1)).selectList = (do
    let e ← parseExpr (Parsers.at fns m)
    let item ← itemP e
    let t ← mustPeek
    if t.isSym .Comma then do
      let _ ← mustNext
      let items ← (Parsers.at fns m).selectList
      pure (item :: items)
    else pure [item]) from rfl]
  simp only [runZ_bindM, Res.bind_assoc']

theorem parse_item {i : SelectItem} (hw : i.wf d fns = true) (hi : ItemE fns i) :
    Ev fun m => Parses (do let e ← parseExpr (Parsers.at fns m); itemP e) (sg (i.toks fns)) i.erase (folItem i.edge) := by
  match i with
  | .unnamed e =>
    simp only [SelectItem.wf, Bool.and_eq_true] at hw
    have hi : ParsesE fns e := hi
    refine hi.mono fun m hm => ?_
    intro b rest hr
    have h1 := fun b => hm b rest (folItem_facts hr).1
    have h2 := fun b => alias_none (folItem_alias hr rfl) b
    simp [SelectItem.toks, SelectItem.erase, zx, parseExpr, h1, itemP_other (erase_notWild hw.2), h2]
  | .alias e a =>
    simp only [SelectItem.wf, Bool.and_eq_true] at hw
    have hi : ParsesE fns e := hi
    refine hi.mono fun m hm => ?_
    intro b rest hr
    have h1 := fun b rest => hm b (kT .AS :: rest) (by simp [zx]; decide)
    simp [SelectItem.toks, SelectItem.erase, zx, parseExpr, h1, itemP_other (erase_notWild hw.2), alias_some hw.1.2]
  | .qualifiedWildcard p =>
    simp only [SelectItem.wf] at hw
    have hi : ParsesE fns (.qualifiedWildcard p.idents) := (parse_qualifiedWildcard hw).sub.full.expr (d := d) hw
    refine hi.mono fun m hm => ?_
    intro b rest hr
    have h1 := fun b => hm b rest (folItem_facts hr).1
    simp only [Expr.toks] at h1
    simp only [SelectItem.toks, ObjectName.toks, SelectItem.erase, runZ_bindM, parseExpr, h1, Expr.erase, itemP]
    simp [zx, ObjectName.erase]
  | .wildcard _ _ => simp [SelectItem.wf] at hw

def itemsEdge (is : List SelectItem) : Edge :=
  match is.getLast? with
  | some i => i.edge
  | none => .closed

theorem parse_selectList {is : List SelectItem} (hne : is ≠ []) (hw : SelectItem.wfs d fns is = true)
    (hi : ∀ i ∈ is, ItemE fns i) :
    Ev fun m => Parses (Parsers.at fns m).selectList (sg (SelectItem.toksL fns is)) (SelectItem.erases is)
      (fun f => folItem (itemsEdge is) f && f != .sym .Comma) := by
  induction is with
  | nil => exact absurd rfl hne
  | cons i is ih =>
    simp only [SelectItem.wfs, Bool.and_eq_true] at hw
    cases is with
    | nil =>
      refine ((parse_item hw.1 (hi i (by simp))).mono fun m hm => ?_).succ
      intro b rest hr
      simp only [Bool.and_eq_true, bne_iff_ne] at hr
      have h1 := hm b rest hr.1
      cases rest with
      | nil => exact absurd rfl (folItem_facts hr.1).2.1
      | cons t rest =>
        simp only [hd] at hr
        rw [selectList_runZ, SelectItem.toksL, sepT, SelectItem.toksL, List.append_nil, List.append_nil, h1]
        simp [zx, hr.2, SelectItem.erases]
    | cons i' is =>
      refine (((parse_item hw.1 (hi i (by simp))).and (ih (by simp) hw.2 fun x hx => hi x (by simp [hx]))).mono fun m hm => ?_).succ
      intro b rest hr
      have h1 := hm.1 b (comma :: (sg (SelectItem.toksL fns (i' :: is)) ++ rest)) (by simp [zx, folItem])
      have h2 := fun b => hm.2 b rest (by simpa [itemsEdge] using hr)
      rw [selectList_runZ, SelectItem.toksL, sg_append, List.append_assoc, sepT, sg_append, List.append_assoc, sg_comma, sg_sp, sg_nil,
        List.cons_append, List.nil_append, h1, SelectItem.erases]
      simp [zx, h2]

/-! ### Table references -/

theorem folTab_facts {e : Edge} {f : Fk} (h : folTab e f = true) : folX f = true ∧ f ≠ .eof ∧ f ≠ .odd ∧ f ≠ .sym .LParen ∧
    f ≠ .sym .Period ∧ f ≠ .kw .WITH := by
  unfold folTab at h
  split at h
  all_goals try (refine ⟨rfl, ?_, ?_, ?_, ?_, ?_⟩ <;> (intro he; cases he))
  unfold joinWord at h
  split at h
  all_goals first | (refine ⟨rfl, ?_, ?_, ?_, ?_, ?_⟩ <;> (intro he; cases he)) | cases h
theorem folTab_alias {e : Edge} {f : Fk} (h : folTab e f = true) (he : e ≠ .closed) : noAlias reservedForTableAlias f = true := by
  unfold folTab at h
  split at h
  all_goals first | rfl | (simp at h; exact absurd h he) | skip
  unfold joinWord at h
  split at h
  all_goals first | rfl | cases h

/-- The subquery or hints of a table factor, parsed back. -/
def FactorE (fns : FloatFns) : TableFactor → Prop
  | .table _ _ _ _ hints _ => ∀ e ∈ hints, ParsesE fns e
  | .derived _ _ _ _ q _ => ParsesQ fns q

theorem hd_factor {f : TableFactor} (hw : f.wf d fns = true) (rest : List Tok) :
    (hd (sg (f.toks fns) ++ rest)).soft = true ∨ hd (sg (f.toks fns) ++ rest) = .sym .LParen ∨ hd (sg (f.toks fns) ++ rest) = .kw .LATERAL := by
  match f with
  | .table name alias args p hints p' =>
    simp only [TableFactor.wf, Bool.and_eq_true] at hw
    simp only [TableFactor.toks, sg_append, List.append_assoc]
    exact .inl (hd_name hw.1.1.1 _)
  | .derived lateral p1 p2 p3 q alias =>
    cases lateral <;> simp [TableFactor.toks, zx]

theorem parse_factor {f : TableFactor} (hw : f.wf d fns = true) (hf : FactorE fns f) :
    Ev fun m => Parses (parseTableFactor (Parsers.at fns m)) (sg (f.toks fns)) f.erase (folTab f.edge) := by
  match f with
  | .derived lateral p1 p2 p3 q alias =>
    simp only [TableFactor.wf, Bool.and_eq_true] at hw
    have hf : ParsesQ fns q := hf
    refine hf.mono fun m hm => ?_
    intro b rest hr
    have h1 := fun b rest => hm b (rpar :: rest) (by simp [zx, folQ_rpar])
    have h2 := fun b => parse_aliasT (table := reservedForTableAlias) (rest := rest) hw.2
      (fun h => folTab_alias hr (by rw [h]; simp [TableFactor.edge])) b
    cases lateral <;> simp [TableFactor.toks, TableFactor.erase, zx, parseTableFactor, h1, h2]
  | .table name alias args p hints p' =>
    simp only [TableFactor.wf, Bool.and_eq_true, List.isEmpty_iff] at hw
    obtain ⟨⟨⟨hn, ha⟩, rfl⟩, hh⟩ := hw
    have hf : ∀ e ∈ hints, ParsesE fns e := hf
    cases hints with
    | nil =>
      refine (parse_objectName fns hn).mono fun m hm => ?_
      intro b rest hr
      obtain ⟨-, -, f1, f2, f3, f4⟩ := folTab_facts hr
      have hA : hd (sg (aliasT alias) ++ rest) ≠ .sym .LParen ∧ hd (sg (aliasT alias) ++ rest) ≠ .sym .Period := by
        cases alias <;> simp [aliasT, zx, f2, f3]
      have h1 := fun b => hm b (sg (aliasT alias) ++ rest) (by simp [notSym, hA])
      have h2 := fun b => parse_aliasT (table := reservedForTableAlias) (rest := rest) ha
        (fun h => folTab_alias hr (by rw [h]; simp [TableFactor.edge])) b
      have h3 := Fk.soft_facts (hd_name hn (sg (aliasT alias) ++ rest))
      simp [TableFactor.toks, TableFactor.erase, Expr.erases, zx, parseTableFactor, h1, h2, h3, hA, f1, f4]
    | cons e es =>
      refine ((parse_objectName fns hn).and (parse_exprList (by simp) hf)).mono fun m hm => ?_
      intro b rest hr
      have hA : ∀ rest, hd (sg (aliasT alias) ++ kT .WITH :: rest) ≠ .sym .LParen ∧ hd (sg (aliasT alias) ++ kT .WITH :: rest) ≠ .sym .Period := by
        intro rest; cases alias <;> simp [aliasT, zx]
      have h1 := fun b rest => hm.1 b (sg (aliasT alias) ++ kT .WITH :: rest) (by simp [notSym, hA])
      have h2 := fun b rest => parse_aliasT (table := reservedForTableAlias) (rest := kT .WITH :: rest) ha
        (fun h => by simp [zx]; decide) b
      have h3 := fun rest => Fk.soft_facts (hd_name hn (sg (aliasT alias) ++ kT .WITH :: rest))
      have h4 := fun b => hm.2 b (rpar :: rest) (by simp [zx, folL_rpar])
      simp only [zx] at h2
      simp [TableFactor.toks, TableFactor.erase, Expr.erases, zx, parseTableFactor, h1, h2, h3, hA, h4]

def TableRef.base : TableRef → TableFactor
  | .factor f => f
  | .cross l _ => l.base
  | .qualified l _ _ _ => l.base
  | .natural l _ _ => l.base
  | .partitioned f _ _ => f

/-- `parseTableReference` reads the reference and continues with its loop. -/
def ParsesR (fns : FloatFns) (t : TableRef) : Prop :=
  ∃ c, Ev fun m => ∀ (b : List Token) (rest : List Tok), folTab t.edge (hd rest) = true →
    (t.open_ = true ∨ joinWord (hd rest) = false) →
    (Parsers.at fns (m + c)).tableRef.runZ b (Z (sg (t.toks fns) ++ rest)) =
      ((Parsers.at fns m).tableRefLoop t.base.erase t.erase).runZ (R (sg (t.toks fns)) b) (Z rest)

/-- `parseTableReference` reads exactly the reference. -/
def ParsesT (fns : FloatFns) (t : TableRef) : Prop :=
  Ev fun m => Parses (Parsers.at fns m).tableRef (sg (t.toks fns)) t.erase (fun f => folTab t.edge f && !joinWord f)

def ParsesJ (fns : FloatFns) (s : JoinSpec) : Prop :=
  Ev fun m => Parses (parseJoinSpec (Parsers.at fns m)) (sg (s.toks fns)) s.erase (folTab .closed)

theorem right_none {m : Nat} {e : Edge} {rest : List Tok} (h : folTab e (hd rest) = true) (hj : joinWord (hd rest) = false)
    (b : List Token) : (parseTableReferenceRight (Parsers.at fns m)).runZ b (Z rest) = .ok none (b, Z rest) := by
  cases rest with
  | nil => exact absurd rfl (folTab_facts h).2.1
  | cons t rest =>
    simp only [hd] at h hj
    by_cases hc : fk t = .sym .Comma
    · simp [parseTableReferenceRight, zx, hc]
    · by_cases hk : ∃ k, fk t = .kw k
      · obtain ⟨k, hk⟩ := hk
        obtain ⟨w, h1, h2⟩ := kw_of_fk hk
        rw [hk] at h hj
        unfold folTab at h
        split at h
        all_goals
          first
          | (cases hk; done)
          | skip
        all_goals try (rename_i heq; cases heq; simp [parseTableReferenceRight, zx, hc, h1, h2]; done)
        all_goals try (rw [hj] at h; cases h)
        all_goals (rename_i heq; cases heq)
      · have h1 := word_of_fk (t := t) (fun k hk' => hk ⟨k, hk'⟩) (fun e => by rw [e] at h; cases h) (fun e => by rw [e] at h; cases h)
        simp [parseTableReferenceRight, zx, hc, h1]

theorem ParsesR.full {t : TableRef} (h : ParsesR fns t) : ParsesT fns t := by
  obtain ⟨c, n, hn⟩ := h
  refine ⟨n + 1 + c, fun m hm => ?_⟩
  obtain ⟨k, rfl⟩ : ∃ k, m = (k + 1) + c := ⟨m - 1 - c, by omega⟩
  intro b rest hr
  simp only [Bool.and_eq_true, Bool.not_eq_true'] at hr
  rw [hn (k + 1) (by omega) b rest hr.1 (.inr hr.2)]
  simp [zx, tableRefLoopF, right_none hr.1 hr.2]

theorem parse_refFactor {f : TableFactor} (hw : f.wf d fns = true) (hf : FactorE fns f) : ParsesR fns (.factor f) := by
  refine ⟨1, (parse_factor hw hf).mono fun m hm => ?_⟩
  intro b rest hr hj
  have h1 := fun b => hm b rest hr
  simp [TableRef.toks, TableRef.erase, TableRef.base, zx, tableRefF, h1]

theorem parse_cross {l : TableFactor} {f : TableFactor} (hl : ParsesR fns (.factor l)) (hw : f.wf d fns = true) (hf : FactorE fns f) :
    ParsesR fns (.cross (.factor l) f) := by
  obtain ⟨c, hl⟩ := hl
  refine ⟨1 + c, ((hl.add 1).and (parse_factor hw hf)).mono fun m hm => ?_⟩
  intro b rest hr hj
  have e1 : m + (1 + c) = m + 1 + c := by omega
  have h1 := fun b rest => hm.1 b (kT .CROSS :: rest) (by simp [zx]; rfl) (.inl rfl)
  have h2 := fun b => hm.2 b rest hr
  simp only [TableRef.toks, sg_append, List.append_assoc, sg_sp, sg_kT, List.cons_append, e1] at h1 ⊢
  rw [h1]
  simp [TableRef.erase, TableRef.base, zx, tableRefLoopF, parseTableReferenceRight, h2]

theorem parse_joinSpec {s : JoinSpec} (hw : s.wf d fns = true) (h : ∀ e p, s = .condition e p → ParsesE fns e) : ParsesJ fns s := by
  match s with
  | .condition e p =>
    refine (h e p rfl).mono fun m hm => ?_
    intro b rest hr
    have h1 := fun b => hm b rest (folTab_facts hr).1
    simp [JoinSpec.toks, JoinSpec.erase, zx, parseJoinSpec, parseExpr, h1]
  | .namedColumns cols p q =>
    simp only [JoinSpec.wf] at hw
    refine (parse_columnNames fns hw).mono fun m hm => ?_
    intro b rest hr
    have h1 := fun b => hm b (rpar :: rest) (by simp [zx, notSym])
    simp only [parseColumnNames] at h1
    simp [JoinSpec.toks, JoinSpec.erase, zx, parseJoinSpec, h1]

theorem hd_spec (s : JoinSpec) (rest : List Tok) : hd (sg (s.toks fns) ++ rest) = .kw .ON ∨ hd (sg (s.toks fns) ++ rest) = .kw .USING := by
  match s with
  | .condition e p => simp [JoinSpec.toks, zx]
  | .namedColumns cols p q => simp [JoinSpec.toks, zx]

theorem parse_qualified {l r : TableRef} {ty : JoinType} {s : JoinSpec} (ho : l.open_ = true) (hl : ParsesR fns l)
    (hr : ParsesT fns r) (hs : ParsesJ fns s) : ParsesR fns (.qualified l ty r s) := by
  obtain ⟨c, hl⟩ := hl
  obtain ⟨ty, p1, p2⟩ := ty
  refine ⟨1 + c, ((hl.add 1).and (hr.and hs)).mono fun m hm => ?_⟩
  intro b rest hf hj
  obtain ⟨hl, hr, hs⟩ := hm
  have e1 : m + (1 + c) = m + 1 + c := by omega
  have h3 := fun b => hs b rest hf
  have h2 := fun b => hr b (sg (s.toks fns) ++ rest) (by rcases hd_spec (fns := fns) s rest with h | h <;> rw [h] <;> simp [folTab, joinWord])
  simp only [TableRef.toks, sg_append, List.append_assoc, sg_sp, sg_kT, List.cons_append, e1]
  cases ty <;>
    (simp only [JoinCond.toks, zx, List.cons_append, List.nil_append]
     rw [hl b _ (by simp [zx]; rfl) (.inl ho)]
     simp [TableRef.erase, TableRef.base, JoinType.erase, zx, tableRefLoopF, parseTableReferenceRight, parseQualifiedJoin, parseJoinType, h2, h3])

theorem parse_natural {l r : TableRef} {ty : JoinType} (ho : l.open_ = true) (hl : ParsesR fns l)
    (hr : ParsesT fns r) : ParsesR fns (.natural l ty r) := by
  obtain ⟨c, hl⟩ := hl
  obtain ⟨ty, p1, p2⟩ := ty
  refine ⟨1 + c, ((hl.add 1).and hr).mono fun m hm => ?_⟩
  intro b rest hf hj
  obtain ⟨hl, hr⟩ := hm
  have e1 : m + (1 + c) = m + 1 + c := by omega
  have hj : joinWord (hd rest) = false := by
    rcases hj with hj | hj
    · cases hj
    · exact hj
  have h2 := fun b => hr b rest (by simp only [hj]; simpa [TableRef.edge] using hf)
  simp only [TableRef.toks, sg_append, List.append_assoc, sg_sp, sg_kT, List.cons_append, e1]
  cases ty <;>
    (simp only [JoinCond.toks, zx, List.cons_append, List.nil_append]
     rw [hl b _ (by simp [zx]; rfl) (.inl ho)]
     simp [TableRef.erase, TableRef.base, JoinType.erase, zx, tableRefLoopF, parseTableReferenceRight, parseQualifiedJoin, parseJoinType, h2])

/-! ### FROM, SELECT -/

def refsEdge (ts : List TableRef) : Edge :=
  match ts.getLast? with
  | some t => t.edge
  | none => .closed

def fromTail (fns : FloatFns) : List TableRef → List Tok
  | [] => []
  | t :: ts => comma :: (sg (t.toks fns) ++ fromTail fns ts)

theorem sg_refs (t : TableRef) (ts : List TableRef) : sg (TableRef.toksL fns (t :: ts)) = sg (t.toks fns) ++ fromTail fns ts := by
  induction ts generalizing t with
  | nil => simp [TableRef.toksL, sepT, zx, fromTail]
  | cons t' ts ih =>
    rw [TableRef.toksL, sg_append, sg_append, ih]
    simp [sepT, zx, fromTail]

theorem hd_fromTail {ts : List TableRef} {e : Edge} {rest : List Tok}
    (hr : ts = [] → folTab e (hd rest) = true ∧ joinWord (hd rest) = false) :
    folTab e (hd (fromTail fns ts ++ rest)) = true ∧ joinWord (hd (fromTail fns ts ++ rest)) = false := by
  cases ts with
  | nil => exact hr rfl
  | cons t ts => simp [fromTail, zx, folTab, joinWord]

/-- What may follow a FROM clause. -/
def folFrom (e : Edge) (f : Fk) : Bool := folTab e f && !joinWord f && f != .sym .Comma

theorem folTab_closed {e : Edge} {f : Fk} (h : folTab e f = true) : folTab .closed f = true := by
  cases e
  · exact h
  all_goals
    unfold folTab at h ⊢
    split at h <;> first | rfl | cases h | exact h

theorem parse_from1 {t : TableRef} {ts : List TableRef} (ht : ParsesT fns t)
    (hs : Ev fun m => Parses (Parsers.at fns m).fromRest (fromTail fns ts) (TableRef.erases ts) (folFrom (refsEdge ts))) :
    Ev fun m => Parses (parseFromClause (Parsers.at fns m)) (sg (t.toks fns) ++ fromTail fns ts) (TableRef.erases (t :: ts))
      (folFrom (refsEdge (t :: ts))) := by
  refine (ht.and hs).mono fun m hm => ?_
  intro b rest hr
  simp only [folFrom, Bool.and_eq_true, bne_iff_ne, Bool.not_eq_true'] at hr
  have h0 := hd_fromTail (fns := fns) (ts := ts) (e := t.edge) (rest := rest) (fun e => by
    subst e; exact hr.1)
  have h1 := fun b => hm.1 b (fromTail fns ts ++ rest) (by simp [h0])
  have h2 := fun b => hm.2 b rest (by
    cases ts with
    | nil => simp [folFrom, refsEdge, folTab_closed hr.1.1, hr]
    | cons t' ts => simpa [folFrom, refsEdge, hr.2, hr.1.2] using hr.1.1)
  simp [TableRef.erases, zx, parseFromClause, h1, h2]

theorem parse_fromRest {ts : List TableRef} (h : ∀ t ∈ ts, ParsesT fns t) :
    Ev fun m => Parses (Parsers.at fns m).fromRest (fromTail fns ts) (TableRef.erases ts) (folFrom (refsEdge ts)) := by
  induction ts with
  | nil =>
    refine (Ev.of fun m => ?_).succ
    intro b rest hr
    simp only [folFrom, Bool.and_eq_true, bne_iff_ne] at hr
    simp [fromTail, TableRef.erases, zx, fromRestF, hr.2]
  | cons t ts ih =>
    refine ((parse_from1 (h t (by simp)) (ih fun x hx => h x (by simp [hx]))).mono fun m hm => ?_).succ
    intro b rest hr
    have h1 := hm (zt comma :: b) rest hr
    simp only [parseFromClause] at h1
    simp only [fromTail, List.cons_append, zx, fromRestF] at h1 ⊢
    simp only [if_true, zx]
    exact h1

theorem parse_from {ts : List TableRef} (hne : ts ≠ []) (h : ∀ t ∈ ts, ParsesT fns t) :
    Ev fun m => Parses (parseFromClause (Parsers.at fns m)) (sg (TableRef.toksL fns ts)) (TableRef.erases ts)
      (folFrom (refsEdge ts)) := by
  cases ts with
  | nil => exact absurd rfl hne
  | cons t ts =>
    rw [sg_refs]
    exact parse_from1 (h t (by simp)) (parse_fromRest fun x hx => h x (by simp [hx]))

/-- An optional expression after a keyword. -/
theorem opt_expr {m : Nat} {k : KW} {w : Option Expr}
    (hw : ∀ e, w = some e → Parses ((Parsers.at fns m).subexpr 0) (sg (e.toks fns)) e.erase folX) {rest : List Tok}
    (hk : hd rest ≠ .kw k) (hf : folX (hd rest) = true) (b : List Token) :
    (do
      if ← kw k then do
        let e ← parseExpr (Parsers.at fns m)
        pure (some e)
      else pure none : P (Option Expr)).runZ b (Z (sg (Expr.toksO fns [sp, kT k, sp] w) ++ rest)) =
      .ok (Expr.eraseOpt w) (R (sg (Expr.toksO fns [sp, kT k, sp] w)) b, Z rest) := by
  have ho := (folE_facts (folX_facts hf).1).1
  cases w with
  | none => simp [Expr.toksO, Expr.eraseOpt, zx, hk, ho]
  | some e =>
    have h1 := fun b => hw e rfl b rest hf
    simp [Expr.toksO, Expr.eraseOpt, zx, parseExpr, h1]

theorem ev_opt' {Q : Nat → Expr → Prop} {w : Option Expr} (h : ∀ e, w = some e → Ev fun m => Q m e) :
    Ev fun m => ∀ e, w = some e → Q m e := by
  cases w with
  | none => exact Ev.of fun m e h => by cases h
  | some e => exact (h e rfl).mono fun m hm e' he => by cases he; exact hm

theorem hd_opt {k : KW} {w : Option Expr} (rest : List Tok) :
    hd (sg (Expr.toksO fns [sp, kT k, sp] w) ++ rest) = if w.isSome then .kw k else hd rest := by
  cases w <;> simp [Expr.toksO, zx]

theorem hd_group {gs : List Expr} (rest : List Tok) :
    hd (sg (if gs.isEmpty then [] else sp :: kT .GROUP :: sp :: kT .BY :: sp :: Expr.toksL fns gs) ++ rest) =
      if gs.isEmpty then hd rest else .kw .GROUP := by
  cases gs <;> simp [zx]

theorem hd_fromC {ts : List TableRef} (rest : List Tok) :
    hd (sg (if ts.isEmpty then [] else sp :: kT .FROM :: sp :: TableRef.toksL fns ts) ++ rest) =
      if ts.isEmpty then hd rest else .kw .FROM := by
  cases ts <;> simp [zx]

theorem folB_facts {e : Edge} {f : Fk} (h : folB e f = true) : folL f = true ∧ f ≠ .eof ∧ f ≠ .kw .HAVING ∧ f ≠ .kw .GROUP ∧
    f ≠ .kw .WHERE ∧ f ≠ .kw .FROM ∧ folItem e f = true ∧ folFrom e f = true := by
  unfold folB at h
  split at h
  all_goals first
    | (cases h; done)
    | (cases e <;> first | (cases h; done) | (refine ⟨rfl, ?_, ?_, ?_, ?_, ?_, rfl, rfl⟩ <;> (intro he; cases he)))

theorem folL_clause {f : Fk} (h : f = .kw .WHERE ∨ f = .kw .GROUP ∨ f = .kw .HAVING) : folL f = true ∧ ∀ e, f ≠ .kw .HAVING →
    folItem e f = true ∧ folFrom e f = true := by
  rcases h with rfl | rfl | rfl
  · exact ⟨rfl, fun e _ => ⟨rfl, rfl⟩⟩
  · exact ⟨rfl, fun e _ => ⟨rfl, rfl⟩⟩
  · exact ⟨rfl, fun e h => absurd rfl h⟩

theorem parse_select {distinct : Bool} {projection : List SelectItem} {from_ : List TableRef} {where_ : Option Expr}
    {groupBy : List Expr} {having : Option Expr} {p : Pos}
    (hw : (SQLSelect.mk distinct projection from_ where_ groupBy having p).wf d fns = true)
    (hi : ∀ i ∈ projection, ItemE fns i) (ht : ∀ t ∈ from_, ParsesT fns t) (hwh : ∀ e, where_ = some e → ParsesE fns e)
    (hg : ∀ e ∈ groupBy, ParsesE fns e) (hh : ∀ e, having = some e → ParsesE fns e) :
    Ev fun m => ∀ (b : List Token) (rest : List Tok),
      folB (SQLSelect.mk distinct projection from_ where_ groupBy having p).edge (hd rest) = true →
      (parseSelect (Parsers.at fns m) Pos.zero).runZ (zt (kT .SELECT) :: b) (Z ((sg ((SQLSelect.mk distinct projection from_ where_ groupBy having p).toks fns)).tail ++ rest)) =
      .ok (.select (SQLSelect.mk distinct projection from_ where_ groupBy having p).erase)
        (R (sg ((SQLSelect.mk distinct projection from_ where_ groupBy having p).toks fns)) b, Z rest) := by
  simp only [SQLSelect.wf, Bool.and_eq_true, Bool.not_eq_true', List.isEmpty_eq_false_iff] at hw
  obtain ⟨⟨⟨⟨⟨⟨w1, w2⟩, w3⟩, w4⟩, w5⟩, w6⟩, w7⟩ := hw
  have e1 := parse_selectList w1 w2 hi
  have e2 : Ev fun m => from_ ≠ [] → Parses (parseFromClause (Parsers.at fns m)) (sg (TableRef.toksL fns from_)) (TableRef.erases from_) (folFrom (refsEdge from_)) :=
    ev_opt fun h => parse_from h ht
  have e3 := ev_opt' (Q := fun m e => Parses ((Parsers.at fns m).subexpr 0) (sg (e.toks fns)) e.erase folX) hwh
  have e4 : Ev fun m => groupBy ≠ [] → Parses (Parsers.at fns m).exprList (sg (Expr.toksL fns groupBy)) (Expr.erases groupBy) folL :=
    ev_opt fun h => parse_exprList h hg
  have e5 := ev_opt' (Q := fun m e => Parses ((Parsers.at fns m).subexpr 0) (sg (e.toks fns)) e.erase folX) hh
  refine (e1.and (e2.and (e3.and (e4.and e5)))).mono fun m hm => ?_
  obtain ⟨e1, e2, e3, e4, e5⟩ := hm
  intro b rest hr
  obtain ⟨fl, -, fh, fg, fw, ff, -, -⟩ := folB_facts hr
  generalize hH : sg (Expr.toksO fns [sp, kT .HAVING, sp] having) = H
  generalize hG : sg (if groupBy.isEmpty then [] else sp :: kT .GROUP :: sp :: kT .BY :: sp :: Expr.toksL fns groupBy) = G
  generalize hW : sg (Expr.toksO fns [sp, kT .WHERE, sp] where_) = W
  generalize hF : sg (if from_.isEmpty then [] else sp :: kT .FROM :: sp :: TableRef.toksL fns from_) = F
  have h4 : hd (H ++ rest) = if having.isSome then .kw .HAVING else hd rest := by rw [← hH]; exact hd_opt rest
  have h3 : hd (G ++ (H ++ rest)) = if groupBy.isEmpty then hd (H ++ rest) else .kw .GROUP := by rw [← hG]; exact hd_group _
  have h2 : hd (W ++ (G ++ (H ++ rest))) = if where_.isSome then .kw .WHERE else hd (G ++ (H ++ rest)) := by
    rw [← hW]; exact hd_opt _
  have h1 : hd (F ++ (W ++ (G ++ (H ++ rest)))) = if from_.isEmpty then hd (W ++ (G ++ (H ++ rest))) else .kw .FROM := by
    rw [← hF]; exact hd_fromC _
  have k4 : folL (hd (H ++ rest)) = true ∧ hd (H ++ rest) ≠ .kw .GROUP ∧ hd (H ++ rest) ≠ .kw .WHERE ∧ hd (H ++ rest) ≠ .kw .FROM := by
    rw [h4]; split
    · decide
    · exact ⟨fl, fg, fw, ff⟩
  have k3 : folX (hd (G ++ (H ++ rest))) = true ∧ hd (G ++ (H ++ rest)) ≠ .kw .WHERE ∧ hd (G ++ (H ++ rest)) ≠ .kw .FROM := by
    rw [h3]; split
    · exact ⟨(folL_facts k4.1).1, k4.2.2⟩
    · decide
  have k2 : hd (W ++ (G ++ (H ++ rest))) ≠ .kw .FROM ∧ hd (W ++ (G ++ (H ++ rest))) ≠ .odd ∧
      (folItem (fromEdge projection from_) (hd (W ++ (G ++ (H ++ rest)))) = true ∧
      folFrom (fromEdge projection from_) (hd (W ++ (G ++ (H ++ rest)))) = true) := by
    cases hwc : where_ with
    | some e => rw [h2, hwc]; exact ⟨by simp, by simp, rfl, rfl⟩
    | none =>
      rw [h2, hwc]
      simp only [Option.isSome_none, Bool.false_eq_true, if_false]
      rw [h3]
      cases hgc : groupBy with
      | cons e es => exact ⟨by simp, by simp, rfl, rfl⟩
      | nil =>
        simp only [List.isEmpty_nil, if_true]
        rw [h4]
        cases hhc : having with
        | some e =>
          simp only [hwc, hgc, hhc, Option.isNone_some, Option.isSome_none, List.isEmpty_nil, Bool.not_true, Bool.or_false, Bool.false_or, beq_iff_eq] at w7
          rw [w7]
          exact ⟨by simp, by simp, rfl, rfl⟩
        | none =>
          simp only [Option.isSome_none, Bool.false_eq_true, if_false]
          simp only [SQLSelect.edge, hwc, hgc, hhc, Option.isSome_none, List.isEmpty_nil, Bool.not_true, Bool.or_false, Bool.false_eq_true, if_false] at hr
          have := folB_facts hr
          exact ⟨ff, (folE_facts (folX_facts (folL_facts fl).1).1).1, this.2.2.2.2.2.2⟩
  have k1 : folItem (itemsEdge projection) (hd (F ++ (W ++ (G ++ (H ++ rest))))) = true ∧ hd (F ++ (W ++ (G ++ (H ++ rest)))) ≠ .sym .Comma := by
    rw [h1]
    cases hfc : from_ with
    | nil =>
      simp only [List.isEmpty_nil, if_true]
      rw [hfc] at k2
      refine ⟨k2.2.2.1, ?_⟩
      have := k2.2.2.2
      simp only [folFrom, Bool.and_eq_true, bne_iff_ne] at this
      exact this.2
    | cons t ts => exact ⟨rfl, by simp⟩
  have s5 := fun b => opt_expr (fns := fns) (m := m) (k := .HAVING) (w := having) e5 (rest := rest) fh (folL_facts fl).1 b
  have s3 := fun b => opt_expr (fns := fns) (m := m) (k := .WHERE) (w := where_) e3 (rest := G ++ (H ++ rest)) k3.2.1 k3.1 b
  rw [hH] at s5
  rw [hW] at s3
  have s4 : ∀ b, (do
      match ← parseKeywords [.GROUP, .BY] with
      | some _ => (Parsers.at fns m).exprList
      | none => pure [] : P (List Expr)).runZ b (Z (G ++ (H ++ rest))) = .ok (Expr.erases groupBy) (R G b, Z (H ++ rest)) := by
    intro b
    rw [← hG]
    cases hgc : groupBy with
    | nil =>
      have ho := (folE_facts (folX_facts (folL_facts k4.1).1).1).1
      simp [Expr.erases, zx, k4.2.1, ho]
    | cons e es =>
      rw [hgc] at e4
      have := fun b => e4 (by simp) b (H ++ rest) k4.1
      simp [zx, this]
  have s2 : ∀ b, (do if ← kw .FROM then parseFromClause (Parsers.at fns m) else pure [] : P (List TableRef)).runZ b
      (Z (F ++ (W ++ (G ++ (H ++ rest))))) = .ok (TableRef.erases from_) (R F b, Z (W ++ (G ++ (H ++ rest)))) := by
    intro b
    rw [← hF]
    cases hfc : from_ with
    | nil => simp [TableRef.erases, zx, k2.1, k2.2.1]
    | cons t ts =>
      have hfe : fromEdge projection from_ = refsEdge from_ := by
        rw [hfc]
        simp only [fromEdge, refsEdge]
        cases hl : (t :: ts).getLast? with
        | none => simp at hl
        | some x => rfl
      rw [hfe, hfc] at k2
      rw [hfc] at e2
      have := fun b => e2 (by simp) b _ k2.2.2.2
      simp [zx, this]
  have s1 := fun b => e1 b (F ++ (W ++ (G ++ (H ++ rest)))) (by simp [k1])
  have hst := startE_facts (hd_items w1 w2 (F ++ (W ++ (G ++ (H ++ rest)))))
  have s0 : ∀ b, (do
      match ← parseKeyword .DISTINCT with
      | .eof => .err
      | .no _ => pure false
      | .yes _ => pure true : P Bool).runZ b (Z (sg (if distinct then [kT .DISTINCT, sp] else []) ++ (sg (SelectItem.toksL fns projection) ++ (F ++ (W ++ (G ++ (H ++ rest))))))) =
      .ok distinct (R (sg (if distinct then [kT .DISTINCT, sp] else [])) b, Z (sg (SelectItem.toksL fns projection) ++ (F ++ (W ++ (G ++ (H ++ rest)))))) := by
    intro b
    cases distinct with
    | true => simp [zx]
    | false =>
      simp only [Bool.false_eq_true, if_false, sg_nil, List.nil_append]
      cases hl : sg (SelectItem.toksL fns projection) ++ (F ++ (W ++ (G ++ (H ++ rest)))) with
      | nil => rw [hl] at hst; exact absurd rfl hst.2.1
      | cons t tl =>
        rw [hl] at hst
        simp only [hd] at hst
        simp [zx, hst]
  have ht : (sg ((SQLSelect.mk distinct projection from_ where_ groupBy having p).toks fns)).tail ++ rest =
      sg (if distinct then [kT .DISTINCT, sp] else []) ++ (sg (SelectItem.toksL fns projection) ++ (F ++ (W ++ (G ++ (H ++ rest))))) := by
    simp only [SQLSelect.toks, sg_kT, List.tail_cons, sg_sp, sg_append, List.append_assoc, hF, hW, hG, hH]
  rw [ht, parseSelect, runZ_bindM]
  erw [s0]
  rw [Res.bind_ok, runZ_bindM, s1, Res.bind_ok, runZ_bindM, s2, Res.bind_ok, runZ_bindM, s3, Res.bind_ok, runZ_bindM]
  erw [s4]
  rw [Res.bind_ok, runZ_bindM, s5, Res.bind_ok, runZ_pure]
  simp only [SQLSelect.erase, SQLSelect.toks, sg_kT, sg_sp, sg_append, hF, hW, hG, hH, R_append, R_cons]

/-! ### Set operations -/

/-- `parseQueryBody` reads the set expression and continues with its loop. -/
def ParsesB (fns : FloatFns) (s : SetExpr) : Prop :=
  ∃ c, Ev fun m => ∀ (p : Nat) (b : List Token) (rest : List Tok), p < s.lp → folB s.edge (hd rest) = true →
    setPrec (hd rest) ≤ s.rp →
    ((Parsers.at fns (m + c)).queryBody p).runZ b (Z (sg (s.toks fns) ++ rest)) =
      ((Parsers.at fns m).bodyLoop p s.erase).runZ (R (sg (s.toks fns)) b) (Z rest)

/-- `parseQueryBody` reads exactly the set expression. -/
def ParsesBF (fns : FloatFns) (s : SetExpr) : Prop :=
  Ev fun m => ∀ (p : Nat) (b : List Token) (rest : List Tok), p < s.lp → folB s.edge (hd rest) = true →
    setPrec (hd rest) ≤ s.rp → setPrec (hd rest) ≤ p →
    ((Parsers.at fns m).queryBody p).runZ b (Z (sg (s.toks fns) ++ rest)) =
      .ok s.erase (R (sg (s.toks fns)) b, Z rest)

theorem folB_notOdd {e : Edge} {f : Fk} (h : folB e f = true) : f ≠ .odd :=
  (folE_facts (folX_facts (folL_facts (folB_facts h).1).1).1).1

theorem setOperator_fk {t : Tok} (ho : fk t ≠ .odd) :
    setOperator (zt t) = if fk t = .kw .UNION then some (.union Pos.zero Pos.zero, 10)
      else if fk t = .kw .EXCEPT then some (.except Pos.zero Pos.zero, 10)
      else if fk t = .kw .INTERSECT then some (.intersect Pos.zero Pos.zero, 20)
      else none := by
  rcases kw?_fk (t := t) with h | ⟨k, h, h' | h'⟩
  · have hk : ∀ k, fk t ≠ .kw k := fun k hk => by rw [kw?_of_fk hk] at h; cases h
    simp [setOperator, h, hk]
  · unfold setOperator
    rw [h, h']
    split
    · next e => cases e; rfl
    · next e => cases e; rfl
    · next e => cases e; rfl
    · next h1 h2 h3 =>
      rw [if_neg, if_neg, if_neg]
      · rintro e; cases e; exact h3 rfl
      · rintro e; cases e; exact h2 rfl
      · rintro e; cases e; exact h1 rfl
  · exact absurd h' ho

theorem bodyLoop_stop {m p : Nat} {e : Edge} {rest : List Tok} {s : SetExpr} (h : folB e (hd rest) = true) (hp : setPrec (hd rest) ≤ p)
    (b : List Token) : ((Parsers.at fns (m + 1)).bodyLoop p s).runZ b (Z rest) = .ok s (b, Z rest) := by
  have ho := folB_notOdd h
  cases rest with
  | nil => cases h
  | cons t rest =>
    simp only [hd] at h hp ho
    simp only [zx, bodyLoopF, List.head?_cons, Option.bind_some, setOperator_fk ho]
    by_cases h1 : fk t = .kw .UNION
    · rw [h1] at hp
      have : 10 ≤ p := hp
      simp [h1, this, zx]
    · by_cases h2 : fk t = .kw .EXCEPT
      · rw [h2] at hp
        have : 10 ≤ p := hp
        simp [h2, this, zx]
      · by_cases h3 : fk t = .kw .INTERSECT
        · rw [h3] at hp
          have : 20 ≤ p := hp
          simp [h3, this, zx]
        · simp [h1, h2, h3, zx]

theorem ParsesB.full {s : SetExpr} (h : ParsesB fns s) : ParsesBF fns s := by
  obtain ⟨c, n, hn⟩ := h
  refine ⟨n + 1 + c, fun m hm => ?_⟩
  obtain ⟨k, rfl⟩ : ∃ k, m = (k + 1) + c := ⟨m - 1 - c, by omega⟩
  intro p b rest hp hf hr hq
  rw [hn (k + 1) (by omega) p b rest hp hf hr, bodyLoop_stop hf hq]

theorem hd_body {s : SetExpr} (hw : s.wf d fns = true) (rest : List Tok) :
    hd (sg (s.toks fns) ++ rest) = .kw .SELECT ∨ hd (sg (s.toks fns) ++ rest) = .sym .LParen := by
  match s with
  | .selectExpr _ => simp [SetExpr.wf] at hw
  | .select (.mk _ _ _ _ _ _ _) => left; simp [SetExpr.toks, SQLSelect.toks, zx]
  | .query _ _ q => right; simp [SetExpr.toks, zx]
  | .setOp op all l r =>
    simp only [SetExpr.wf, Bool.and_eq_true] at hw
    simp only [SetExpr.toks, sg_append, List.append_assoc]
    exact hd_body (s := l) hw.1.1.1 _

theorem setlp_pos {s : SetExpr} (hw : s.wf d fns = true) : 0 < s.lp := by
  match s with
  | .selectExpr _ => simp [SetExpr.lp]
  | .select _ => simp [SetExpr.lp]
  | .query _ _ q => simp [SetExpr.lp]
  | .setOp op all l r =>
    simp only [SetExpr.wf, Bool.and_eq_true] at hw
    have := setlp_pos (s := l) hw.1.1.1
    have h2 : 0 < op.level := by cases op <;> simp [SetOp.level]
    simp only [SetExpr.lp]
    omega

theorem parse_setSelect {s : SQLSelect}
    (h : Ev fun m => ∀ (b : List Token) (rest : List Tok), folB s.edge (hd rest) = true →
      (parseSelect (Parsers.at fns m) Pos.zero).runZ (zt (kT .SELECT) :: b) (Z ((sg (s.toks fns)).tail ++ rest)) =
      .ok (.select s.erase) (R (sg (s.toks fns)) b, Z rest)) : ParsesB fns (.select s) := by
  refine ⟨1, h.mono fun m hm => ?_⟩
  intro p b rest hp hf hr
  have h1 := fun b => hm b rest hf
  have e : sg (s.toks fns) = kT .SELECT :: (sg (s.toks fns)).tail := by
    obtain ⟨_, _, _, _, _, _, _⟩ := s
    simp only [SQLSelect.toks, sg_kT, List.tail_cons]
  rw [SetExpr.toks, e, SetExpr.erase]
  simp only [List.cons_append, zx, at_queryBody, queryBodyF, h1]
  rw [e]
  simp [zx]

theorem parse_setQuery {q : QueryStmt} {x y : Pos} (h : ParsesQ fns q) : ParsesB fns (.query x y q) := by
  refine ⟨1, h.mono fun m hm => ?_⟩
  intro p b rest hp hf hr
  have h1 := fun b => hm b (rpar :: rest) (by simp [zx, folQ_rpar])
  simp [SetExpr.toks, SetExpr.erase, zx, queryBodyF, h1]

theorem parse_setOp {op : SetOp} {all : Bool} {l r : SetExpr} (hw : (SetExpr.setOp op all l r).wf d fns = true)
    (hl : ParsesB fns l) (hr : ParsesBF fns r) : ParsesB fns (.setOp op all l r) := by
  simp only [SetExpr.wf, Bool.and_eq_true, decide_eq_true_eq] at hw
  obtain ⟨⟨⟨w1, w2⟩, w3⟩, w4⟩ := hw
  obtain ⟨c, hl⟩ := hl
  refine ⟨1 + c, ((hl.add 1).and hr).mono fun m hm => ?_⟩
  intro p b rest hp hf hrp
  obtain ⟨hl, hr⟩ := hm
  have e1 : m + (1 + c) = m + 1 + c := by omega
  simp only [SetExpr.lp] at hp
  simp only [SetExpr.rp] at hrp
  have h2 := fun b => hr op.level b rest w4 hf (by omega) (by omega)
  have h3 : hd (sg (r.toks fns) ++ rest) ≠ .kw .ALL ∧ hd (sg (r.toks fns) ++ rest) ≠ .odd := by
    rcases hd_body (fns := fns) w2 rest with h | h <;> rw [h] <;> simp
  rw [SetExpr.toks, e1]
  simp only [sg_append, sg_sp, sg_kT, List.append_assoc, List.cons_append, SetExpr.erase]
  rw [hl p b _ (by omega) (by simp only [hd_cons, fk_kT]; cases op <;> rfl) (by simp only [hd_cons, fk_kT]; cases op <;> exact w3)]
  cases op <;>
    (simp only [SetOp.level] at h2
     simp only [SetOp.level] at hp
     have hp' := Nat.not_le.mpr (Nat.lt_of_lt_of_le hp (Nat.min_le_left _ _))
     cases all <;> simp [zx, SetOp.kw, bodyLoopF, setOperator, SetOp.erase, h2, h3, hp'])

/-! ### Queries -/

def CTEE (fns : FloatFns) : CTE → Prop
  | .mk _ q _ => ParsesQ fns q

theorem parse_cteList {cs : List CTE} (hne : cs ≠ []) (hw : CTE.wfs d fns cs = true) (h : ∀ c ∈ cs, CTEE fns c) :
    Ev fun m => Parses (Parsers.at fns m).cteList (sg (CTE.toksL fns cs)) (CTE.erases cs) (notSym .Comma) := by
  induction cs with
  | nil => exact absurd rfl hne
  | cons c cs ih =>
    obtain ⟨a, q, p⟩ := c
    simp only [CTE.wfs, CTE.wf, Bool.and_eq_true] at hw
    have hq : ParsesQ fns q := h (.mk a q p) (by simp)
    cases cs with
    | nil =>
      refine (hq.mono fun m hm => ?_).succ
      intro b rest hr
      simp only [notSym, decide_eq_true_eq] at hr
      have h1 := fun b => hm b (rpar :: rest) (by simp [zx, folQ_rpar])
      simp [CTE.toksL, CTE.toks, CTE.erases, CTE.erase, Ident.erase, sepT, zx, cteListF, parseIdentifier_ident hw.1.1, h1, hr]
    | cons c' cs =>
      refine ((hq.and (ih (by simp) hw.2 fun x hx => h x (by simp [hx]))).mono fun m hm => ?_).succ
      intro b rest hr
      have h1 := fun b rest => hm.1 b (rpar :: rest) (by simp [zx, folQ_rpar])
      have h2 := fun b => hm.2 b rest hr
      rw [CTE.toksL, CTE.erases]
      simp [CTE.toks, CTE.erase, Ident.erase, sepT, zx, cteListF, parseIdentifier_ident hw.1.1, h1, h2]

theorem parse_limit {l : LimitExpr} (hw : l.wf = true) {rest : List Tok} (hr : hd rest ≠ .kw .OFFSET) (ho : hd rest ≠ .odd)
    (b : List Token) : parseLimit.runZ (zt (kT .LIMIT) :: b) (Z ((sg l.toks).tail ++ rest)) = .ok l.erase (R (sg l.toks) b, Z rest) := by
  obtain ⟨c, p, q, o⟩ := l
  cases c with
  | none =>
    cases o with
    | some o => simp [LimitExpr.wf] at hw
    | none => simp [LimitExpr.toks, LimitExpr.erase, zx, parseLimit]
  | some v =>
    simp only [LimitExpr.wf, Bool.and_eq_true] at hw
    obtain ⟨w1, w2⟩ := hw
    obtain ⟨v1, v2⟩ := longOK_eq w1
    cases o with
    | none => simp [LimitExpr.toks, LimitExpr.erase, LongValue.erase, zx, parseLimit, v1, v2, hr, ho]
    | some o =>
      obtain ⟨u1, u2⟩ := longOK_eq (v := o) w2
      simp [LimitExpr.toks, LimitExpr.erase, LongValue.erase, zx, parseLimit, v1, v2, u1, u2, hr, ho]

theorem folQ_facts {e : Edge} {f : Fk} (h : folQ e f = true) : folB e f = true ∧ setPrec f = 0 ∧ f ≠ .kw .ORDER ∧ f ≠ .kw .LIMIT ∧
    f ≠ .kw .OFFSET ∧ f ≠ .odd ∧ f ≠ .eof ∧ (folL f && f != .kw .ASC && f != .kw .DESC) = true := by
  unfold folQ at h
  split at h
  all_goals first
    | (cases h; done)
    | (cases e <;> first | (cases h; done) | (refine ⟨rfl, rfl, ?_, ?_, ?_, ?_, ?_, rfl⟩ <;> (intro he; cases he)))

def limToks : Option LimitExpr → List Tok
  | some l => sp :: l.toks
  | none => []

theorem query_toks {p : Pos} {ctes : List CTE} {body : SetExpr} {os : List OrderByExpr} {lim : Option LimitExpr} :
    (QueryStmt.mk p ctes body os lim).toks fns = (if ctes.isEmpty then [] else kT .WITH :: sp :: (CTE.toksL fns ctes ++ [sp])) ++
      (body.toks fns ++ ((if os.isEmpty then [] else sp :: kT .ORDER :: sp :: kT .BY :: sp :: OrderByExpr.toksL fns os) ++ limToks lim)) := by
  cases lim <;> simp only [QueryStmt.toks, limToks, List.append_assoc]

theorem parse_query {p : Pos} {ctes : List CTE} {body : SetExpr} {os : List OrderByExpr} {lim : Option LimitExpr}
    (hw : (QueryStmt.mk p ctes body os lim).wf d fns = true) (hc : ∀ c ∈ ctes, CTEE fns c) (hb : ParsesB fns body)
    (ho : ∀ e p asc, .mk e p asc ∈ os → ParsesE fns e) : ParsesQ fns (.mk p ctes body os lim) := by
  simp only [QueryStmt.wf, Bool.and_eq_true] at hw
  obtain ⟨⟨⟨w1, w2⟩, w3⟩, w4⟩ := hw
  have e1 : Ev fun m => ctes ≠ [] → Parses (Parsers.at fns m).cteList (sg (CTE.toksL fns ctes)) (CTE.erases ctes) (notSym .Comma) :=
    ev_opt fun h => parse_cteList h w1 hc
  have e3 : Ev fun m => os ≠ [] → Parses (Parsers.at fns m).orderByList (sg (OrderByExpr.toksL fns os)) (OrderByExpr.erases os)
      (fun f => folL f && f != .kw .ASC && f != .kw .DESC) := ev_opt fun h => parse_orderByList h ho
  refine ((e1.and (hb.full.and e3)).mono fun m hm => ?_).succ
  obtain ⟨e1, e2, e3⟩ := hm
  intro b rest hr
  obtain ⟨-, -, fo, fl, ff, fd, -, fa⟩ := folQ_facts hr
  generalize hL : sg (limToks lim) = L
  generalize hO : sg (if os.isEmpty then [] else sp :: kT .ORDER :: sp :: kT .BY :: sp :: OrderByExpr.toksL fns os) = O
  have h4 : hd (L ++ rest) = if lim.isSome then .kw .LIMIT else hd rest := by
    rw [← hL]; cases lim <;> simp [zx, limToks, LimitExpr.toks]
  have h3 : hd (O ++ (L ++ rest)) = if os.isEmpty then hd (L ++ rest) else .kw .ORDER := by
    rw [← hO]; cases os <;> simp [zx]
  have k4 : hd (L ++ rest) ≠ .kw .ORDER ∧ hd (L ++ rest) ≠ .odd ∧ (folL (hd (L ++ rest)) && hd (L ++ rest) != .kw .ASC && hd (L ++ rest) != .kw .DESC) = true := by
    rw [h4]; split
    · decide
    · exact ⟨fo, fd, fa⟩
  have k3 : folB body.edge (hd (O ++ (L ++ rest))) = true ∧ setPrec (hd (O ++ (L ++ rest))) = 0 := by
    rw [h3]
    cases hoc : os with
    | cons o os => exact ⟨rfl, rfl⟩
    | nil =>
      simp only [List.isEmpty_nil, if_true]
      rw [h4]
      cases hlc : lim with
      | none =>
        rw [hoc, hlc] at hr
        simp only [QueryStmt.edge, List.isEmpty_nil, Option.isNone_none, Bool.and_true, if_true] at hr
        exact ⟨(folQ_facts hr).1, (folQ_facts hr).2.1⟩
      | some l =>
        simp only [hoc, hlc, List.isEmpty_nil, Bool.not_true, Bool.false_or, Bool.and_eq_true, beq_iff_eq] at w4
        rw [w4.2]
        exact ⟨rfl, rfl⟩
  have hbd := hd_body (fns := fns) w2 (O ++ (L ++ rest))
  have s2 := fun b => e2 0 b (O ++ (L ++ rest)) (setlp_pos w2) k3.1 (by omega) (by omega)
  have s4 : ∀ b, (do
      if ← kw .LIMIT then do
        let l ← parseLimit
        pure (some l)
      else pure none : P (Option LimitExpr)).runZ b (Z (L ++ rest)) = .ok (lim.map LimitExpr.erase) (R L b, Z rest) := by
    intro b
    rw [← hL]
    cases hlc : lim with
    | none => simp [zx, limToks, fl, fd]
    | some l =>
      simp only [hlc, limToks, Bool.and_eq_true] at w4
      have h5 := fun b => parse_limit w4.1 ff fd b
      have h6 : sg (sp :: l.toks) = kT .LIMIT :: (sg l.toks).tail := by simp only [LimitExpr.toks, zx, List.tail_cons]
      rw [limToks, h6]
      simp only [zx, List.cons_append, h5, if_true, Option.map_some]
      rw [show R (sg l.toks) b = R (sg (sp :: l.toks)) b from rfl, h6]
      simp [zx]
  have s3 : ∀ b, (do
      match ← parseKeywords [.ORDER, .BY] with
      | some _ => (Parsers.at fns m).orderByList
      | none => pure [] : P (List OrderByExpr)).runZ b (Z (O ++ (L ++ rest))) = .ok (OrderByExpr.erases os) (R O b, Z (L ++ rest)) := by
    intro b
    rw [← hO]
    cases hoc : os with
    | nil => simp [OrderByExpr.erases, zx, k4]
    | cons o os' =>
      rw [hoc] at e3
      have := fun b => e3 (by simp) b (L ++ rest) k4.2.2
      simp [zx, this]
  have s1 : ∀ b, (do if ← kw .WITH then (Parsers.at fns m).cteList else pure [] : P (List CTE)).runZ b
      (Z (sg (if ctes.isEmpty then [] else kT .WITH :: sp :: (CTE.toksL fns ctes ++ [sp])) ++ (sg (body.toks fns) ++ (O ++ (L ++ rest))))) =
      .ok (CTE.erases ctes) (R (sg (if ctes.isEmpty then [] else kT .WITH :: sp :: (CTE.toksL fns ctes ++ [sp]))) b,
        Z (sg (body.toks fns) ++ (O ++ (L ++ rest)))) := by
    intro b
    cases hcc : ctes with
    | nil =>
      have : hd (sg (body.toks fns) ++ (O ++ (L ++ rest))) ≠ .kw .WITH ∧ hd (sg (body.toks fns) ++ (O ++ (L ++ rest))) ≠ .odd := by
        rcases hbd with h | h <;> rw [h] <;> simp
      simp [CTE.erases, zx, this]
    | cons c cs =>
      rw [hcc] at e1
      have := fun b => e1 (by simp) b (sg (body.toks fns) ++ (O ++ (L ++ rest))) (by
        rcases hbd with h | h <;> rw [h] <;> simp [notSym])
      simp [zx, this]
  have ht : sg ((QueryStmt.mk p ctes body os lim).toks fns) = sg (if ctes.isEmpty then [] else kT .WITH :: sp :: (CTE.toksL fns ctes ++ [sp])) ++
      (sg (body.toks fns) ++ (O ++ L)) := by
    rw [query_toks]
    simp only [sg_append, hO, hL]
  rw [ht]
  simp only [List.append_assoc]
  rw [at_query, queryF, runZ_bindM, s1, Res.bind_ok, runZ_bindM, s2, Res.bind_ok, runZ_bindM]
  erw [s3]
  rw [Res.bind_ok, runZ_bindM, s4, Res.bind_ok, runZ_pure]
  simp only [QueryStmt.erase, R_append]

end Verif
