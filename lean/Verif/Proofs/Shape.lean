import Verif.Proofs.ShapeBase
/-
Every tree that the parser returns has the shape of Spec/Shape.lean.

As in Proofs/NodePos.lean, `Sh T I r` states what each recursive entry point promises about its result and the
token after it, and `sh_step` shows that one level of calls keeps the promises.
-/
set_option linter.unusedSimpArgs false
set_option linter.unusedVariables false
namespace Verif

variable {T : List Token} {I : Str → Bool} {α β : Type} {i j k : Nat} {r : Parsers}

/-- Every word of the tokens, as the parser stores it, satisfies `I`. -/
def WordsOK (T : List Token) (I : Str → Bool) : Prop := ∀ t ∈ T, ∀ w, t.tok = .word w → I w.string = true

/-- `e` was read from index `i` up to `j`. -/
structure ExAt (T : List Token) (I : Str → Bool) (i : Nat) (e : Expr) (j : Nat) : Prop where
  shape : e.shape I = true
  rp : nx T j ≤ e.rp
  ex : e.startsExists = true → ∃ t, T[i]? = some t ∧ t.matchesKw KW.EXISTS.str = true

/-- The same for table references. -/
structure RefAt (T : List Token) (I : Str → Bool) (e : TableRef) (j : Nat) : Prop where
  shape : e.shape I = true
  edge : EdgeAt T j e.edge

/-- The same for set expressions. -/
structure BodyAt (T : List Token) (I : Str → Bool) (i : Nat) (e : SetExpr) (j : Nat) : Prop where
  shape : e.shape I = true
  rp : nq T j ≤ e.rp
  edge : EdgeAt T j e.edge
  start : e.startsSelect = true ∨ ∃ t, T[i]? = some t ∧ t.isSym .LParen = true

def identListOK (I : Str → Bool) (is : List Ident) : Prop := ∀ i ∈ is, I i.value = true

def ColumnOK (I : Str → Bool) (x : Option Expr × List ColumnConstraint × List AutoIncrement) : Prop :=
  (∀ e, x.1 = some e → e.shape I = true ∧ e.defaultOK = true) ∧ ∀ c ∈ x.2.1, c.shape I = true

structure Sh (T : List Token) (I : Str → Bool) (r : Parsers) : Prop where
  subexpr : ∀ p i, p < 100 → pc T (r.subexpr p) i fun e j => ExAt T I i e j ∧ p < e.lp ∧ nx T j ≤ p
  subexprLoop : ∀ p e i k, ExAt T I i e k → p < e.lp →
    pc T (r.subexprLoop p e) k fun e' j => ExAt T I i e' j ∧ p < e'.lp ∧ nx T j ≤ p
  prefix_ : ∀ i, pc T r.prefix_ i fun e j => ExAt T I i e j ∧ e.isPrefix = true
  idParts : ∀ i, pc T r.idParts i fun x j => identListOK I x.1 ∧
    ∀ t, T[i]? = some t → (t.isSym .Period = true → x.1 ≠ [] ∨ x.2 = true) ∧ (t.isSym .Period = false → j = i)
  exprList : ∀ i, pc T r.exprList i fun es j => es ≠ [] ∧ Expr.shapes I es = true
  listOfIds : ∀ s i, pc T (r.listOfIds s) i fun x j => ∀ is, x = some is → is ≠ [] ∧ identListOK I is
  listOfIdsSep : ∀ s i, pc T (r.listOfIdsSep s) i fun x j => ∀ is, x = some is → identListOK I is
  orderByList : ∀ i, pc T r.orderByList i fun es j => es ≠ [] ∧ OrderByExpr.shapes I es = true
  caseLoop : ∀ i, pc T r.caseLoop i fun x j => x.1 ≠ [] ∧ x.1.length = x.2.length ∧ Expr.shapes I x.1 = true ∧
    Expr.shapes I x.2 = true
  query : ∀ i, pc T r.query i fun q j => q.shape I = true ∧ EdgeAt T j q.edge ∧
    (q.startsSelect = true ∨ ∃ t, T[i]? = some t ∧ t.isSym .LParen = true)
  queryBody : ∀ p i, p < 100 → pc T (r.queryBody p) i fun e j => BodyAt T I i e j ∧ p < e.lp ∧ nq T j ≤ p
  bodyLoop : ∀ p e i k, BodyAt T I i e k → p < e.lp →
    pc T (r.bodyLoop p e) k fun e' j => BodyAt T I i e' j ∧ p < e'.lp ∧ nq T j ≤ p
  cteList : ∀ i, pc T r.cteList i fun es j => es ≠ [] ∧ CTE.shapes I es = true
  selectList : ∀ i, pc T r.selectList i fun es j => es ≠ [] ∧ SelectItem.shapes I es = true ∧
    ∀ x, es.getLast? = some x → EdgeAt T j x.edge
  tableRef : ∀ i, pc T r.tableRef i fun e j => RefAt T I e j ∧ NoJoin T j
  tableRefLoop : ∀ f e k, f.shape I = true → RefAt T I e k → (e.open_ = false → NoJoin T k) →
    pc T (r.tableRefLoop f e) k fun e' j => RefAt T I e' j ∧ NoJoin T j
  fromRest : ∀ i, pc T r.fromRest i fun es j => TableRef.shapes I es = true ∧ (es = [] → j = i) ∧
    ∀ x, es.getLast? = some x → EdgeAt T j x.edge
  defaultLoop : ∀ e i k, ExAt T I i e k → e.defaultOK = true →
    pc T (r.defaultLoop e) k fun e' j => e'.shape I = true ∧ e'.defaultOK = true
  columnLoop : ∀ d s a i, ColumnOK I (d, s, a) → pc T (r.columnLoop d s a) i fun x j => ColumnOK I x
  columnConstraints : ∀ i, pc T r.columnConstraints i fun cs j => ∀ c ∈ cs, c.shape I = true
  elements : ∀ i, pc T r.elements i fun es j => ∀ e ∈ es, e.shape I = true
  tableOptions : ∀ i, pc T r.tableOptions i fun os j => ∀ o ∈ os, o.shape I = true
  assignments : ∀ i, pc T r.assignments i fun as j => as ≠ [] ∧ ∀ a ∈ as, a.shape I = true
  rows : ∀ i, pc T r.rows i fun rs j => rs ≠ [] ∧ ∀ x ∈ rs, x.shape I = true
  statement : ∀ i, pc T r.statement i fun s j => s.shape I = true

/-- `pc` for a step with a known postcondition. -/
theorem pc_seq {p : P α} {f : α → P β} {Q : α → Nat → Prop} {Q' : β → Nat → Prop} (h : pc T p i Q)
    (h' : ∀ x j, Q x j → pc T (f x) j Q') : pc T (p >>= f) i Q' := pc_bind (pc_mono h h')

theorem pc_trivial {p : P α} {Q : α → Nat → Prop} (h : ∀ x j, Q x j) : pc T p i Q := fun x j _ => h x j

theorem pc_ite {c : Prop} [Decidable c] {p q : P α} {Q : α → Nat → Prop} (h1 : c → pc T p i Q)
    (h2 : ¬c → pc T q i Q) : pc T (if c then p else q) i Q := by
  split
  · exact h1 ‹_›
  · exact h2 ‹_›

theorem word_ok (hw : WordsOK T I) {t : Token} {w : SQLWord} (ht : T[i]? = some t) (h : t.word? = some w) :
    I w.string = true := by
  refine hw t (List.mem_of_getElem? ht) w ?_
  obtain ⟨tok, f, to⟩ := t
  cases tok <;> simp [Token.word?] at h
  rw [h]

/-! ### Names, numbers and types -/

theorem sh_parseIdentifier (hw : WordsOK T I) : pc T parseIdentifier i fun x j => I x.value = true := by
  unfold parseIdentifier
  refine pc_bindOf (wp_nextOrErr fun t ht _ => ?_)
  split
  · exact pc_err
  · exact pc_pure (word_ok hw ht ‹_›)

theorem sh_parseListOfIds (H : Sh T I r) (s : Sym) :
    pc T (parseListOfIds r s) i fun is j => is ≠ [] ∧ identListOK I is := by
  unfold parseListOfIds
  refine pc_seq (H.listOfIds s i) fun x j hx => ?_
  split
  · exact pc_err
  · exact pc_pure (hx _ rfl)

theorem identsShape_iff {is : List Ident} : identsShape I is = true ↔ is ≠ [] ∧ identListOK I is := by
  cases is <;> simp [identsShape, identListOK]

theorem sh_parseColumnNames (H : Sh T I r) : pc T (parseColumnNames r) i fun is j => identsShape I is = true :=
  pc_mono (sh_parseListOfIds H .Comma) fun _ _ h => identsShape_iff.2 h

theorem sh_parseObjectName (H : Sh T I r) : pc T (parseObjectName r) i fun o j => o.shape I = true := by
  unfold parseObjectName
  refine pc_seq (sh_parseListOfIds H .Period) fun is j h => pc_pure ?_
  exact identsShape_iff.2 h

theorem atoi_bound (s : Str) : 0 ≤ (atoi s).1 ∧ (atoi s).1 < 2 ^ 63 := by
  unfold atoi
  split
  · simp
  · split
    · rename_i n _ h
      simp only [maxInt] at h
      simp only
      omega
    · simp [maxInt]

theorem sh_parseLiteralInt : pc T parseLiteralInt i fun x j => 0 ≤ x.1 ∧ x.1 < 2 ^ 63 := by
  unfold parseLiteralInt
  refine pc_bindOf (wp_mustNext fun t ht _ => ?_)
  split
  · rename_i s _
    split
    · rename_i n h
      exact pc_pure (by have := atoi_bound s; rw [h] at this; exact this)
    · exact pc_err
  · exact pc_err

theorem size_ok {n : Int} (h : 0 ≤ n ∧ n < 2 ^ 63) : sizeOptOK (some n.toNat) = true := by
  simp only [sizeOptOK, sizeOK, decide_eq_true_eq]; omega

theorem sh_parseOptionalPrecision : pc T parseOptionalPrecision i fun x j => sizeOptOK x.1 = true := by
  unfold parseOptionalPrecision
  refine pc_skip fun b a => pc_ite (fun _ => ?_) (fun _ => pc_pure rfl)
  refine pc_seq sh_parseLiteralInt fun x j hx => pc_skip fun _ _ => pc_pure (size_ok hx)

theorem sh_parseOptionalPrecisionScale : pc T parseOptionalPrecisionScale i fun x j =>
    sizeOptOK x.1 = true ∧ sizeOptOK x.2 = true ∧ (x.1 = none → j = i) := by
  unfold parseOptionalPrecisionScale
  refine pc_bindOf (wp_consumeToken (fun _ _ _ _ => ?_) ?_)
  · simp only [if_true]
    refine pc_seq sh_parseLiteralInt fun x j hx => ?_
    have key : pc T (do
        if ← consumeToken .Comma then do
          let (s, _) ← parseLiteralInt
          pure (some s.toNat)
        else pure none) j fun y _ => sizeOptOK y = true := by
      refine pc_skip fun b a => pc_ite (fun _ => ?_) (fun _ => pc_pure rfl)
      exact pc_seq sh_parseLiteralInt fun x j hx => pc_pure (size_ok hx)
    exact pc_seq key fun y _ hy => pc_skip fun _ _ => pc_pure ⟨size_ok hx, hy, by simp⟩
  · simp only [Bool.false_eq_true, if_false]
    exact pc_pure ⟨rfl, rfl, fun _ => rfl⟩

theorem sh_parseDataType (hw : WordsOK T I) (H : Sh T I r) : pc T (parseDataType r) i fun x j => x.shape I = true := by
  have hchar : ∀ t k, pc T (parseDataType.parseChar t) k fun x j => x.shape I = true := by
    intro t k
    unfold parseDataType.parseChar
    refine pc_skip fun v _ => ?_
    split
    · exact pc_seq sh_parseOptionalPrecision fun x j hx => pc_pure hx
    · exact pc_seq sh_parseOptionalPrecision fun x j hx => pc_pure hx
  unfold parseDataType
  refine pc_bindOf (wp_nextOrErr fun t ht _ => ?_)
  split
  · exact pc_err
  · rename_i w hwd
    split
    case h_20 =>
      refine pc_skip fun _ _ => pc_seq (sh_parseObjectName H) fun o j ho => pc_pure ho
    case h_19 =>
      refine pc_seq sh_parseOptionalPrecisionScale fun x j hx => ?_
      obtain ⟨h1, h2, h3⟩ := hx
      obtain ⟨p, s⟩ := x
      dsimp only at h1 h2 h3 ⊢
      refine pc_bindOf (wp_prevToken fun k hk => ?_)
      refine pc_bindOf (wp_nextSym fun rp hr hs _ => ?_)
      refine pc_skip fun _ _ => pc_pure ?_
      cases p with
      | none =>
        have := h3 rfl
        have hki : k = i := by omega
        subst hki
        rw [ht] at hr; cases hr
        rw [word_not_sym hwd] at hs; cases hs
      | some p => simp [DataType.shape, h1, h2]
    case h_10 => exact hchar _ _
    case h_11 => exact hchar _ _
    case h_2 =>
      exact pc_seq sh_parseOptionalPrecision fun x j hx => pc_skip fun _ _ => pc_pure hx
    case h_9 =>
      exact pc_seq sh_parseOptionalPrecision fun x j hx => pc_pure hx
    all_goals repeat' first
      | exact pc_pure rfl
      | exact pc_panic
      | exact pc_err
      | refine pc_skip fun _ _ => ?_
      | split

end Verif
