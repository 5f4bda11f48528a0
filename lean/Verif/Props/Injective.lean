import Verif.Props.Soundness
import Verif.Props.Findings
import Verif.Spec.CopyData
/-
C66: two trees with the same text.  For the trees of the round-trip theorems they are the same tree up to positions;
outside of them texts can coincide, through string literals and through the data of COPY, which are not escaped.
-/
set_option maxRecDepth 100000
namespace Verif
open Spec

theorem Reads.same {d : Dialect} {src : Str} {run : Nat → List Token → Res Unit α} {p q : α → Prop}
    (h1 : Reads d src run p) (h2 : Reads d src run q) : ∃ x, p x ∧ q x := by
  obtain ⟨toks, ht, h1⟩ := h1
  obtain ⟨toks', ht', h2⟩ := h2
  rw [ht] at ht'
  cases ht'
  obtain ⟨x, h3, h4⟩ := h1 _ (Nat.le_refl _)
  obtain ⟨y, h5, h6⟩ := h2 _ (Nat.le_refl _)
  rw [h3] at h5
  cases h5
  exact ⟨x, h4, h6⟩

/-- C66: well-formed expressions have the same text exactly if they are equal up to positions. -/
theorem C66_expr_text_iff {d : Dialect} (hd : BuiltIn d) (fns : FloatFns) {x y : Expr} (hx : x.wf d fns = true)
    (hy : y.wf d fns = true) :
    Node.toSQLString fns (.expr x) = Node.toSQLString fns (.expr y) ↔ x.erase = y.erase := by
  constructor
  · intro h
    have h1 := C23_expr_roundtrip_partial hd fns false hx
    rw [h] at h1
    obtain ⟨z, h2, h3⟩ := h1.same (C23_expr_roundtrip_partial hd fns false hy)
    rw [← h2, h3]
  · intro h
    rw [Node.toSQLString_eq, Node.toSQLString_eq, show (Node.expr x).wt fns = x.wt fns from rfl,
      show (Node.expr y).wt fns = y.wt fns from rfl, ← Expr.wt_erase, h, Expr.wt_erase]

/-- C66 for types. -/
theorem C66_type_text_iff {d : Dialect} (hd : BuiltIn d) (fns : FloatFns) {x y : DataType} (hx : x.wf d = true)
    (hy : y.wf d = true) :
    Node.toSQLString fns (.dataType x) = Node.toSQLString fns (.dataType y) ↔ x.erase = y.erase := by
  constructor
  · intro h
    have h1 := C25_type_roundtrip_partial hd fns false hx
    rw [h] at h1
    obtain ⟨z, h2, h3⟩ := h1.same (C25_type_roundtrip_partial hd fns false hy)
    rw [← h2, h3]
  · intro h
    rw [Node.toSQLString_eq, Node.toSQLString_eq, show (Node.dataType x).wt fns = x.wt from rfl,
      show (Node.dataType y).wt fns = y.wt from rfl, ← DataType.wt_erase, h, DataType.wt_erase]

/-- C66 for statements. -/
theorem C66_statement_text_iff {d : Dialect} (hd : BuiltIn d) (fns : FloatFns) {x y : Stmt} (hx : x.wf d fns = true)
    (hy : y.wf d fns = true) :
    Node.toSQLString fns (.stmt x) = Node.toSQLString fns (.stmt y) ↔ x.erase = y.erase := by
  constructor
  · intro h
    have h1 := C25_statement_roundtrip_partial hd fns false hx
    rw [h] at h1
    obtain ⟨z, h2, h3⟩ := h1.same (C25_statement_roundtrip_partial hd fns false hy)
    rw [← h2, h3]
  · intro h
    rw [Node.toSQLString_eq, Node.toSQLString_eq, show (Node.stmt x).wt fns = x.wt fns from rfl,
      show (Node.stmt y).wt fns = y.wt fns from rfl, ← Stmt.wt_erase, h, Stmt.wt_erase]

/-- C66 for lists of statements. -/
theorem C66_script_text_iff {d : Dialect} (hd : BuiltIn d) (fns : FloatFns) {xs ys : List Stmt}
    (hx : ∀ s ∈ xs, s.wf d fns = true) (hy : ∀ s ∈ ys, s.wf d fns = true) :
    statementsText fns xs = statementsText fns ys ↔ xs.map Stmt.erase = ys.map Stmt.erase := by
  constructor
  · intro h
    have h1 := C26_statements_roundtrip hd fns false hx
    rw [h] at h1
    obtain ⟨z, h2, h3⟩ := h1.same (C26_statements_roundtrip hd fns false hy)
    rw [← h2, h3]
  · intro h
    have key : ∀ l : List Stmt, statementsText fns l = statementsText fns (l.map Stmt.erase) := by
      intro l
      unfold statementsText
      rw [List.flatMap_map]
      congr 1
      funext s
      rw [Node.toSQLString_eq, Node.toSQLString_eq, show (Node.stmt s).wt fns = s.wt fns from rfl,
        show (Node.stmt s.erase).wt fns = s.erase.wt fns from rfl, Stmt.wt_erase]
    rw [key, h, ← key]

/-- C66 for source texts: if two texts are read to plain statements, they are printed alike exactly if they are the
same up to positions. -/
theorem C66_read_text_iff {d : Dialect} (hd : BuiltIn d) (fns : FloatFns) {mode mode' : Bool} {fuel fuel' n n' : Nat}
    {src src' : Str} {toks toks' : List Token} (ht : tokenize d true fuel src = .ok toks)
    (ht' : tokenize d true fuel' src' = .ok toks') {s s' : Stmt} (h : runStatement fns n mode toks = .ok s ())
    (h' : runStatement fns n' mode' toks' = .ok s' ()) (hp : s.plain fns = true) (hp' : s'.plain fns = true) :
    Node.toSQLString fns (.stmt s) = Node.toSQLString fns (.stmt s') ↔ s.erase = s'.erase :=
  C66_statement_text_iff hd fns
    (s.wf_of (C49_statement_shape fns n mode _ toks (tokenizeFrom_kwOK ht) (spelled_words hd ht) s h) hp)
    (s'.wf_of (C49_statement_shape fns n' mode' _ toks' (tokenizeFrom_kwOK ht') (spelled_words hd ht') s' h') hp')

/-! ### Texts that coincide -/

/-- C66 fails for string literals with a quote: the literal `'a'' OR ''b'` is printed like the disjunction of two
literals, whatever `a` and `b` are. -/
theorem C66_literal_false (fns : FloatFns) (a b : Str) (p q : Pos) :
    Node.toSQLString fns (.expr (.singleQuoted p q (a ++ str% "' OR '" ++ b))) =
      Node.toSQLString fns (.expr (.binary (.singleQuoted p q a) ⟨.Or, p, q⟩ (.singleQuoted p q b))) := by
  rw [Node.toSQLString_eq, Node.toSQLString_eq]
  simp [Node.wt, Expr.wt, Wt.text, Step.texts, Step.text, Operator.wt]

/-- The operator of the condition of a DELETE. -/
def deleteOp : Stmt → Option OpType
  | .delete _ _ (some (.binary _ op _)) => some op.type
  | _ => none

/-- Both trees are read from texts: two DELETE statements that delete different rows are printed alike. -/
theorem C66_read_false (fns : FloatFns) : ∃ toks toks' s s',
    tokenize genericDialect true 38 (str% "DELETE FROM t WHERE a = 'x'' OR ''1';") = .ok toks ∧
    tokenize genericDialect true 36 (str% "DELETE FROM t WHERE a = 'x' OR '1';") = .ok toks' ∧
    runStatement fns (3 * toks.length + 3) false toks = .ok s () ∧
    runStatement fns (3 * toks'.length + 3) false toks' = .ok s' () ∧
    Node.toSQLString fns (.stmt s) = Node.toSQLString fns (.stmt s') ∧ s.erase ≠ s'.erase := by
  have h1 : ((readAs (fun n => runStatement fns n false) (str% "DELETE FROM t WHERE a = 'x'' OR ''1';")).map fun x =>
      Node.toSQLString fns (.stmt x.2) == str% "DELETE FROM t WHERE a = 'x' OR '1'" && deleteOp x.2.erase == some .Eq) =
      some true := by kernel_rfl
  have h2 : ((readAs (fun n => runStatement fns n false) (str% "DELETE FROM t WHERE a = 'x' OR '1';")).map fun x =>
      Node.toSQLString fns (.stmt x.2) == str% "DELETE FROM t WHERE a = 'x' OR '1'" && deleteOp x.2.erase == some .Or) =
      some true := by kernel_rfl
  obtain ⟨toks, s, a1, a2, a3⟩ := readAs_some (p := fun s => Node.toSQLString fns (.stmt s) ==
    str% "DELETE FROM t WHERE a = 'x' OR '1'" && deleteOp s.erase == some .Eq) h1
  obtain ⟨toks', s', b1, b2, b3⟩ := readAs_some (p := fun s => Node.toSQLString fns (.stmt s) ==
    str% "DELETE FROM t WHERE a = 'x' OR '1'" && deleteOp s.erase == some .Or) h2
  simp only [Bool.and_eq_true, beq_iff_eq] at a3 b3
  refine ⟨toks, toks', s, s', a1, b1, a2, b2, by rw [a3.1, b3.1], fun h => ?_⟩
  rw [h, b3.2] at a3
  cases a3.2

/-! ### COPY -/

theorem fields_cons_tab (s : Str) : fields ('\t' :: s) = [] :: fields s := by simp [fields]

theorem fields_append_tab {v : Str} (hv : '\t' ∉ v) (s : Str) : fields (v ++ '\t' :: s) = v :: fields s := by
  induction v with
  | nil => exact fields_cons_tab s
  | cons c v ih =>
    simp only [List.mem_cons, not_or] at hv
    simp [fields, Ne.symm hv.1, ih hv.2]

theorem fields_plain {v : Str} (hv : '\t' ∉ v) : fields v = [v] := by
  induction v with
  | nil => rfl
  | cons c v ih =>
    simp only [List.mem_cons, not_or] at hv
    simp [fields, Ne.symm hv.1, ih hv.2]

theorem copyValues_data : ∀ (v : Option Str) (vs : List (Option Str)), (∀ x ∈ v :: vs, CopyPlain x) →
    '\n' ∉ Step.texts (copyValues true (v :: vs)) ∧ copyData (Step.texts (copyValues true (v :: vs))) = v :: vs
  | v, vs, h => by
    have hv := h v (by simp)
    have h1 : '\t' ∉ v.getD (str% "\\N") ∧ '\n' ∉ v.getD (str% "\\N") := by
      cases v with
      | none => decide
      | some v => exact ⟨hv.1, hv.2.1⟩
    have h2 : (if v.getD (str% "\\N") = ['\\', 'N'] then none else some (v.getD (str% "\\N"))) = v := by
      cases v with
      | none => rfl
      | some v => simp [hv.2.2]
    cases vs with
    | nil =>
      have : Step.texts (copyValues true [v]) = v.getD (str% "\\N") := by
        simp [copyValues, Step.if_, Step.texts, Step.text]
      rw [this]
      exact ⟨h1.2, by simp only [copyData, fields_plain h1.1, List.map_cons, List.map_nil, h2]⟩
    | cons w vs =>
      have ih := copyValues_data w vs (fun x hx => h x (List.mem_cons_of_mem _ hx))
      have : Step.texts (copyValues true (v :: w :: vs)) =
          v.getD (str% "\\N") ++ '\t' :: Step.texts (copyValues true (w :: vs)) := by
        simp [copyValues, Step.if_, Step.texts, Step.text]
      rw [this]
      refine ⟨?_, ?_⟩
      · simp [h1.2, ih.1]
      · rw [copyData, fields_append_tab h1.1, List.map_cons, h2]
        exact congrArg _ ih.2

/-- C66 for COPY: the data stand on one line before the final `\.`, from which the values can be read if none of
them contains a tab or a line break or is `\N`. -/
theorem C66_copy_data (fns : FloatFns) (p : Pos) (name : ObjectName) (cols : List Ident) : ∃ head,
    Node.toSQLString fns (.stmt (.copy p name cols [])) = head ++ str% "\n\\." ∧
    ∀ values, values ≠ [] → (∀ v ∈ values, CopyPlain v) → ∃ line,
      Node.toSQLString fns (.stmt (.copy p name cols values)) = head ++ str% "\n" ++ line ++ str% "\n\\." ∧
      '\n' ∉ line ∧ copyData line = values := by
  refine ⟨Step.texts ([.bytes (str% "COPY "), .node name.wt] ++
      (if cols.isEmpty then []
        else [.bytes (str% " "), .bytes (str% "("), .idents' cols (str% ", "), .bytes (str% ")")]) ++
      [.bytes (str% " FROM stdin; ")]), ?_, ?_⟩
  · rw [Node.toSQLString_eq]
    simp [Node.wt, Stmt.wt, Wt.text, Step.texts, Step.text, texts_append]
  · intro values hne h
    cases values with
    | nil => exact absurd rfl hne
    | cons v vs =>
      refine ⟨Step.texts (copyValues true (v :: vs)), ?_, copyValues_data v vs h⟩
      rw [Node.toSQLString_eq]
      simp [Node.wt, Stmt.wt, Wt.text, Step.texts, Step.text, texts_append]

/-- Without the condition two statements can have the same text. -/
theorem C66_copy_false (fns : FloatFns) (p : Pos) (name : ObjectName) (cols : List Ident) :
    Node.toSQLString fns (.stmt (.copy p name cols [some (str% "a\tb")])) =
      Node.toSQLString fns (.stmt (.copy p name cols [some (str% "a"), some (str% "b")])) ∧
    Node.toSQLString fns (.stmt (.copy p name cols [some (str% "\\N")])) =
      Node.toSQLString fns (.stmt (.copy p name cols [none])) := by
  constructor <;>
  · rw [Node.toSQLString_eq, Node.toSQLString_eq]
    simp [Node.wt, Stmt.wt, Wt.text, Step.texts, Step.text, texts_append, copyValues, Step.if_]

/-! ### Cases that meet the hypotheses -/

/-- Two statements: the texts of the INSERT and the UPDATE of Props/RoundTrip.lean differ. -/
example (fns : FloatFns) : Sample.insert.wf genericDialect fns = true ∧ Sample.update.wf genericDialect fns = true ∧
    Node.toSQLString fns (.stmt Sample.insert) ≠ Node.toSQLString fns (.stmt Sample.update) := by
  refine ⟨Sample.insert_wf fns, Sample.update_wf fns, fun h => ?_⟩
  rw [C66_statement_text_iff (.inl rfl) fns (Sample.insert_wf fns) (Sample.update_wf fns)] at h
  cases h

/-- Values of COPY. -/
example : ∀ v ∈ [some (str% "a b"), none, some []], CopyPlain v := by
  intro v hv
  simp only [List.mem_cons, List.not_mem_nil, or_false] at hv
  rcases hv with rfl | rfl | rfl
  · exact ⟨by decide, by decide, by decide⟩
  · trivial
  · exact ⟨by decide, by decide, by decide⟩

end Verif
