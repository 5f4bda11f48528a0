import Verif.Proofs.Precedence
import Verif.Props.RoundTrip
/-
Property theorem C22: operator precedence and associativity.
-/
set_option maxRecDepth 100000
namespace Verif
open Spec

/-- The text of an operator sequence. -/
def seqText (fns : FloatFns) (x : Expr) (xs : List (Operator × Expr)) : Str :=
  Node.toSQLString fns (.expr x) ++
    xs.flatMap fun a => str% " " ++ Node.toSQLString fns (.operator a.1) ++ str% " " ++ Node.toSQLString fns (.expr a.2)

theorem seqText_tree {fns : FloatFns} {e x : Expr} {xs : List (Operator × Expr)} (h : TreeOf e x xs) :
    Node.toSQLString fns (.expr e) = seqText fns x xs := by
  induction h with
  | leaf _ => simp [seqText]
  | @node l r x z xs ys o hl hr ihl ihr =>
    have hb : Node.toSQLString fns (.expr (.binary l o r)) =
        Node.toSQLString fns (.expr l) ++ (str% " " ++ Node.toSQLString fns (.operator o) ++ str% " " ++
          Node.toSQLString fns (.expr r)) := by
      simp only [Node.toSQLString_eq, Node.wt, Expr.wt, Wt.text, Step.texts, Step.text, List.append_assoc,
        List.append_nil]
    rw [hb, ihl, ihr]
    simp [seqText]

/-- C22: for every operator sequence with well-formed operands there is exactly one tree that respects the
operator levels and groups operators of one level to the left, and `ParseExpr` on the text of the sequence
returns this tree, up to positions. -/
theorem C22_precedence {d : Dialect} (hd : BuiltIn d) (fns : FloatFns) (mode : Bool) (x : Expr)
    (xs : List (Operator × Expr)) (hx : x.operand = true ∧ x.wf d fns = true)
    (hxs : ∀ a ∈ xs, 0 < a.1.type.level ∧ a.2.operand = true ∧ a.2.wf d fns = true) :
    ∃ e, (TreeOf e x xs ∧ e.Respects) ∧ (∀ e', TreeOf e' x xs → e'.Respects → e' = e) ∧
      Reads d (seqText fns x xs) (fun n => runExpr fns n mode) fun e' => e'.erase = e.erase := by
  obtain ⟨e, h1, h2⟩ := exists_respects hx.1 xs fun a ha => (hxs a ha).2.1
  refine ⟨e, ⟨h1, h2⟩, fun e' h3 h4 => by rw [h3.eq_attachAll h4, h1.eq_attachAll h2], ?_⟩
  rw [← seqText_tree h1]
  exact C23_expr_roundtrip_partial hd fns mode (h1.wf h2 hx.2 fun a ha => ⟨(hxs a ha).1, (hxs a ha).2.2⟩)

/-- Hypotheses met: the sequence `a - b - c * d OR e`. -/
def sampleSeq : List (Operator × Expr) :=
  [(Sample.op .Minus, Sample.v (str% "b")), (Sample.op .Minus, Sample.v (str% "c")),
   (Sample.op .Multiply, Sample.v (str% "d")), (Sample.op .Or, Sample.v (str% "e"))]

example (fns : FloatFns) : (Sample.v (str% "a")).operand = true ∧ (Sample.v (str% "a")).wf genericDialect fns = true ∧
    ∀ a ∈ sampleSeq, 0 < a.1.type.level ∧ a.2.operand = true ∧ a.2.wf genericDialect fns = true := by
  refine ⟨rfl, by kernel_rfl, ?_⟩
  have h : (sampleSeq.all fun a => decide (0 < a.1.type.level) && a.2.operand && a.2.wf genericDialect fns) = true := by
    kernel_rfl
  intro a ha
  simpa [and_assoc] using List.all_eq_true.1 h a ha

/-- And its tree is `((a - b) - (c * d)) OR e`. -/
example : let t := Sample.bin .Or (Sample.bin .Minus (Sample.bin .Minus (Sample.v (str% "a")) (Sample.v (str% "b")))
      (Sample.bin .Multiply (Sample.v (str% "c")) (Sample.v (str% "d")))) (Sample.v (str% "e"))
    TreeOf t (Sample.v (str% "a")) sampleSeq ∧ t.Respects :=
  ⟨.node (.node (.node (.leaf rfl) (.leaf rfl)) (.node (.leaf rfl) (.leaf rfl))) (.leaf rfl), by
    simp [Sample.bin, Sample.v, Sample.op, Expr.Respects, Expr.topLevel, OpType.level]⟩

/-- C22, no ambiguity: two well-formed expressions (with prefix, postfix and infix operators, IN, BETWEEN and
everything else) that are written with the same significant tokens are the same, up to positions. -/
theorem C22_unique {d d' : Dialect} {fns : FloatFns} {e e' : Expr} (he : e.wf d fns = true) (he' : e'.wf d' fns = true)
    (h : sg (e.toks fns) = sg (e'.toks fns)) : e.erase = e'.erase := by
  obtain ⟨n, hn⟩ := (Expr.parses e he).expr he
  obtain ⟨n', hn'⟩ := (Expr.parses e' he').expr he'
  have h1 := hn (max n n') (Nat.le_max_left ..) [] [] rfl
  have h2 := hn' (max n n') (Nat.le_max_right ..) [] [] rfl
  rw [h, h2] at h1
  injection h1 with h1
  exact h1.symm

example (fns : FloatFns) : Sample.expr.wf genericDialect fns = true := Sample.expr_wf fns

end Verif
