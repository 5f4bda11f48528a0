import Verif.Spec.WellFormed
/-
Operator sequences and the trees that group them, for C22.  Nothing here refers to the parser.
-/
namespace Verif

/-- An operand: no operator at the top (an operand may contain operators inside brackets and the like). -/
def Expr.operand : Expr → Bool
  | .unary _ _ _ => false
  | e => e.isPrefix

/-- `e` is a tree of binary operators whose operands and operators, from left to right, are `x`, then the pairs
of an operator and an operand in the list. -/
inductive TreeOf : Expr → Expr → List (Operator × Expr) → Prop
  | leaf {x : Expr} : x.operand = true → TreeOf x x []
  | node {l r x y : Expr} {xs ys : List (Operator × Expr)} {op : Operator} : TreeOf l x xs → TreeOf r y ys →
    TreeOf (.binary l op r) x (xs ++ (op, y) :: ys)

/-- The level of the operator at the top, if there is one, satisfies `p`. -/
def Expr.topLevel (p : Nat → Prop) : Expr → Prop
  | .binary _ op _ => p op.type.level
  | _ => True

/-- Every operator binds at most as strongly as those directly below it on the left, and less strongly than
those directly below it on the right: the levels are respected, and operators of one level group to the
left. -/
def Expr.Respects : Expr → Prop
  | .binary l op r => l.Respects ∧ r.Respects ∧ l.topLevel (op.type.level ≤ ·) ∧ r.topLevel (op.type.level < ·)
  | _ => True

end Verif
