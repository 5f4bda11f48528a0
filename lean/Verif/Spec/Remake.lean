/-
The tree that comes out of edits made everywhere in a tree.
-/
import Verif.Spec.Replace

namespace Verif

mutual
/-- The tree with the edits made below its root: `E` gives the edits of each node, `N` the tree at each address that is put
in. -/
def Tree.remade (E : Nat → List Edit) (N : Nat → Tree) : Tree → Tree
  | .mk k i a fs => .mk k i a (Tree.remadeFields E N fs)
def Tree.remadeFields (E : Nat → List Edit) (N : Nat → Tree) : List FieldVal → List FieldVal
  | [] => []
  | x :: xs => x.remade E N :: Tree.remadeFields E N xs
def FieldVal.remade (E : Nat → List Edit) (N : Nat → Tree) : FieldVal → FieldVal
  | .nil f => .nil f
  | .one f t => .one f (if newOne E t.id = t.id then t.remade E N else N (newOne E t.id))
  | .list f ts => .list f (Tree.remadeList E N ts)
def Tree.remadeList (E : Nat → List Edit) (N : Nat → Tree) : List Tree → List Tree
  | [] => []
  | t :: ts => (newList E t.id).map (fun a => if a = t.id then t.remade E N else N a) ++ Tree.remadeList E N ts
end

/-- The same with the edits of the root, which can only be replaced. -/
def Tree.remadeRoot (E : Nat → List Edit) (N : Nat → Tree) (t : Tree) : Tree :=
  if newOne E t.id = t.id then t.remade E N else N (newOne E t.id)

end Verif
