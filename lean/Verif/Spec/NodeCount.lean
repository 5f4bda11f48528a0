import Verif.Spec.Walk
/-
How many nodes a tree has.
-/
namespace Verif

/-- The number of nodes of a tree. -/
def Tree.count (t : Tree) : Nat := t.nodes.length

end Verif
