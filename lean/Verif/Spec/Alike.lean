/-
Traversing with `Apply` as with `Inspect`: the callbacks that correspond to a function given to `Inspect`.
-/
import Verif.Spec.Apply

namespace Verif

/-- The function for `Inspect` that sees of a node only its address. -/
def byAddress {σ : Type} (g : Option Nat → σ → Bool × σ) (t : Option Tree) (s : σ) : Bool × σ := g (t.map Tree.id) s

/-- The corresponding `pre` of `Apply`: it calls the function with the node of the cursor and passes its answer on. -/
def enter {σ : Type} (g : Option Nat → σ → Bool × σ) : Callback σ := fun c w =>
  .ret (g c.node w.user).1 { w with user := (g c.node w.user).2 }

/-- The corresponding `post`: it calls the function with nil, as `Inspect` does behind the children of a node, and
ignores the answer, as `Inspect` does. -/
def leave {σ : Type} (g : Option Nat → σ → Bool × σ) : Callback σ := fun _ w =>
  .ret true { w with user := (g none w.user).2 }

/-- The function that also counts its calls. -/
def counting {σ : Type} (g : Option Nat → σ → Bool × σ) (a : Option Nat) (s : σ × Nat) : Bool × (σ × Nat) :=
  ((g a s.1).1, ((g a s.1).2, s.2 + 1))

mutual
/-- The tree with the nodes of type NamedColumnsJoin (`USING (...)`) made nodes of a type that `Inspect` does not know. -/
def Tree.hideUsing : Tree → Tree
  | .mk k i a fs => .mk (if k = .NamedColumnsJoin then .Comment else k) i a (Tree.hideFields fs)
def Tree.hideFields : List FieldVal → List FieldVal
  | [] => []
  | x :: xs => x.hideUsing :: Tree.hideFields xs
def FieldVal.hideUsing : FieldVal → FieldVal
  | .nil f => .nil f
  | .one f t => .one f t.hideUsing
  | .list f ts => .list f (Tree.hideList ts)
def Tree.hideList : List Tree → List Tree
  | [] => []
  | t :: ts => t.hideUsing :: Tree.hideList ts
end

end Verif
