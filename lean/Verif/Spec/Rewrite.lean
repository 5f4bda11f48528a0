/-
Rewriting a tree with `Apply` and callbacks whose edits depend on what they see: what is supposed to come out.
-/
import Verif.Spec.Replace
import Verif.Spec.Walk

namespace Verif

/-- The callback that makes the edits that `s` says, which may depend on everything, and writes them down: which callback,
the node, the edits.  If not all of the edits are
possible it panics without making any of them. -/
def noted {σ : Type} (b : Bool) (s : Cursor → World σ → Script σ) : Callback (σ × List (Bool × Nat × List Edit)) := fun c w =>
  match c.node with
  | none => .panic w
  | some a =>
    match c.edits (s c ⟨w.user.1, w.heap, w.index, w.step⟩).edits w with
    | some w' => .ret (s c ⟨w.user.1, w.heap, w.index, w.step⟩).answer
        { w' with user := ((s c ⟨w.user.1, w.heap, w.index, w.step⟩).user,
          w.user.2 ++ [(b, a, (s c ⟨w.user.1, w.heap, w.index, w.step⟩).edits)]) }
    | none => .panic w

/-- The edits written down for a node, in the order in which they were made. -/
def madeAt (l : List (Bool × Nat × List Edit)) (a : Nat) : List Edit :=
  l.flatMap fun x => if x.2.1 = a then x.2.2 else []

end Verif
