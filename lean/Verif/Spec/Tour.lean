/-
The calls that `Apply` makes when the callbacks edit the tree.
-/
import Verif.Spec.Replace
import Verif.Spec.Walk

namespace Verif

/-- The callback changes the memory through its cursor only, makes no edit after it deleted the node, and if it is a
`pre` that deletes the node it does not ask to go on with it.  Which edits it makes may depend on everything; it may
also panic. -/
def Orderly {σ : Type} (isPost : Bool) (cb : Callback σ) : Prop :=
  ∀ c w, match cb c w with
  | .ret b w' => ∃ es w1, c.edits es w = some w1 ∧ w'.heap = w1.heap ∧ w'.index = w1.index ∧ w'.step = w1.step ∧
      DeleteLast es ∧ (isPost = false → b = true → Edit.delete ∉ es)
  | .panic _ => True

/-- The calls on a way through a list of siblings: `pre` for a node; if it answers false, this is all for the node and
what is below it; otherwise the calls for its children, and `post` for the node.  Children come in the order of the
declaration, apart from those of CTE and CROSS JOIN nodes, for which the order is left open.  The way ends early when
`post` answers false, or a callback panics (answer `none`); the last argument is that answer. -/
inductive Tour : List Tree → List CbCall → Option (Option Bool) → Prop where
  | done : Tour [] [] none
  | pruned {t rest l e} : Tour rest l e → Tour (t :: rest) (⟨false, some t.id, some false⟩ :: l) e
  | node {t rest ks l1 l2 e} : ks.Perm t.children → (t.kind ∉ reorderedKinds → ks = t.children) → Tour ks l1 none →
      Tour rest l2 e → Tour (t :: rest) (⟨false, some t.id, some true⟩ :: (l1 ++ ⟨true, some t.id, some true⟩ :: l2)) e
  | fails {t rest} : Tour (t :: rest) [⟨false, some t.id, none⟩] (some none)
  | inside {t rest ks l e} : ks.Perm t.children → (t.kind ∉ reorderedKinds → ks = t.children) → Tour ks l (some e) →
      Tour (t :: rest) (⟨false, some t.id, some true⟩ :: l) (some e)
  | stops {t rest ks l e} : ks.Perm t.children → (t.kind ∉ reorderedKinds → ks = t.children) → Tour ks l none →
      e ≠ some true → Tour (t :: rest) (⟨false, some t.id, some true⟩ :: (l ++ [⟨true, some t.id, e⟩])) (some e)

end Verif
