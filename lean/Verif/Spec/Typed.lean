/-
Go's types, as far as they concern the structs in memory: what a field may hold.
-/
import Verif.Spec.Apply

namespace Verif

/-- A pointer to the node at `n` may be stored where the type is `ty`: it is a node, of a type that `ty` takes. -/
def Heap.Takes (h : Heap) (ty : FTy) (n : Nat) : Prop := ∃ k, (h n).kind = some k ∧ ty.accepts k = true

/-- A field holds what its declaration says: nil or a pointer, or else a slice, and pointers of the type. -/
def FieldRef.Fits (h : Heap) (d : Field) : FieldRef → Prop
  | .nil f => f = d.name ∧ d.slice = false
  | .one f a => f = d.name ∧ d.slice = false ∧ h.Takes d.type a
  | .list f as => f = d.name ∧ d.slice = true ∧ ∀ a ∈ as, h.Takes d.type a

/-- All structs in memory hold what their declarations say. -/
def Heap.Typed (h : Heap) : Prop := ∀ a, ∀ x ∈ (h a).fields, ∃ d ∈ (h a).decl, x.Fits h d

/-- The same structs with the same fields, and no field has become nil. -/
def SameStructs (h g : Heap) : Prop :=
  ∀ a, (g a).kind = (h a).kind ∧ (g a).all = (h a).all ∧
    (g a).fields.map FieldRef.name = (h a).fields.map FieldRef.name ∧
    ∀ f, h.ptr a f ≠ none → g.ptr a f ≠ none

/-- The callback changes the memory through its cursor only; which edits it makes may depend on everything.
An edit that panics counts as not made (in Go an insertion that panics has already made the list longer). -/
def Through {σ : Type} (cb : Callback σ) : Prop :=
  ∀ c w, ∃ es w1, c.edits es w = some w1 ∧
    match cb c w with
    | .ret _ w' | .panic w' => w'.heap = w1.heap ∧ w'.index = w1.index ∧ w'.step = w1.step

/-- The new node has a type that the field of the cursor takes. -/
def Cursor.Takes (c : Cursor) (h : Heap) (n : Nat) : Prop :=
  ∃ d ∈ (h c.parent).decl, d.name = c.name ∧ h.Takes d.type n

/-- `Apply` can cope with all structs in memory: it knows their types, they have all their fields, and the fields that
it takes for granted are set. -/
def Heap.Ready (h : Heap) : Prop :=
  ∀ a k, (h a).kind = some k → k ∉ applyUnknownKinds ∧ (h a).fields.map FieldRef.name = k.fields.map Field.name ∧
    (∀ d ∈ k.fields, d.slice = false → ((k, d.name) ∈ optionalFields → (k, d.name) ∈ uncheckedFields) →
      h.ptr a d.name ≠ none) ∧
    (k = .LimitExpr → (h a).all = false → h.ptr a .LimitValue ≠ none)

/-- How many of the edits are deletions. -/
def deletions (es : List Edit) : Nat := es.countP (fun e => e == .delete)

/-- The callback does not panic, changes the memory through its cursor only, and calls `Delete` at most `k` times for
a node. -/
def Mild {σ : Type} (k : Nat) (cb : Callback σ) : Prop :=
  ∀ c w, ∃ es w1 b u, c.edits es w = some w1 ∧ deletions es ≤ k ∧ cb c w = .ret b { w1 with user := u }

/-- The callback that makes the edits `E` where that is possible. -/
def trying {σ : Type} (E : Nat → List Edit) : Callback σ := fun c w =>
  match c.node with
  | none => .ret false w
  | some a => match c.edits (E a) w with
    | some w' => .ret true w'
    | none => .ret true w

end Verif
