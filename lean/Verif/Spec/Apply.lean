/-
What `Apply` is supposed to do, stated without reference to its code.
-/
import Verif.Model.Apply
import Verif.Spec.Walk

namespace Verif

/-- A call of a callback: which one (`post` or `pre`), the node, the answer (`none`: it panicked). -/
structure CbCall where
  post : Bool
  node : Option Nat
  answer : Option Bool
  deriving DecidableEq, Repr

/-- A callback that also writes down its calls. -/
def recorded {σ : Type} (isPost : Bool) (cb : Callback σ) : Callback (σ × List CbCall) := fun c w =>
  match cb c ⟨w.user.1, w.heap, w.index, w.step⟩ with
  | .ret b w' => .ret b ⟨(w'.user, w.user.2 ++ [⟨isPost, c.node, some b⟩]), w'.heap, w'.index, w'.step⟩
  | .panic w' => .panic ⟨(w'.user, w.user.2 ++ [⟨isPost, c.node, none⟩]), w'.heap, w'.index, w'.step⟩

/-! A tree in the heap -/

/-- The field as it is stored: the addresses of the nodes. -/
def FieldVal.ref : FieldVal → FieldRef
  | .nil f => .nil f
  | .one f t => .one f t.id
  | .list f ts => .list f (ts.map Tree.id)

/-- The tree is in the heap, each node at the address that is its identity. -/
def Heap.Has (h : Heap) (t : Tree) : Prop :=
  ∀ u, Occurs t u → h u.id = ⟨some u.kind, u.all, u.fields.map FieldVal.ref⟩

/-- The calls of a complete pass over a list of siblings, children in the order of the declaration: `pre` for the
node, the calls for the children, `post` for the node. -/
inductive Pass : List Tree → List CbCall → Prop where
  | done : Pass [] []
  | node {t rest l1 l2} : Pass t.children l1 → Pass rest l2 →
      Pass (t :: rest) (⟨false, some t.id, some true⟩ :: (l1 ++ ⟨true, some t.id, some true⟩ :: l2))

/-- The same with the children of each node in some order. -/
inductive PassAny : List Tree → List CbCall → Prop where
  | done : PassAny [] []
  | node {t rest ks l1 l2} : ks.Perm t.children → PassAny ks l1 → PassAny rest l2 →
      PassAny (t :: rest) (⟨false, some t.id, some true⟩ :: (l1 ++ ⟨true, some t.id, some true⟩ :: l2))

/-- The callback returns true and changes neither the heap nor the iterator. -/
def Quiet {σ : Type} (cb : Callback σ) : Prop :=
  ∀ c w, ∃ u, cb c w = .ret true { w with user := u }

/-- The node types for which `Apply` has no case. -/
def applyUnknownKinds : List Kind := .NamedColumnsJoin :: unknownKinds

/-! Edits -/

/-- A call of an editing method of the cursor. -/
inductive Edit where
  | before (n : Nat)
  | after (n : Nat)
  | replace (n : Nat)
  | delete
  deriving DecidableEq, Repr

/-- The node that an edit puts into the list. -/
def Edit.node? : Edit → Option Nat
  | .before n => some n
  | .after n => some n
  | .replace n => some n
  | .delete => none

/-- The element of a list together with what was inserted around it; `cur = none` after it was deleted. -/
structure Spot where
  before : List Nat
  cur : Option Nat
  after : List Nat

/-- What an edit means: `before` inserts directly before the current element, `after` directly after it. -/
def Spot.edit (s : Spot) : Edit → Spot
  | .before n => { s with before := s.before ++ [n] }
  | .after n => { s with after := n :: s.after }
  | .replace n => { s with cur := some n }
  | .delete => { s with cur := none }

/-- What a list of edits makes of an element. -/
def editResult (x : Nat) (es : List Edit) : List Nat :=
  let s := es.foldl Spot.edit ⟨[], some x, []⟩
  s.before ++ s.cur.toList ++ s.after

/-- Nothing is done with an element after it was deleted. -/
def DeleteLast (es : List Edit) : Prop := ∀ pre post, es = pre ++ .delete :: post → post = []

/-- The edits made on the elements of a list, in the order of the calls: which callback, the element, the edits.
`Edited xs log ys`: every element of `xs` was presented once to `pre` and, if that wanted to go on, once to `post`,
in the order of `xs`, and nothing else was; and `ys` is `xs` with these edits made. -/
inductive Edited : List Nat → List (Bool × Nat × List Edit) → List Nat → Prop where
  | nil : Edited [] [] []
  | pruned {x xs es l ys} : Edited xs l ys →
      Edited (x :: xs) ((false, x, es) :: l) (editResult x es ++ ys)
  | full {x xs es1 es2 l ys} : Edited xs l ys →
      Edited (x :: xs) ((false, x, es1) :: (true, x, es2) :: l) (editResult x (es1 ++ es2) ++ ys)

/-- Carry out edits through the cursor. -/
def Cursor.edit {σ : Type} (c : Cursor) : Edit → World σ → Option (World σ)
  | .before n => c.insertBefore n
  | .after n => c.insertAfter n
  | .replace n => c.replace n
  | .delete => c.delete

def Cursor.edits {σ : Type} (c : Cursor) : List Edit → World σ → Option (World σ)
  | [], w => some w
  | e :: es, w => (c.edit e w).bind (c.edits es)

/-- What a callback does: edits, its answer, its new state. -/
structure Script (σ : Type) where
  edits : List Edit
  answer : Bool
  user : σ

/-- The callback that makes edits on the elements of the list `f` of the node `p`, as the function `script` says,
writes down the edits, and elsewhere does what `other` says. -/
def scripted {σ : Type} (isPost : Bool) (p : Nat) (f : FName) (script : Nat → σ → Script σ)
    (other : Cursor → σ → Bool × σ) : Callback (σ × List (Bool × Nat × List Edit)) := fun c w =>
  if c.parent = p ∧ c.name = f ∧ c.inList then
    match c.node with
    | none => .panic w
    | some x =>
      let r := script x w.user.1
      match c.edits r.edits { w with user := (r.user, w.user.2 ++ [(isPost, x, r.edits)]) } with
      | some w' => .ret r.answer w'
      | none => .panic w
  else
    let r := other c w.user.1
    .ret r.1 { w with user := (r.2, w.user.2) }

/-- `Leads h a b`: following the pointers of the heap one gets from `a` to `b`. -/
inductive Leads (h : Heap) : Nat → Nat → Prop where
  | refl (a : Nat) : Leads h a a
  | one {a b c : Nat} {f : FName} : .one f b ∈ (h a).fields → Leads h b c → Leads h a c
  | list {a b c : Nat} {f : FName} {as : List Nat} : .list f as ∈ (h a).fields → b ∈ as → Leads h b c → Leads h a c

/-- Nothing but the field `f` of the struct at `p` differs. -/
def Frame (h0 : Heap) (p : Nat) (f : FName) (h : Heap) : Prop :=
  (∀ b, b ≠ p → h b = h0 b) ∧ (h p).kind = (h0 p).kind ∧ (h p).all = (h0 p).all ∧
    ∀ g, g ≠ f → h.field p g = h0.field p g

/-- A callback that also writes down the cursor, the heap and the index of the iterator that it got. -/
def witnessed {σ : Type} (cb : Callback σ) : Callback (σ × List (Cursor × Heap × Int)) := fun c w =>
  match cb c ⟨w.user.1, w.heap, w.index, w.step⟩ with
  | .ret b w' => .ret b ⟨(w'.user, w.user.2 ++ [(c, w.heap, w.index)]), w'.heap, w'.index, w'.step⟩
  | .panic w' => .panic ⟨(w'.user, w.user.2 ++ [(c, w.heap, w.index)]), w'.heap, w'.index, w'.step⟩

/-- A callback next to a witnessed one: it does not see the record. -/
def unwitnessed {σ : Type} (cb : Callback σ) : Callback (σ × List (Cursor × Heap × Int)) := fun c w =>
  match cb c ⟨w.user.1, w.heap, w.index, w.step⟩ with
  | .ret b w' => .ret b ⟨(w'.user, w.user.2), w'.heap, w'.index, w'.step⟩
  | .panic w' => .panic ⟨(w'.user, w.user.2), w'.heap, w'.index, w'.step⟩

/-- The cursor says where its node is: it is in the field of the parent that the cursor names, in case of a list at
the index. -/
def Cursor.Exact (c : Cursor) (h : Heap) (i : Int) : Prop :=
  if c.inList then ∃ g as, h.field c.parent c.name = some (.list g as) ∧ 0 ≤ i ∧ as[i.toNat]? = c.node ∧ c.node ≠ none
  else h.ptr c.parent c.name = c.node

end Verif
