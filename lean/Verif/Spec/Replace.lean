/-
Replacing nodes with `Apply`: what is supposed to come out.
-/
import Verif.Spec.Apply

namespace Verif

/-! ### Edits at all nodes -/

/-- What stands in the place of a node in a field that is not a list: the edits are replacements, the last one counts. -/
def newOne (E : Nat → List Edit) (a : Nat) : Nat := ((E a).foldl Spot.edit ⟨[], some a, []⟩).cur.getD a

/-- What stands in the place of a node in a list. -/
def newList (E : Nat → List Edit) (a : Nat) : List Nat := editResult a (E a)

/-- A field with the edits made: `E` gives the edits of each node. -/
def FieldRef.edited (E : Nat → List Edit) : FieldRef → FieldRef
  | .nil f => .nil f
  | .one f a => .one f (newOne E a)
  | .list f as => .list f (as.flatMap (newList E))

/-- A struct with all edits made. -/
def Obj.edited (E : Nat → List Edit) (o : Obj) : Obj := ⟨o.kind, o.all, o.fields.map (FieldRef.edited E)⟩

/-- The `post` that makes the edits through its cursor. -/
def editing {σ : Type} (E : Nat → List Edit) : Callback σ := fun c w =>
  match c.node with
  | none => .ret true w
  | some a => match c.edits (E a) w with
    | some w' => .ret true w'
    | none => .panic w

/-- The edits of the child `c` in the field `x` of the node `u` are possible: the type of the field allows the new nodes,
nothing is done after the node was deleted, and outside of lists nodes are only replaced.  Outside of lists nodes of
type QueryStmt are not edited (C43: the cursor has the wrong name for some of them). -/
def Editable (E : Nat → List Edit) (h : Heap) (t : Tree) : Prop :=
  ∀ u, Occurs t u → ∀ x ∈ u.fields, ∀ c ∈ x.nodes, E c.id ≠ [] →
    (∀ e ∈ E c.id, ∀ b, e.node? = some b → h.assignable u.id x.name b = true) ∧ DeleteLast (E c.id) ∧
    ((∃ f, x = .one f c) → c.kind ≠ .QueryStmt ∧ ∀ e ∈ E c.id, ∃ b, e = .replace b)

/-! ### Replacements -/

/-- What stands in the place of a node: `ρ` says by which node it is replaced, if at all. -/
def newAddr (ρ : Nat → Option Nat) (a : Nat) : Nat := (ρ a).getD a

/-- A field with the pointers replaced. -/
def FieldRef.replaced (ρ : Nat → Option Nat) : FieldRef → FieldRef
  | .nil f => .nil f
  | .one f a => .one f (newAddr ρ a)
  | .list f as => .list f (as.map (newAddr ρ))

/-- A struct with all pointers replaced. -/
def Obj.replaced (ρ : Nat → Option Nat) (o : Obj) : Obj := ⟨o.kind, o.all, o.fields.map (FieldRef.replaced ρ)⟩

/-- The `post` that replaces: `Cursor.Replace` with the node that `ρ` gives. -/
def replacing {σ : Type} (ρ : Nat → Option Nat) : Callback σ := fun c w =>
  match c.node.bind ρ with
  | none => .ret true w
  | some b => match c.replace b w with
    | some w' => .ret true w'
    | none => .panic w

/-- The addresses of the nodes of a tree. -/
def Tree.ids (t : Tree) : List Nat := t.nodes.map Tree.id

/-- The replacements are possible: where a node is replaced, the type of the field allows the new one.  Outside
of lists nodes of type QueryStmt are not replaced (C43: the cursor has the wrong name for some of them). -/
def Allowed (ρ : Nat → Option Nat) (h : Heap) (t : Tree) : Prop :=
  ∀ u, Occurs t u → ∀ x ∈ u.fields, ∀ c ∈ x.nodes, ∀ b, ρ c.id = some b →
    h.assignable u.id x.name b = true ∧ ((∃ f, x = .one f c) → c.kind ≠ .QueryStmt)

mutual
/-- The tree with subtrees replaced: `R` says by which tree the node at an address is replaced, if at all. -/
def Tree.subst (R : Nat → Option Tree) : Tree → Tree
  | .mk k i a fs => match R i.addr with
    | some s => s
    | none => .mk k i a (Tree.substFields R fs)
def Tree.substFields (R : Nat → Option Tree) : List FieldVal → List FieldVal
  | [] => []
  | x :: xs => x.subst R :: Tree.substFields R xs
def FieldVal.subst (R : Nat → Option Tree) : FieldVal → FieldVal
  | .nil f => .nil f
  | .one f t => .one f (t.subst R)
  | .list f ts => .list f (Tree.substList R ts)
def Tree.substList (R : Nat → Option Tree) : List Tree → List Tree
  | [] => []
  | t :: ts => t.subst R :: Tree.substList R ts
end

mutual
/-- The tree without the elements of lists whose addresses are in `P`. -/
def Tree.prune (P : Nat → Bool) : Tree → Tree
  | .mk k i a fs => .mk k i a (Tree.pruneFields P fs)
def Tree.pruneFields (P : Nat → Bool) : List FieldVal → List FieldVal
  | [] => []
  | x :: xs => x.prune P :: Tree.pruneFields P xs
def FieldVal.prune (P : Nat → Bool) : FieldVal → FieldVal
  | .nil f => .nil f
  | .one f t => .one f (t.prune P)
  | .list f ts => .list f (Tree.pruneList P ts)
def Tree.pruneList (P : Nat → Bool) : List Tree → List Tree
  | [] => []
  | t :: ts => if P t.id then Tree.pruneList P ts else t.prune P :: Tree.pruneList P ts
end

/-- The `post` that deletes the nodes whose addresses are in `P`. -/
def deleting {σ : Type} (P : Nat → Bool) : Callback σ := fun c w =>
  match c.node with
  | none => .ret true w
  | some a => if P a then match c.delete w with
      | some w' => .ret true w'
      | none => .panic w
    else .ret true w

end Verif
