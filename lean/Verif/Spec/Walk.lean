/-
What a traversal of a tree is supposed to do, stated without reference to the code of `Walk`.
-/
import Verif.Model.Walk

namespace Verif

/-- The nodes in a field. -/
def FieldVal.nodes : FieldVal → List Tree
  | .nil _ => []
  | .one _ t => [t]
  | .list _ ts => ts

/-- The children of a node: the nodes in its fields, in the order of the declaration. -/
def Tree.children (t : Tree) : List Tree := t.fields.flatMap FieldVal.nodes

/-- `Occurs t u`: the node `u` occurs in the tree `t`. -/
inductive Occurs : Tree → Tree → Prop where
  | refl (t : Tree) : Occurs t t
  | child {t c u : Tree} : c ∈ t.children → Occurs c u → Occurs t u

mutual
/-- All nodes of a tree, each as often as it occurs: the node, then the nodes of its fields. -/
def Tree.nodes : Tree → List Tree
  | .mk k i a fs => .mk k i a fs :: Tree.nodesFields fs
def Tree.nodesFields : List FieldVal → List Tree
  | [] => []
  | x :: xs => Tree.nodesField x ++ Tree.nodesFields xs
def Tree.nodesField : FieldVal → List Tree
  | .nil _ => []
  | .one _ t => t.nodes
  | .list _ ts => Tree.nodesList ts
def Tree.nodesList : List Tree → List Tree
  | [] => []
  | t :: ts => t.nodes ++ Tree.nodesList ts
end

/-- The depth-first traversals of a tree, given who the children of a node are.  A traversal is a list of calls:
the argument of the call (`none` for nil) and whether the callee wanted to go on.  A call that did not want to go
on ends the visit of that node; otherwise the traversals of the children follow, in order, and then the closing call
with nil.  A nil child gets a single call with nil, which must stop there. -/
inductive Traversal (kids : Tree → Option (List (Option Tree))) :
    List (Option Tree) → List (Option Tree × Bool) → Prop where
  | done : Traversal kids [] []
  | nil {rest l} : Traversal kids rest l → Traversal kids (none :: rest) ((none, false) :: l)
  | pruned {t rest l} : Traversal kids rest l → Traversal kids (some t :: rest) ((some t, false) :: l)
  | visited {t rest ks l1 l2 b} : kids t = some ks → Traversal kids ks l1 → Traversal kids rest l2 →
      Traversal kids (some t :: rest) ((some t, true) :: (l1 ++ (none, b) :: l2))

/-- The children of a node in the order of the declaration, in the form expected by `Traversal`. -/
def Tree.fieldKids (t : Tree) : Option (List (Option Tree)) := some (t.children.map some)

/-- The calls of the traversal of a list of siblings when the answer depends only on the argument. -/
inductive Pruned (g : Tree → Bool) : List Tree → List (Option Tree) → Prop where
  | done : Pruned g [] []
  | reject {t rest l} : g t = false → Pruned g rest l → Pruned g (t :: rest) (some t :: l)
  | accept {t rest l1 l2} : g t = true → Pruned g t.children l1 → Pruned g rest l2 →
      Pruned g (t :: rest) (some t :: (l1 ++ none :: l2))

/-- A callback that also writes down its calls. -/
def logged {V σ : Type} (visit : V → Option Tree → σ → Option V × σ) (v : V) (n : Option Tree)
    (s : σ × List (V × Option Tree × Bool)) : Option V × (σ × List (V × Option Tree × Bool)) :=
  let r := visit v n s.1
  (r.1, (r.2, s.2 ++ [(v, n, r.1.isSome)]))

/-- A function for `Inspect` that also writes down its calls. -/
def loggedFn {σ : Type} (f : Option Tree → σ → Bool × σ) (n : Option Tree)
    (s : σ × List (Option Tree × Bool)) : Bool × (σ × List (Option Tree × Bool)) :=
  let r := f n s.1
  (r.1, (r.2, s.2 ++ [(n, r.1)]))

/-- The contract of `Visitor` in package go/ast, which package sqlast imitates: `Contract visit v ks s s'` says that
visiting the nodes `ks` one after the other with the visitor `v`, where the children of a node and the closing call
are left to the visitor that `Visit` returned for the node, can change the state from `s` to `s'`. -/
inductive Contract {V σ : Type} (visit : V → Option Tree → σ → Option V × σ)
    (kids : Tree → Option (List (Option Tree))) : V → List (Option Tree) → σ → σ → Prop where
  | done {v s} : Contract visit kids v [] s s
  | nil {v rest s s'} : (visit v none s).1 = none → Contract visit kids v rest (visit v none s).2 s' →
      Contract visit kids v (none :: rest) s s'
  | stop {v t rest s s'} : (visit v (some t) s).1 = none →
      Contract visit kids v rest (visit v (some t) s).2 s' → Contract visit kids v (some t :: rest) s s'
  | go {v w t rest ks s s1 s'} : (visit v (some t) s).1 = some w → kids t = some ks →
      Contract visit kids w ks (visit v (some t) s).2 s1 →
      Contract visit kids v rest (visit w none s1).2 s' → Contract visit kids v (some t :: rest) s s'

/-! Which trees are meant -/

/-- The single-valued fields that the parser may leave nil. -/
def optionalFields : List (Kind × FName) := [
  (.Function, .Over), (.CaseExpr, .Operand), (.CaseExpr, .ElseResult), (.WindowSpec, .WindowsFrame),
  (.WindowFrame, .EndBound), (.QueryStmt, .Limit), (.SQLSelect, .WhereClause), (.SQLSelect, .HavingClause),
  (.Table, .Alias), (.Derived, .Alias), (.LimitExpr, .LimitValue), (.LimitExpr, .OffsetValue),
  (.UpdateStmt, .Selection), (.DeleteStmt, .Selection), (.TableConstraint, .Name), (.ColumnDef, .Default),
  (.ColumnConstraint, .Name), (.CreateIndexStmt, .IndexName), (.CreateIndexStmt, .MethodName),
  (.CreateIndexStmt, .Selection)]

/-- The value of a field agrees with its declaration: the name, slice or not, the types of the nodes; and it is nil
only where the parser leaves it nil. -/
def FieldVal.fits (k : Kind) (d : Field) : FieldVal → Bool
  | .nil f => f == d.name && !d.slice && optionalFields.contains (k, f)
  | .one f t => f == d.name && !d.slice && d.type.accepts t.kind
  | .list f ts => f == d.name && d.slice && ts.all (fun t => d.type.accepts t.kind)

/-- The fields agree with a list of declarations. -/
def fitsAll (k : Kind) : List Field → List FieldVal → Bool
  | [], [] => true
  | d :: ds, x :: xs => x.fits k d && fitsAll k ds xs
  | _, _ => false

/-- A node has the fields of its type; `LIMIT ALL` has no limit and every other `LIMIT` has one. -/
def Tree.WellTyped (t : Tree) : Prop :=
  fitsAll t.kind t.kind.fields t.fields = true ∧
  (t.kind = .LimitExpr → (t.all = true ↔ FieldVal.nil .LimitValue ∈ t.fields))

/-- The node types for which `Walk` has no case. -/
def unknownKinds : List Kind :=
  [.CommentGroup, .Comment, .PartitionedJoinTable, .AutoIncrement, .MyEngine, .MyCharset]

/-- The fields whose nodes `Walk` does not visit. -/
def unwalkedFields : List (Kind × FName) := [
  (.File, .Comments), (.CaseExpr, .Conditions), (.CaseExpr, .Results), (.CaseExpr, .ElseResult),
  (.NamedColumnsJoin, .ColumnList), (.CreateTableStmt, .Options), (.ColumnDef, .MyDataTypeDecoration),
  (.Array, .Ty), (.Custom, .Ty)]

/-- The optional fields that `Walk` visits without checking that they are set. -/
def uncheckedFields : List (Kind × FName) := [(.CaseExpr, .Operand), (.UpdateStmt, .Selection)]

/-- The node is not one of the exceptions: `Walk` has a case for it, the fields that it skips are empty and the
fields that it takes for granted are set. -/
def Tree.Regular (t : Tree) : Prop :=
  t.kind ∉ unknownKinds ∧
  (∀ x ∈ t.fields, (t.kind, x.name) ∈ unwalkedFields → x.nodes = []) ∧
  (∀ x ∈ t.fields, (t.kind, x.name) ∈ uncheckedFields → x.nodes ≠ [])

/-- Every node of the tree is well typed and regular. -/
def Tree.Good (t : Tree) : Prop := ∀ u, Occurs t u → u.WellTyped ∧ u.Regular

/-- The node types whose fields `Walk` visits in another order than that of the declaration. -/
def reorderedKinds : List Kind := [.CTE, .CrossJoin]

end Verif
