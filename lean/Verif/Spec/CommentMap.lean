/-
What a comment map is supposed to contain.
-/
import Verif.Model.CommentMap

namespace Verif

/-- The groups that are attached to `n` if the groups `cs` are attached, in order, to the nodes `ns`. -/
def attached (n : Nat) : List Nat → List CommentGroup → List CommentGroup
  | k :: ks, c :: cs => if k = n then c :: attached n ks cs else attached n ks cs
  | _, _ => []

/-- The map arises by attaching each of the groups to exactly one of the nodes: nothing is lost, doubled or invented,
and the groups of a node stay in order. -/
def Distributes (nodes : List Tree) (cs : List CommentGroup) (m : CommentMap) : Prop :=
  ∃ ns : List Nat, ns.length = cs.length ∧ (∀ k ∈ ns, ∃ t ∈ nodes, t.id = k) ∧ ∀ n, m n = attached n ns cs

/-- The nodes where `Pos` or `End` panics: a column definition without constraints, CREATE TABLE without elements,
`OVER ()`, a file without statements. -/
def Tree.trap (t : Tree) : Bool :=
  let empty (f : FName) : Bool := t.fields.all fun x => x.name != f || match x with
    | .nil _ => true
    | .one _ _ => false
    | .list _ ts => ts.isEmpty
  match t.kind with
  | .ColumnDef => empty .Constraints
  | .CreateTableStmt => empty .Elements
  | .WindowSpec => empty .PartitionBy && empty .OrderBy && empty .WindowsFrame
  | .File => empty .Stmts
  | _ => false

mutual
/-- The tree with all addresses forgotten. -/
def Tree.anon : Tree → Tree
  | .mk k r a fs => .mk k ⟨0, r.pos, r.end_⟩ a (Tree.anonFields fs)
def Tree.anonFields : List FieldVal → List FieldVal
  | [] => []
  | x :: xs => x.anon :: Tree.anonFields xs
def FieldVal.anon : FieldVal → FieldVal
  | .nil f => .nil f
  | .one f t => .one f t.anon
  | .list f ts => .list f (Tree.anonList ts)
def Tree.anonList : List Tree → List Tree
  | [] => []
  | t :: ts => t.anon :: Tree.anonList ts
end

end Verif
