import Verif.Spec.CommentMap
import Verif.Proofs.Positions
/-
Which node a comment group is attached to.
-/
namespace Verif

/-- The groups are in the order of the source and do not overlap. -/
def InOrder (cs : List CommentGroup) : Prop :=
  (∀ c ∈ cs, ∃ p e, c.pos? = some p ∧ c.end? = some e ∧ p.lt e) ∧
  cs.Pairwise fun a b => ∀ e p, a.end? = some e → b.pos? = some p → ¬ p.lt e

/-- Statements, column definitions and table constraints. -/
def Tree.isGroup (t : Tree) : Prop :=
  t.kind ∈ [.QueryStmt, .InsertStmt, .UpdateStmt, .DeleteStmt, .CreateViewStmt, .CreateTableStmt, .AlterTableStmt,
    .DropTableStmt, .CreateIndexStmt, .DropIndexStmt, .ExplainStmt, .ColumnDef, .TableConstraint]

/-- A comment from `rpos` to `rend` follows on something that ends at `e`: it starts on the same line, or on the next
one and there is an empty line between it and the next node (which starts at `q`, if there is one). -/
def FollowsOn (e rpos rend : Pos) (q : Option Pos) : Prop :=
  e.line = rpos.line ∨ e.line + 1 = rpos.line ∧ ∀ p, q = some p → rend.line + 1 < p.line

/-- `u` is a statement (or column or constraint) that lies in no other one: those in front of it have ended where it
starts, and the nodes behind it belong to it. -/
structure TopLevel (posOf endOf : Tree → Option Pos) (front : List Tree) (u : Tree) (behind : List Tree) : Prop where
  group : u.isGroup
  front : ∀ t ∈ front, t.isGroup → ∀ e p, endOf t = some e → posOf u = some p → ¬ p.lt e
  starts : ∀ t ∈ behind, ∀ p e, posOf t = some p → endOf u = some e → p.lt e
  ends : ∀ t ∈ behind, t.isGroup → ∀ e' e, endOf t = some e' → endOf u = some e → ¬ e.lt e'

/-- The place of a comment group from `rpos` to `rend` between the nodes, in the order of `Inspect`: `next` starts
with the first node that does not start before the end of the comment. -/
structure Between (posOf : Tree → Option Pos) (nodes : List Tree) (rend : Pos) (prev next : List Tree) : Prop where
  nodes : nodes = prev ++ next
  prev : ∀ t ∈ prev, ∀ p, posOf t = some p → p.lt rend
  next : ∀ t, next.head? = some t → ∀ p, posOf t = some p → ¬ p.lt rend

/-- The comment group `c` belongs to the node `n`. -/
def Belongs (posOf endOf : Tree → Option Pos) (nodes : List Tree) (c : CommentGroup) (n : Tree) : Prop :=
  ∃ prev next rpos rend, c.pos? = some rpos ∧ c.end? = some rend ∧ Between posOf nodes rend prev next ∧
    -- it is a statement, column or constraint that has ended and that the comment follows on
    ((n ∈ prev ∧ n.isGroup ∧ ∃ e, endOf n = some e ∧ ¬ rpos.lt e ∧
        FollowsOn e rpos rend (next.head?.bind posOf)) ∨
     -- or the previous node, if the comment follows on it or there is no next node
     (prev.getLast? = some n ∧ ∃ e, endOf n = some e ∧
        (FollowsOn e rpos rend (next.head?.bind posOf) ∨ next = [])) ∨
     -- or the next node, if the comment does not follow on the previous one
     (next.head? = some n ∧ ∀ t e, prev.getLast? = some t → endOf t = some e →
        ¬ FollowsOn e rpos rend (next.head?.bind posOf))) ∧
    -- if the comment follows on a statement that is in no other one, it belongs to it
    ∀ front u behind e, prev = front ++ u :: behind → TopLevel posOf endOf front u behind → endOf u = some e →
      ¬ rpos.lt e → FollowsOn e rpos rend (next.head?.bind posOf) → n = u

/-- The map arises by attaching every group to one node, and that is a node that it belongs to. -/
def Attached (posOf endOf : Tree → Option Pos) (nodes : List Tree) (cs : List CommentGroup) (m : CommentMap) : Prop :=
  ∃ ns : List Tree, ns.length = cs.length ∧ (∀ x ∈ cs.zip ns, Belongs posOf endOf nodes x.1 x.2) ∧
    ∀ k, m k = attached k (ns.map Tree.id) cs

/-- Among the nodes, in the order of `Inspect`, there is one whose `Pos` panics, or whose `End` panics and that begins
before `last`, and all nodes before it begin before `last`. -/
def PanicNode (posOf endOf : Tree → Option Pos) (last : Pos) (nodes : List Tree) : Prop :=
  ∃ pre t post, nodes = pre ++ t :: post ∧ (∀ u ∈ pre, ∃ p, posOf u = some p ∧ p.lt last) ∧
    (posOf t = none ∨ endOf t = none ∧ ∃ p, posOf t = some p ∧ p.lt last)

end Verif
