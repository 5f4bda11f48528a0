import Verif.Spec.Walk
/-
The order of the nodes that `Inspect` passes to its function, compared with the order of the text.
-/
namespace Verif.Spec
open Verif

/-- The positions are those where tokens of the list begin, in the order of the list; several may belong to one token. -/
inductive InOrder : List Token → List Pos → Prop
  | nil (ts : List Token) : InOrder ts []
  | skip (t : Token) {ts : List Token} {ps : List Pos} : InOrder ts ps → InOrder (t :: ts) ps
  | here (t : Token) {ts : List Token} {ps : List Pos} : InOrder (t :: ts) ps → InOrder (t :: ts) (t.from_ :: ps)

/-- The positions that the nodes passed to the function return, in the order of the calls.  Positions that the parser
never set are left out, and so are nodes whose `Pos` panics. -/
def visitedPos (calls : List (Option Tree × Bool)) : List Pos :=
  ((calls.filterMap Prod.fst).filterMap Tree.pos?).filter (· != Pos.zero)

/-- The field holds a node. -/
def _root_.Verif.Tree.filled (t : Tree) (f : FName) : Bool :=
  t.fields.any fun x => match x with
    | .one g _ => g == f
    | .list g ts => g == f && !ts.isEmpty
    | .nil _ => false

/-- The nodes whose children (or their own position) are not in the order of the text. -/
def _root_.Verif.Tree.reordered (t : Tree) : Bool :=
  match t.kind with
  -- a query as an expression: `Pos` returns where the closing parenthesis ends (C45)
  | .SubQuery => true
  -- the name of a common table expression is visited after its query, the left side of CROSS JOIN after the right
  | .CTE | .CrossJoin => true
  -- the alias of a table function is visited before the arguments
  | .Table => t.filled .Alias && t.filled .Args
  -- the name of the table is visited before the name of the index
  | .CreateIndexStmt => t.filled .IndexName
  -- the default value is visited before the constraints, whichever was written first
  | .ColumnDef => t.filled .Default && t.filled .Constraints
  | _ => false

end Verif.Spec
