/-
sqlast/commentmap.go: `NewCommentMap`.

The methods `Pos` and `End` of the nodes are parameters: functions that give a position, or `none` where the method
panics.  For a parsed file they are `Tree.pos?` and `Tree.end?` (see `Verif/Model/Embed.lean`).  Map keys are interface values holding pointers, so a key is the identity of a node.
-/
import Verif.Model.Walk
import Verif.Model.NodePos

namespace Verif

/-- commentmap.go:9, `CommentMap`; a missing key is an empty list. -/
abbrev CommentMap := Nat → List CommentGroup

/-- commentmap.go:11-21, `addComment`. -/
def CommentMap.addComment (m : CommentMap) (n : Nat) (c : CommentGroup) : CommentMap :=
  fun k => if k = n then m n ++ [c] else m k

/-- The function literal of commentmap.go:26-34. -/
def collectNode (n : Option Tree) (l : List Tree) : Bool × List Tree :=
  match n with
  | none => (false, l)
  | some t => (true, l ++ [t])

/-- commentmap.go:23-36, `nodeList`; `none` if `Inspect` panics. -/
def nodeList (file : Tree) : Option (List Tree) :=
  match inspect collectNode file [] with
  | .ok l => some l
  | .panic _ => none

/-- commentmap.go:65-75, `pop`; the top of the stack is the head of the list.  The result is the node removed last
and the rest of the stack; `none` if an `End` panics. -/
def popNodes (endOf : Tree → Option Pos) (pos : Pos) : List Tree → Option Tree → Option (Option Tree × List Tree)
  | [], top => some (top, [])
  | t :: ts, top =>
    match endOf t with
    | none => none
    | some e => if comparePos e pos ≠ 1 then popNodes endOf pos ts (some t) else some (top, t :: ts)

/-- commentmap.go:115-131: the node that a comment group is attached to; `none` is `log.Panic`. -/
def assocNode (pg : Option Tree) (pgend : Pos) (p : Option Tree) (pend : Pos) (q : Option Tree) (qpos rpos rend : Pos) :
    Option Tree :=
  if pg.isSome ∧ (pgend.line = rpos.line ∨ pgend.line + 1 = rpos.line ∧ rend.line + 1 < qpos.line) then pg
  else if p.isSome ∧ (pend.line = rpos.line ∨ pend.line + 1 = rpos.line ∧ rend.line + 1 < qpos.line ∨ q.isNone) then p
  else q

/-- commentmap.go:82-98: the variables of the loop. -/
structure CMState where
  map : CommentMap
  pg : Option Tree
  pgend : Pos
  stack : List Tree

/-- How the inner loop ends: the function returns, the loop ends with these groups left, or a panic. -/
inductive CMLoop where
  | ret (m : CommentMap)
  | next (rest : List CommentGroup) (s : CMState)
  | panic

/-- commentmap.go:110-113. -/
def popGroup (endOf : Tree → Option Pos) (pos : Pos) (s : CMState) : Option CMState :=
  match popNodes endOf pos s.stack none with
  | none => none
  | some (none, st) => some { s with stack := st }
  | some (some t, st) => (endOf t).map fun e => { s with stack := st, pg := some t, pgend := e }

/-- commentmap.go:109-138, the inner loop; the head of the list is `r.comment`. -/
def cmInner (endOf : Tree → Option Pos) (q : Option Tree) (qpos : Pos) (p : Option Tree) (pend : Pos) :
    List CommentGroup → CMState → CMLoop
  | [], s => .ret s.map
  | c :: cs, s =>
    match c.pos?, c.end? with
    | some rpos, some rend =>
      if comparePos qpos rend ≠ -1 then
        match popGroup endOf rpos s with
        | none => .panic
        | some s =>
          match assocNode s.pg s.pgend p pend q qpos rpos rend with
          | none => .panic
          | some n => cmInner endOf q qpos p pend cs { s with map := s.map.addComment n.id c }
      else .next (c :: cs) s
    | _, _ => .panic

/-- commentmap.go:143-150: the node types that are pushed. -/
def pushedKinds : List Kind :=
  [.QueryStmt, .InsertStmt, .UpdateStmt, .DeleteStmt, .CreateViewStmt, .CreateTableStmt, .AlterTableStmt,
    .DropTableStmt, .CreateIndexStmt, .DropIndexStmt, .ExplainStmt, .ColumnDef, .TableConstraint]

/-- commentmap.go:60-63, `push`. -/
def pushNode (posOf endOf : Tree → Option Pos) (t : Tree) (s : CMState) : Option CMState :=
  if pushedKinds.contains t.kind then
    (posOf t).bind fun p => (popNodes endOf p s.stack none).map fun r => { s with stack := t :: r.2 }
  else some s

/-- How `NewCommentMap` ends. -/
inductive CMOut where
  /-- a map; `none` is the nil map -/
  | ret (m : Option CommentMap)
  | panic

/-- commentmap.go:105. -/
def infinityPos : Pos := ⟨1073741824, 1073741824⟩

/-- commentmap.go:102-107. -/
def nodePos (posOf : Tree → Option Pos) : Option Tree → Option Pos
  | some t => posOf t
  | none => some infinityPos

/-- commentmap.go:100-153, the outer loop. -/
def cmOuter (posOf endOf : Tree → Option Pos) :
    List (Option Tree) → List CommentGroup → CMState → Option Tree → Pos → CMOut
  | [], _, s, _, _ => .ret (some s.map)
  | q :: qs, cs, s, p, pend =>
    match nodePos posOf q with
    | none => .panic
    | some qpos =>
      match cmInner endOf q qpos p pend cs s with
      | .panic => .panic
      | .ret m => .ret (some m)
      | .next cs s =>
        match q with
        | none => .panic
        | some t =>
          match endOf t, pushNode posOf endOf t s with
          | some e, some s => cmOuter posOf endOf qs cs s (some t) e
          | _, _ => .panic

/-- commentmap.go:77-154, `NewCommentMap`. -/
def newCommentMap (posOf endOf : Tree → Option Pos) (file : Tree) (comments : List CommentGroup) : CMOut :=
  if comments = [] then .ret none
  else match nodeList file with
    | none => .panic
    | some nodes => cmOuter posOf endOf (nodes.map some ++ [none]) comments ⟨fun _ => [], none, Pos.zero, []⟩ none Pos.zero

end Verif
