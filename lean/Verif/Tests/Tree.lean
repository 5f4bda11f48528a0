import Verif.Tests.Parser
import Verif.Tests.Print
import Verif.Props.Apply
import Verif.Props.CommentFile
/-
The cases of e2e/commentmap_test.go and sqlastutil/rewrite_test.go, and what is needed for those of e2e/e2e_test.go
and e2e/astutil_test.go, evaluated in the model.

These are tests of the model, not theorems about it: they show that on these inputs the model computes what the
authors of the code expect of the code.  Inputs and expected results are those of the test files, translated field by
field; a field that a Go literal leaves out has the zero value.
-/
namespace Verif.RepoTests

/-- astutil_test.go:74-81 and 146-153: `Inspect` with a function that always goes on returns, and so does `Apply` with
a callback that always goes on and a nil one (`n` is the budget of the model). -/
def visits (n : Nat) (t : Tree) : Bool :=
  (match inspect (fun _ (_ : Unit) => (true, ())) t () with
    | .ok _ => true
    | _ => false) &&
  (match applyRoot idle idle n 0 1 () t.heap with
    | .result _ _ => true
    | _ => false)

/-- e2e_test.go:65-112 parses the text of a file, prints the statement, parses and prints again and parses a third
time, and wants the last two trees to be equal, positions included.  Here: parse and print, and do what
astutil_test.go does with the tree.  If the text printed is printed as itself, the trees are equal. -/
def again (src : Str) : Option (Str × Bool) :=
  match statement src with
  | .ok s _ => some (text s, visits (2 * src.length + 20) (s.tree.number 1).1)
  | _ => none

/-! ### rewrite_test.go
The nodes are at addresses, the texts of the nodes are not in the heap; so instead of the printed statement, the
fields of the nodes concerned are compared. -/

/-- The statement in a heap, with another node at the address 100. -/
def heapOf (src : Str) (k : Kind) : Heap :=
  match statement src with
  | .ok s _ => fun a => if a = 100 then ⟨some k, false, k.fields.map fun f => .nil f.name⟩ else (s.tree.number 1).1.heap a
  | _ => fun _ => ⟨none, false, []⟩

/-- The given field of the nodes of the given type, among the first 40 addresses. -/
def fieldOf (k : Kind) (f : FName) (h : Heap) : List FieldRef :=
  (List.range 40).filterMap fun a => if (h a).kind = some k then h.field a f else none

/-- `Apply(ast, pre, nil)`; the given field afterwards. -/
def rewrite (pre : Callback Unit) (k : Kind) (f : FName) (h : Heap) : List FieldRef :=
  match applyRoot pre idle 200 0 1 () h with
  | .result _ w => fieldOf k f w.heap
  | _ => []

/-- A callback that edits at the nodes of the given type (at the given index, if any) and always goes on. -/
def atKind (k : Kind) (i : Option Int) (edit : Cursor → World Unit → Option (World Unit)) : Callback Unit := fun c w =>
  match c.node with
  | some a =>
    if (w.heap a).kind = some k ∧ (i = none ∨ i = some (c.idx w)) then
      match edit c w with
      | some w' => .ret true w'
      | none => .panic w
    else .ret true w
  | none => .ret true w

/-- sqlastutil/rewrite_test.go:23, "replace long value" -/
example : fieldOf .BinaryExpr .Right
    (heapOf (str% "SELECT * FROM table_a WHERE id = 1") .LongValue) = [.one .Right 11] ∧
    rewrite (atKind .LongValue none (fun c w => c.replace 100 w)) .BinaryExpr .Right
    (heapOf (str% "SELECT * FROM table_a WHERE id = 1") .LongValue) = [.one .Right 100] :=
  ⟨by decide +kernel, by decide +kernel⟩

/-- sqlastutil/rewrite_test.go:35, "remove select item" -/
example : fieldOf .SQLSelect .Projection
    (heapOf (str% "SELECT a, b, c FROM table_a") .UnnamedSelectItem) = [.list .Projection [3, 5, 7]] ∧
    rewrite (atKind .UnnamedSelectItem (some 2) (fun c w => c.delete w)) .SQLSelect .Projection
    (heapOf (str% "SELECT a, b, c FROM table_a") .UnnamedSelectItem) = [.list .Projection [3, 5]] :=
  ⟨by decide +kernel, by decide +kernel⟩

/-- sqlastutil/rewrite_test.go:49, "insert after" -/
example : fieldOf .SQLSelect .Projection
    (heapOf (str% "SELECT a, b FROM table_a") .UnnamedSelectItem) = [.list .Projection [3, 5]] ∧
    rewrite (atKind .UnnamedSelectItem (some 1) (fun c w => c.insertAfter 100 w)) .SQLSelect .Projection
    (heapOf (str% "SELECT a, b FROM table_a") .UnnamedSelectItem) = [.list .Projection [3, 5, 100]] :=
  ⟨by decide +kernel, by decide +kernel⟩

/-- sqlastutil/rewrite_test.go:65, "insert before" -/
example : fieldOf .SQLSelect .Projection
    (heapOf (str% "SELECT a, b FROM table_a") .UnnamedSelectItem) = [.list .Projection [3, 5]] ∧
    rewrite (atKind .UnnamedSelectItem (some 0) (fun c w => c.insertBefore 100 w)) .SQLSelect .Projection
    (heapOf (str% "SELECT a, b FROM table_a") .UnnamedSelectItem) = [.list .Projection [100, 3, 5]] :=
  ⟨by decide +kernel, by decide +kernel⟩

/-! ### commentmap_test.go -/

/-- The elements of the list in the given field. -/
def kids (f : FName) (t : Tree) : List Tree :=
  t.fields.flatMap fun x => match x with
    | .list g ts => if f = g then ts else []
    | _ => []

/-- `m[x]` for the statements `x` of the file. -/
def onStmts (src : Str) : Option (List (List CommentGroup)) :=
  (file src).bind fun f =>
    let t := (f.tree.number 1).1
    match newCommentMap Tree.pos? Tree.end? t f.comments with
    | .ret (some m) => some ((kids .Stmts t).map fun u => m u.id)
    | _ => none

/-- `m[x]` for the elements `x` of the tables of the file. -/
def onElements (src : Str) : Option (List (List CommentGroup)) :=
  (file src).bind fun f =>
    let t := (f.tree.number 1).1
    match newCommentMap Tree.pos? Tree.end? t f.comments with
    | .ret (some m) => some (((kids .Stmts t).flatMap (kids .Elements)).map fun u => m u.id)
    | _ => none

/-- e2e/commentmap_test.go:39 -/
example : onStmts
    (str% "\n--test\nSELECT * from test;\n") = some
    [[⟨[⟨(str% "test"), ⟨2, 1⟩, ⟨2, 7⟩⟩]⟩]] := by decide +kernel

/-- e2e/commentmap_test.go:60 -/
example : onStmts
    (str% "\n--select\nSELECT * from test;\n\n/*\ninsert\n*/\nINSERT INTO tbl_name (col1,col2) VALUES(15,col1*2);\n") = some
    [[⟨[⟨(str% "select"), ⟨2, 1⟩, ⟨2, 9⟩⟩]⟩], [⟨[⟨(str% "\ninsert\n"), ⟨5, 1⟩, ⟨7, 3⟩⟩]⟩]] := by decide +kernel

/-- e2e/commentmap_test.go:98 -/
example : onStmts
    (str% "\n/*associate with stmts1*/\nCREATE TABLE test (\n\t/*associate with columndef*/\n    col0 int primary key, --columndef\n\t/*with constraints*/\n    col1 integer constraint test_constraint check (10 < col1 and col1 < 100),\n    foreign key (col0, col1) references test2(col1, col2), --table constraints1\n\t--table constraints2\n    CONSTRAINT test_constraint check(col1 > 10)\n); --associate with stmts2\n") = some
    [[⟨[⟨(str% "associate with stmts1"), ⟨2, 1⟩, ⟨2, 26⟩⟩]⟩, ⟨[⟨(str% "associate with stmts2"), ⟨11, 4⟩, ⟨11,
      27⟩⟩]⟩]] := by decide +kernel

/-- e2e/commentmap_test.go:98 -/
example : onElements
    (str% "\n/*associate with stmts1*/\nCREATE TABLE test (\n\t/*associate with columndef*/\n    col0 int primary key, --columndef\n\t/*with constraints*/\n    col1 integer constraint test_constraint check (10 < col1 and col1 < 100),\n    foreign key (col0, col1) references test2(col1, col2), --table constraints1\n\t--table constraints2\n    CONSTRAINT test_constraint check(col1 > 10)\n); --associate with stmts2\n") = some
    [[⟨[⟨(str% "associate with columndef"), ⟨4, 5⟩, ⟨4, 33⟩⟩]⟩, ⟨[⟨(str% "columndef"), ⟨5, 27⟩, ⟨5, 38⟩⟩]⟩],
      [⟨[⟨(str% "with constraints"), ⟨6, 5⟩, ⟨6, 25⟩⟩]⟩], [⟨[⟨(str% "table constraints1"), ⟨8, 60⟩, ⟨8, 80⟩⟩]⟩],
      [⟨[⟨(str% "table constraints2"), ⟨9, 5⟩, ⟨9, 25⟩⟩]⟩]] := by decide +kernel

end Verif.RepoTests
