/-
sqlastutil/rewrite.go: `Apply` and the cursor.

`Apply` changes the tree while it walks over it, so nodes live in a heap: an address is a Go pointer to a struct of
package sqlast, an object is the struct.  Only the node-valued fields (and `LimitExpr.All`) are kept.  Callbacks are
arbitrary functions of the cursor and the world that return or panic; they may change the heap in any way.

Not modelled: nil elements in slices, nil arguments of Replace and Insert*, and slices that share their backing
array (`reflect.Append` and `reflect.Copy` write to the array, here they change only the one field).
-/
import Verif.Model.Kinds

namespace Verif

/-- A field of an object: nil, a pointer, or a slice of pointers. -/
inductive FieldRef where
  | nil (f : FName)
  | one (f : FName) (a : Nat)
  | list (f : FName) (as : List Nat)
  deriving DecidableEq, Repr

def FieldRef.name : FieldRef → FName
  | .nil f => f
  | .one f _ => f
  | .list f _ => f

/-- A struct.  `kind = none` is the anonymous struct of `Apply` (rewrite.go:15-17) with its one field `Node`. -/
structure Obj where
  kind : Option Kind
  all : Bool
  fields : List FieldRef
  deriving DecidableEq, Repr

/-- The declared fields. -/
def Obj.decl (o : Obj) : List Field :=
  match o.kind with
  | some k => k.fields
  | none => [⟨.Node, false, .iface .Node⟩]

abbrev Heap := Nat → Obj

def Heap.set (h : Heap) (a : Nat) (o : Obj) : Heap := fun b => if b = a then o else h b

/-- What callbacks see and change: their own state, the heap, and the iterator that all list cursors share
(rewrite.go:102-110). -/
structure World (σ : Type) where
  user : σ
  heap : Heap
  index : Int
  step : Int

/-- rewrite.go:30-35, `Cursor`; `inList` says that `iter` is not nil (it always points to the shared iterator). -/
structure Cursor where
  parent : Nat
  name : FName
  inList : Bool
  node : Option Nat
  deriving DecidableEq, Repr

/-- rewrite.go:43-48, `Cursor.Index`. -/
def Cursor.idx {σ : Type} (c : Cursor) (w : World σ) : Int := if c.inList then w.index else -1

/-- rewrite.go:50-52, `Cursor.field`: `FieldByName`; `none` if the struct has no such field. -/
def Heap.field (h : Heap) (a : Nat) (f : FName) : Option FieldRef :=
  (h a).fields.find? (fun x => x.name == f)

/-- Store a field. -/
def Heap.setField (h : Heap) (a : Nat) (x : FieldRef) : Heap :=
  h.set a { h a with fields := (h a).fields.map fun y => if y.name == x.name then x else y }

/-- May a pointer to `n` be stored in (an element of) the field?  `reflect.Value.Set` panics otherwise. -/
def Heap.assignable (h : Heap) (a : Nat) (f : FName) (n : Nat) : Bool :=
  match (h a).decl.find? (fun d => d.name == f), (h n).kind with
  | some d, some k => d.type.accepts k
  | _, _ => false

/-- rewrite.go:54-60, `Cursor.Replace`; `none` is a panic (here and below).  What an insertion that panics has
done to the list before (it is longer by one element) is in Model/Slices.lean only. -/
def Cursor.replace {σ : Type} (c : Cursor) (n : Nat) (w : World σ) : Option (World σ) :=
  match w.heap.field c.parent c.name with
  | none => none
  | some x =>
    if w.heap.assignable c.parent c.name n then
      if c.idx w ≥ 0 then
        match x with
        | .list f as =>
          if (c.idx w).toNat < as.length then
            some { w with heap := w.heap.setField c.parent (.list f (as.set (c.idx w).toNat n)) }
          else none
        | _ => none
      else
        match x with
        | .list .. => none
        | x => some { w with heap := w.heap.setField c.parent (.one x.name n) }
    else none

/-- rewrite.go:62-74, `Cursor.Delete`. -/
def Cursor.delete {σ : Type} (c : Cursor) (w : World σ) : Option (World σ) :=
  if c.idx w < 0 then none
  else match w.heap.field c.parent c.name with
    | some (.list f as) =>
      if (c.idx w).toNat < as.length then
        some { w with heap := w.heap.setField c.parent (.list f (as.eraseIdx (c.idx w).toNat)),
                      step := w.step - 1 }
      else none
    | _ => none

/-- rewrite.go:76-87, `Cursor.InsertAfter`: at position `index + 1`, right after the current node. -/
def Cursor.insertAfter {σ : Type} (c : Cursor) (n : Nat) (w : World σ) : Option (World σ) :=
  if c.idx w < 0 then none
  else match w.heap.field c.parent c.name with
    | some (.list f as) =>
      if (c.idx w).toNat < as.length ∧ w.heap.assignable c.parent c.name n then
        some { w with heap := w.heap.setField c.parent (.list f (as.insertIdx ((c.idx w).toNat + 1) n)),
                      step := w.step + 1 }
      else none
    | _ => none

/-- rewrite.go:89-100, `Cursor.InsertBefore`: at position `index`, which then moves on with the current node. -/
def Cursor.insertBefore {σ : Type} (c : Cursor) (n : Nat) (w : World σ) : Option (World σ) :=
  if c.idx w < 0 then none
  else match w.heap.field c.parent c.name with
    | some (.list f as) =>
      if (c.idx w).toNat ≤ as.length ∧ w.heap.assignable c.parent c.name n then
        some { w with heap := w.heap.setField c.parent (.list f (as.insertIdx (c.idx w).toNat n)),
                      index := w.index + 1 }
      else none
    | _ => none

/-- How a callback ends. -/
inductive CbOut (σ : Type) where
  | ret (b : Bool) (w : World σ)
  | panic (w : World σ)

/-- rewrite.go:10, `ApplyFunc`.  A nil callback is one that returns true and does nothing. -/
abbrev Callback (σ : Type) := Cursor → World σ → CbOut σ

/-- How `apply` ends: it returns, panics with `abort`, panics otherwise, or the budget of the model is used up. -/
inductive AOut (σ : Type) where
  | ok (w : World σ)
  | abort (w : World σ)
  | panic (w : World σ)
  | oof (w : World σ)

def AOut.bind {σ : Type} (x : AOut σ) (f : World σ → AOut σ) : AOut σ :=
  match x with
  | .ok w => f w
  | .abort w => .abort w
  | .panic w => .panic w
  | .oof w => .oof w

/-- One statement of a case of `apply`; the string passed as name and the field read differ in some cases. -/
inductive AStep where
  /-- `a.apply(n, "Name", nil, n.F)` -/
  | one (name f : FName)
  /-- `if n.F != nil { a.apply(n, "Name", nil, n.F) }` -/
  | opt (name f : FName)
  /-- `a.applyList(n, "F")` -/
  | list (f : FName)
  /-- `if !n.All { a.apply(n, "Name", nil, n.F) }` -/
  | unlessAll (name f : FName)
  deriving DecidableEq, Repr

/-- The cases of the type switch of `apply`, rewrite.go:128-451; the lines of each case are given. -/
def Kind.apply : Kind → Option (List AStep)
  /- 129-130 -/
  | .File => some [.list .Stmts]
  /- 131 -/
  | .Ident => some []
  /- 133 -/
  | .Wildcard => some []
  /- 135-136 -/
  | .QualifiedWildcard => some [.list .Idents]
  /- 137-138 -/
  | .CompoundIdent => some [.list .Idents]
  /- 139-140 -/
  | .IsNull => some [.one .X .X]
  /- 141-142 -/
  | .IsNotNull => some [.one .X .X]
  /- 143-145 -/
  | .InList => some [.one .Expr .Expr, .list .List]
  /- 146-148 -/
  | .InSubQuery => some [.one .Expr .Expr, .one .SubQuery .SubQuery]
  /- 149-152 -/
  | .Between => some [.one .Expr .Expr, .one .Low .Low, .one .High .High]
  /- 153-156 -/
  | .BinaryExpr => some [.one .Left .Left, .one .Op .Op, .one .Right .Right]
  /- 157-159 -/
  | .Cast => some [.one .Expr .Expr, .one .DataType .DataType]
  /- 160-161 -/
  | .Nested => some [.one .AST .AST]
  /- 162-164 -/
  | .UnaryExpr => some [.one .Op .Op, .one .Expr .Expr]
  /- 165-169 -/
  | .Function => some [.one .Name .Name, .list .Args, .opt .Over .Over]
  /- 171-172 -/
  | .CaseExpr => some [.one .Operand .Operand]
  /- 173-174 -/
  | .Exists => some [.one .QueryStmt .Query]
  /- 175-176 -/
  | .SubQuery => some [.one .QueryStmt .Query]
  /- 177-178 -/
  | .ObjectName => some [.list .Idents]
  /- 179-183 -/
  | .WindowSpec => some [.list .PartitionBy, .list .OrderBy, .opt .WindowsFrame .WindowsFrame]
  /- 185-189 -/
  | .WindowFrame => some [.one .Units .Units, .one .StartBound .StartBound, .opt .EndBound .EndBound]
  /- 191-196 -/
  | .WindowFrameUnit => some []
  /- 191-196 -/
  | .CurrentRow => some []
  /- 191-196 -/
  | .UnboundedPreceding => some []
  /- 191-196 -/
  | .UnboundedFollowing => some []
  /- 191-196 -/
  | .Preceding => some []
  /- 191-196 -/
  | .Following => some []
  /- 436 -/
  | .Operator => some []
  /- 198-203 -/
  | .QueryStmt => some [.list .CTEs, .one .Body .Body, .list .OrderBy, .opt .Limit .Limit]
  /- 205-207 -/
  | .CTE => some [.one .QueryStmt .Query, .one .Alias .Alias]
  /- 208-209 -/
  | .SelectExpr => some [.one .Select .Select]
  /- 210-211 -/
  | .QueryExpr => some [.one .QueryStmt .Query]
  /- 212-215 -/
  | .SetOperationExpr => some [.one .Op .Op, .one .Left .Left, .one .Right .Right]
  /- 216 -/
  | .UnionOperator => some []
  /- 218 -/
  | .ExceptOperator => some []
  /- 220 -/
  | .IntersectOperator => some []
  /- 222-230 -/
  | .SQLSelect => some [.list .Projection, .list .FromClause, .opt .WhereClause .WhereClause, .list .GroupByClause, .opt .HavingClause .HavingClause]
  /- 250-256 -/
  | .Table => some [.one .Name .Name, .opt .Alias .Alias, .list .Args, .list .WithHints]
  /- 257-260 -/
  | .Derived => some [.one .SubQuery .SubQuery, .opt .Alias .Alias]
  /- 262-263 -/
  | .UnnamedSelectItem => some [.one .Node .Node]
  /- 264-266 -/
  | .AliasSelectItem => some [.one .Expr .Expr, .one .Alias .Alias]
  /- 267-268 -/
  | .QualifiedWildcardSelectItem => some [.one .Prefix .Prefix]
  /- 269 -/
  | .WildcardSelectItem => some []
  /- 247-249 -/
  | .CrossJoin => some [.one .Factor .Factor, .one .Reference .Reference]
  /- 237-238 -/
  | .TableJoinElement => some [.one .Ref .Ref]
  /- 232-236 -/
  | .QualifiedJoin => some [.one .LeftElement .LeftElement, .one .Type_ .Type_, .one .RightElement .RightElement, .one .Spec .Spec]
  /- 243-246 -/
  | .NaturalJoin => some [.one .LeftElement .LeftElement, .one .Type_ .Type_, .one .RightElement .RightElement]
  /- 241-242 -/
  | .JoinCondition => some [.one .SearchCondition .SearchCondition]
  /- 239 -/
  | .JoinType => some []
  /- 271-272 -/
  | .OrderByExpr => some [.one .Expr .Expr]
  /- 273-278 -/
  | .LimitExpr => some [.unlessAll .LimitValue .LimitValue, .opt .OffsetValue .OffsetValue]
  /- 326-330 -/
  | .InsertStmt => some [.one .TableName .TableName, .list .Columns, .one .Source .Source, .list .UpdateAssignments]
  /- 335-336 -/
  | .SubQuerySource => some [.one .SubQuery .SubQuery]
  /- 331-332 -/
  | .ConstructorSource => some [.list .Rows]
  /- 333-334 -/
  | .RowValueExpr => some [.list .Values]
  /- 337-339 -/
  | .CopyStmt => some [.one .TableName .TableName, .list .Columns]
  /- 340-343 -/
  | .UpdateStmt => some [.one .TableName .TableName, .list .Assignments, .one .Selection .Selection]
  /- 344-347 -/
  | .DeleteStmt => some [.one .TableName .TableName, .opt .Selection .Selection]
  /- 349-351 -/
  | .CreateViewStmt => some [.one .Name .Name, .one .QueryStmt .Query]
  /- 352-354 -/
  | .CreateTableStmt => some [.one .Name .Name, .list .Elements]
  /- 355-357 -/
  | .Assignment => some [.one .ID .ID, .one .Value .Value]
  /- 358-362 -/
  | .TableConstraint => some [.opt .Name .Name, .one .Spec .Spec]
  /- 363-364 -/
  | .UniqueTableConstraint => some [.list .Columns]
  /- 365-367 -/
  | .ReferentialTableConstraint => some [.list .Columns, .one .KeyExpr .KeyExpr]
  /- 368-370 -/
  | .ReferenceKeyExpr => some [.one .TableName .TableName, .list .Columns]
  /- 371-372 -/
  | .CheckTableConstraint => some [.one .Expr .Expr]
  /- 373-379 -/
  | .ColumnDef => some [.one .Name .Name, .one .DataType .DataType, .opt .Default .Default, .list .Constraints]
  /- 380-384 -/
  | .ColumnConstraint => some [.opt .Name .Name, .one .Spec .Spec]
  /- 385 -/
  | .NotNullColumnSpec => some []
  /- 387 -/
  | .UniqueColumnSpec => some []
  /- 389-391 -/
  | .ReferencesColumnSpec => some [.one .TableName .TableName, .list .Columns]
  /- 392-393 -/
  | .CheckColumnSpec => some [.one .Expr .Expr]
  /- 394-396 -/
  | .AlterTableStmt => some [.one .TableName .TableName, .one .Action .Action]
  /- 397-398 -/
  | .AddColumnTableAction => some [.one .Column .Column]
  /- 399-401 -/
  | .AlterColumnTableAction => some [.one .ColumnName .ColumnName, .one .Action .Action]
  /- 402-403 -/
  | .SetDefaultColumnAction => some [.one .Default .Default]
  /- 404 -/
  | .DropDefaultColumnAction => some []
  /- 406-407 -/
  | .PGAlterDataTypeColumnAction => some [.one .DataType .DataType]
  /- 408 -/
  | .PGSetNotNullColumnAction => some []
  /- 410 -/
  | .PGDropNotNullColumnAction => some []
  /- 412-413 -/
  | .RemoveColumnTableAction => some [.one .Name .Name]
  /- 414-415 -/
  | .AddConstraintTableAction => some [.one .Constraint .Constraint]
  /- 416-417 -/
  | .DropConstraintTableAction => some [.one .Name .Name]
  /- 418-419 -/
  | .DropTableStmt => some [.list .TableNames]
  /- 420-430 -/
  | .CreateIndexStmt => some [.one .TableName .TableName, .opt .IndexName .IndexName, .opt .MethodName .MethodName, .list .ColumnNames, .opt .Selection .Selection]
  /- 432-433 -/
  | .DropIndexStmt => some [.list .IndexNames]
  /- 434-435 -/
  | .ExplainStmt => some [.one .Stmt .Stmt]
  /- 280 -/
  | .CharType => some []
  /- 282 -/
  | .VarcharType => some []
  /- 284 -/
  | .UUID => some []
  /- 286 -/
  | .Clob => some []
  /- 288 -/
  | .Binary => some []
  /- 290 -/
  | .Varbinary => some []
  /- 292 -/
  | .Blob => some []
  /- 294 -/
  | .Decimal => some []
  /- 296 -/
  | .Float => some []
  /- 298 -/
  | .SmallInt => some []
  /- 300 -/
  | .Int => some []
  /- 302 -/
  | .BigInt => some []
  /- 304 -/
  | .Real => some []
  /- 306 -/
  | .Double => some []
  /- 308 -/
  | .Boolean => some []
  /- 310 -/
  | .Date => some []
  /- 312 -/
  | .Time => some []
  /- 314 -/
  | .Timestamp => some []
  /- 316 -/
  | .Regclass => some []
  /- 318 -/
  | .Text => some []
  /- 320 -/
  | .Bytea => some []
  /- 322 -/
  | .Array => some []
  /- 324 -/
  | .Custom => some []
  /- 438-447 -/
  | .LongValue => some []
  /- 438-447 -/
  | .DoubleValue => some []
  /- 438-447 -/
  | .SingleQuotedString => some []
  /- 438-447 -/
  | .NationalStringLiteral => some []
  /- 438-447 -/
  | .BooleanValue => some []
  /- 438-447 -/
  | .DateValue => some []
  /- 438-447 -/
  | .TimeValue => some []
  /- 438-447 -/
  | .DateTimeValue => some []
  /- 438-447 -/
  | .TimestampValue => some []
  /- 438-447 -/
  | .NullValue => some []
  | _ => none

/-- The pointer in a single-valued field. -/
def Heap.ptr (h : Heap) (a : Nat) (f : FName) : Option Nat :=
  match h.field a f with
  | some (.one _ b) => some b
  | _ => none

/-- The loop of rewrite.go:462-476; `ap` is `a.apply(parent, name, &a.iter, x)`. -/
def listLoop {σ : Type} (ap : Option Nat → World σ → AOut σ) (p : Nat) (f : FName) : Nat → World σ → AOut σ
  | 0, w => .oof w
  | n + 1, w =>
    match w.heap.field p f with
    | some (.list _ as) =>
      if w.index ≥ as.length then .ok w
      else if w.index < 0 then .panic w
      else (ap as[w.index.toNat]? { w with step := 1 }).bind fun w =>
        listLoop ap p f n { w with index := w.index + w.step }
    | _ => .panic w

/-- rewrite.go:459-478, `applyList`. -/
def applyList {σ : Type} (ap : Option Nat → World σ → AOut σ) (p : Nat) (f : FName) (n : Nat) (w : World σ) :
    AOut σ :=
  (listLoop ap p f n { w with index := 0 }).bind fun w' => .ok { w' with index := w.index, step := w.step }

/-- One statement of a case. -/
def applyStep {σ : Type} (ap : FName → Bool → Option Nat → World σ → AOut σ) (a : Nat) (n : Nat) (s : AStep)
    (w : World σ) : AOut σ :=
  match s with
  | .one name f => ap name false (w.heap.ptr a f) w
  | .opt name f => match w.heap.ptr a f with
    | some b => ap name false (some b) w
    | none => .ok w
  | .list f => applyList (ap f true) a f n w
  | .unlessAll name f => if (w.heap a).all then .ok w else ap name false (w.heap.ptr a f) w

/-- The statements of a case. -/
def applySteps {σ : Type} (ap : FName → Bool → Option Nat → World σ → AOut σ) (a : Nat) (n : Nat) :
    List AStep → World σ → AOut σ
  | [], w => .ok w
  | s :: ss, w => (applyStep ap a n s w).bind (applySteps ap a n ss)

/-- rewrite.go:112-457, `apply`, with a budget.  `a.cursor` is saved on entry and restored on every return, so each
callback for a node gets the cursor of that node; it is passed as a value here. -/
def apply {σ : Type} (pre post : Callback σ) : Nat → Cursor → World σ → AOut σ
  | 0, _, w => .oof w
  | n + 1, c, w =>
    match pre c w with
    | .panic w => .panic w
    | .ret false w => .ok w
    | .ret true w =>
      match c.node with
      | none => .panic w
      | some a =>
        match (w.heap a).kind.bind Kind.apply with
        | none => .panic w
        | some steps =>
          (applySteps (fun name l b => apply pre post n ⟨a, name, l, b⟩) a n steps w).bind fun w =>
            match post c w with
            | .panic w => .panic w
            | .ret false w => .abort w
            | .ret true w => .ok w

/-- How `Apply` ends: with a result, with a panic, or (in the model) out of budget. -/
inductive ApplyResult (σ : Type) where
  | result (root : Option Nat) (w : World σ)
  | panic (w : World σ)
  | oof (w : World σ)

/-- rewrite.go:14-28, `Apply`; `r` is the address of the anonymous struct.  `recover` turns `abort` into a normal
return; the result is what the struct's field holds at the end. -/
def applyRoot {σ : Type} (pre post : Callback σ) (n : Nat) (r root : Nat) (u : σ) (h : Heap) : ApplyResult σ :=
  match apply pre post n ⟨r, .Node, false, some root⟩
      ⟨u, h.set r ⟨none, false, [.one .Node root]⟩, 0, 0⟩ with
  | .ok w => .result (w.heap.ptr r .Node) w
  | .abort w => .result (w.heap.ptr r .Node) w
  | .panic w => .panic w
  | .oof w => .oof w

end Verif
