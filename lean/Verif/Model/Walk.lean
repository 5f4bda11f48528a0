/-
sqlast/walk.go: `Walk` and `Inspect`.

A node is modelled as a `Tree`: its struct type, a reference, the flag `All` (only `LimitExpr` has it, and `Walk`
looks at it) and its node-valued fields.  The reference is the identity of the node (standing for the pointer) with
the results of its methods `Pos` and `End`, which are only used by `NewCommentMap`.  The `switch` of `Walk` is the table `Kind.walk`; `none` stands for the
`default:` branch, which panics.
-/
import Verif.Model.Kinds
import Verif.Model.Token

namespace Verif

/-- A pointer to a node, and what its methods `Pos` and `End` return; `none` if they panic. -/
structure NodeRef where
  addr : Nat
  pos : Option Pos := none
  end_ : Option Pos := none

instance (n : Nat) : OfNat NodeRef n := ⟨⟨n, none, none⟩⟩
instance : Coe Nat NodeRef := ⟨fun n => ⟨n, none, none⟩⟩

mutual
/-- A node of package sqlast: struct type, reference, `LimitExpr.All`, fields. -/
inductive Tree where
  | mk (kind : Kind) (ref : NodeRef) (all : Bool) (fields : List FieldVal)
/-- The value of a field that holds nodes: nil, one node, or a slice. -/
inductive FieldVal where
  | nil (f : FName)
  | one (f : FName) (t : Tree)
  | list (f : FName) (ts : List Tree)
end

instance : Inhabited Tree := ⟨.mk .Wildcard 0 false []⟩

def Tree.kind : Tree → Kind
  | .mk k _ _ _ => k
def Tree.ref : Tree → NodeRef
  | .mk _ r _ _ => r
def Tree.id : Tree → Nat
  | .mk _ r _ _ => r.addr
def Tree.pos? : Tree → Option Pos
  | .mk _ r _ _ => r.pos
def Tree.end? : Tree → Option Pos
  | .mk _ r _ _ => r.end_
def Tree.all : Tree → Bool
  | .mk _ _ a _ => a
def Tree.fields : Tree → List FieldVal
  | .mk _ _ _ fs => fs

def FieldVal.name : FieldVal → FName
  | .nil f => f
  | .one f _ => f
  | .list f _ => f

/-- One statement of a case of `Walk`. -/
inductive WStep where
  /-- `Walk(v, n.F)` -/
  | one (f : FName)
  /-- `if n.F != nil { Walk(v, n.F) }` -/
  | opt (f : FName)
  /-- `for _, x := range n.F { Walk(v, x) }`, `walkIdentLists(v, n.F)`, `walkASTNodeLists(v, n.F)` -/
  | list (f : FName)
  /-- `if !n.All { Walk(v, n.F) }` -/
  | unlessAll (f : FName)
  deriving DecidableEq, Repr

/-- The cases of the type switch of `Walk`, sqlast/walk.go:28-388; the lines of each case are given. -/
def Kind.walk : Kind → Option (List WStep)
  /- 29-31 -/
  | .File => some [.list .Stmts]
  /- 33 -/
  | .Ident => some []
  /- 35 -/
  | .Wildcard => some []
  /- 37-38 -/
  | .QualifiedWildcard => some [.list .Idents]
  /- 39-40 -/
  | .CompoundIdent => some [.list .Idents]
  /- 41-42 -/
  | .IsNull => some [.one .X]
  /- 43-44 -/
  | .IsNotNull => some [.one .X]
  /- 45-47 -/
  | .InList => some [.one .Expr, .list .List]
  /- 48-50 -/
  | .InSubQuery => some [.one .Expr, .one .SubQuery]
  /- 51-54 -/
  | .Between => some [.one .Expr, .one .Low, .one .High]
  /- 55-58 -/
  | .BinaryExpr => some [.one .Left, .one .Op, .one .Right]
  /- 59-61 -/
  | .Cast => some [.one .Expr, .one .DataType]
  /- 62-63 -/
  | .Nested => some [.one .AST]
  /- 64-66 -/
  | .UnaryExpr => some [.one .Op, .one .Expr]
  /- 67-71 -/
  | .Function => some [.one .Name, .list .Args, .opt .Over]
  /- 73-74 -/
  | .CaseExpr => some [.one .Operand]
  /- 75-76 -/
  | .Exists => some [.one .Query]
  /- 77-78 -/
  | .SubQuery => some [.one .Query]
  /- 79-80 -/
  | .ObjectName => some [.list .Idents]
  /- 81-87 -/
  | .WindowSpec => some [.list .PartitionBy, .list .OrderBy, .opt .WindowsFrame]
  /- 89-93 -/
  | .WindowFrame => some [.one .Units, .one .StartBound, .opt .EndBound]
  /- 95 -/
  | .WindowFrameUnit => some []
  /- 97 -/
  | .CurrentRow => some []
  /- 99 -/
  | .UnboundedPreceding => some []
  /- 101 -/
  | .UnboundedFollowing => some []
  /- 103 -/
  | .Preceding => some []
  /- 105 -/
  | .Following => some []
  /- 373 -/
  | .Operator => some []
  /- 107-116 -/
  | .QueryStmt => some [.list .CTEs, .one .Body, .list .OrderBy, .opt .Limit]
  /- 118-120 -/
  | .CTE => some [.one .Query, .one .Alias]
  /- 121-122 -/
  | .SelectExpr => some [.one .Select]
  /- 123-124 -/
  | .QueryExpr => some [.one .Query]
  /- 125-128 -/
  | .SetOperationExpr => some [.one .Op, .one .Left, .one .Right]
  /- 129 -/
  | .UnionOperator => some []
  /- 131 -/
  | .ExceptOperator => some []
  /- 133 -/
  | .IntersectOperator => some []
  /- 135-149 -/
  | .SQLSelect => some [.list .Projection, .list .FromClause, .opt .WhereClause, .list .GroupByClause, .opt .HavingClause]
  /- 171-177 -/
  | .Table => some [.one .Name, .opt .Alias, .list .Args, .list .WithHints]
  /- 178-181 -/
  | .Derived => some [.one .SubQuery, .opt .Alias]
  /- 183-184 -/
  | .UnnamedSelectItem => some [.one .Node]
  /- 185-187 -/
  | .AliasSelectItem => some [.one .Expr, .one .Alias]
  /- 188-189 -/
  | .QualifiedWildcardSelectItem => some [.one .Prefix]
  /- 190 -/
  | .WildcardSelectItem => some []
  /- 168-170 -/
  | .CrossJoin => some [.one .Factor, .one .Reference]
  /- 156-157 -/
  | .TableJoinElement => some [.one .Ref]
  /- 151-155 -/
  | .QualifiedJoin => some [.one .LeftElement, .one .Type_, .one .RightElement, .one .Spec]
  /- 164-167 -/
  | .NaturalJoin => some [.one .LeftElement, .one .Type_, .one .RightElement]
  /- 160 -/
  | .NamedColumnsJoin => some []
  /- 162-163 -/
  | .JoinCondition => some [.one .SearchCondition]
  /- 158 -/
  | .JoinType => some []
  /- 192-193 -/
  | .OrderByExpr => some [.one .Expr]
  /- 194-199 -/
  | .LimitExpr => some [.unlessAll .LimitValue, .opt .OffsetValue]
  /- 247-253 -/
  | .InsertStmt => some [.one .TableName, .list .Columns, .one .Source, .list .UpdateAssignments]
  /- 264-265 -/
  | .SubQuerySource => some [.one .SubQuery]
  /- 256-258 -/
  | .ConstructorSource => some [.list .Rows]
  /- 260-262 -/
  | .RowValueExpr => some [.list .Values]
  /- 266-268 -/
  | .CopyStmt => some [.one .TableName, .list .Columns]
  /- 269-274 -/
  | .UpdateStmt => some [.one .TableName, .list .Assignments, .one .Selection]
  /- 275-278 -/
  | .DeleteStmt => some [.one .TableName, .opt .Selection]
  /- 280-282 -/
  | .CreateViewStmt => some [.one .Name, .one .Query]
  /- 283-286 -/
  | .CreateTableStmt => some [.one .Name, .list .Elements]
  /- 288-290 -/
  | .Assignment => some [.one .ID, .one .Value]
  /- 291-295 -/
  | .TableConstraint => some [.opt .Name, .one .Spec]
  /- 296-297 -/
  | .UniqueTableConstraint => some [.list .Columns]
  /- 298-300 -/
  | .ReferentialTableConstraint => some [.list .Columns, .one .KeyExpr]
  /- 301-303 -/
  | .ReferenceKeyExpr => some [.one .TableName, .list .Columns]
  /- 304-305 -/
  | .CheckTableConstraint => some [.one .Expr]
  /- 306-313 -/
  | .ColumnDef => some [.one .Name, .one .DataType, .opt .Default, .list .Constraints]
  /- 315-319 -/
  | .ColumnConstraint => some [.opt .Name, .one .Spec]
  /- 320 -/
  | .NotNullColumnSpec => some []
  /- 322 -/
  | .UniqueColumnSpec => some []
  /- 324-326 -/
  | .ReferencesColumnSpec => some [.one .TableName, .list .Columns]
  /- 327-328 -/
  | .CheckColumnSpec => some [.one .Expr]
  /- 329-331 -/
  | .AlterTableStmt => some [.one .TableName, .one .Action]
  /- 332-333 -/
  | .AddColumnTableAction => some [.one .Column]
  /- 334-336 -/
  | .AlterColumnTableAction => some [.one .ColumnName, .one .Action]
  /- 337-338 -/
  | .SetDefaultColumnAction => some [.one .Default]
  /- 339 -/
  | .DropDefaultColumnAction => some []
  /- 341-342 -/
  | .PGAlterDataTypeColumnAction => some [.one .DataType]
  /- 343 -/
  | .PGSetNotNullColumnAction => some []
  /- 345 -/
  | .PGDropNotNullColumnAction => some []
  /- 347-348 -/
  | .RemoveColumnTableAction => some [.one .Name]
  /- 349-350 -/
  | .AddConstraintTableAction => some [.one .Constraint]
  /- 351-352 -/
  | .DropConstraintTableAction => some [.one .Name]
  /- 353-355 -/
  | .DropTableStmt => some [.list .TableNames]
  /- 357-367 -/
  | .CreateIndexStmt => some [.one .TableName, .opt .IndexName, .opt .MethodName, .list .ColumnNames, .opt .Selection]
  /- 369-370 -/
  | .DropIndexStmt => some [.list .IndexNames]
  /- 371-372 -/
  | .ExplainStmt => some [.one .Stmt]
  /- 201 -/
  | .CharType => some []
  /- 203 -/
  | .VarcharType => some []
  /- 205 -/
  | .UUID => some []
  /- 207 -/
  | .Clob => some []
  /- 209 -/
  | .Binary => some []
  /- 211 -/
  | .Varbinary => some []
  /- 213 -/
  | .Blob => some []
  /- 215 -/
  | .Decimal => some []
  /- 217 -/
  | .Float => some []
  /- 219 -/
  | .SmallInt => some []
  /- 221 -/
  | .Int => some []
  /- 223 -/
  | .BigInt => some []
  /- 225 -/
  | .Real => some []
  /- 227 -/
  | .Double => some []
  /- 229 -/
  | .Boolean => some []
  /- 231 -/
  | .Date => some []
  /- 233 -/
  | .Time => some []
  /- 235 -/
  | .Timestamp => some []
  /- 237 -/
  | .Regclass => some []
  /- 239 -/
  | .Text => some []
  /- 241 -/
  | .Bytea => some []
  /- 243 -/
  | .Array => some []
  /- 245 -/
  | .Custom => some []
  /- 375-384 -/
  | .LongValue => some []
  /- 375-384 -/
  | .DoubleValue => some []
  /- 375-384 -/
  | .SingleQuotedString => some []
  /- 375-384 -/
  | .NationalStringLiteral => some []
  /- 375-384 -/
  | .BooleanValue => some []
  /- 375-384 -/
  | .DateValue => some []
  /- 375-384 -/
  | .TimeValue => some []
  /- 375-384 -/
  | .DateTimeValue => some []
  /- 375-384 -/
  | .TimestampValue => some []
  /- 375-384 -/
  | .NullValue => some []
  | _ => none

/-- The result of running Go code that calls user callbacks: it returns or it panics; either way the callbacks
have changed the state. -/
inductive Out (σ : Type) where
  | ok (s : σ)
  | panic (s : σ)
  deriving Repr

def Out.bind {σ : Type} (x : Out σ) (f : σ → Out σ) : Out σ :=
  match x with
  | .ok s => f s
  | .panic s => .panic s

/-- Run a list of actions one after the other. -/
def seqAll {σ : Type} : List (σ → Out σ) → σ → Out σ
  | [], s => .ok s
  | a :: as, s => (a s).bind (seqAll as)

/-- A field together with the action `Walk(v, x)` for each node `x` in it. -/
inductive FieldAct (σ : Type) where
  | nil (f : FName)
  | one (f : FName) (a : σ → Out σ)
  | list (f : FName) (as : List (σ → Out σ))

def FieldAct.name {σ : Type} : FieldAct σ → FName
  | .nil f => f
  | .one f _ => f
  | .list f _ => f

/-- `Walk(v, nil)`, sqlast/walk.go:23-26 and 386-387: `v.Visit(nil)`, then the `default:` branch of the switch
panics unless the visitor stopped the walk. -/
def walkNil {V σ : Type} (visit : V → Option Tree → σ → Option V × σ) (v : V) (s : σ) : Out σ :=
  let r := visit v none s
  if r.1.isSome then .panic r.2 else .ok r.2

/-- One statement of a case of `Walk`, given the actions for the fields.  A missing field cannot be named in Go. -/
def WStep.act {σ : Type} (nil : σ → Out σ) (all : Bool) (fs : List (FieldAct σ)) : WStep → σ → Out σ
  | .one f => match fs.find? (fun x => x.name == f) with
    | some (.one _ a) => a
    | _ => nil
  | .opt f => match fs.find? (fun x => x.name == f) with
    | some (.one _ a) => a
    | _ => .ok
  | .list f => match fs.find? (fun x => x.name == f) with
    | some (.list _ as) => seqAll as
    | _ => .ok
  | .unlessAll f => if all then .ok else match fs.find? (fun x => x.name == f) with
    | some (.one _ a) => a
    | _ => nil

mutual
/-- `Walk`, sqlast/walk.go:23-391.  `if v := v.Visit(node); v == nil { return }` declares a new `v` whose scope is
only the `if`, so the visitor that `Visit` returns is compared with nil and dropped: the children and the closing
`v.Visit(nil)` use the visitor that was passed in.  A nil pointer stored in a field of pointer type is treated as
a nil interface (Go would pass a non-nil interface holding a nil pointer); the theorems that depend on it assume
that the field is not nil. -/
def walk {V σ : Type} (visit : V → Option Tree → σ → Option V × σ) (v : V) : Tree → σ → Out σ
  | .mk k i all fs => fun s =>
    let r := visit v (some (.mk k i all fs)) s
    if r.1.isSome then
      match k.walk with
      | none => .panic r.2
      | some steps =>
        (seqAll (steps.map (WStep.act (walkNil visit v) all (walkFields visit v fs))) r.2).bind fun s2 =>
          .ok (visit v none s2).2
    else .ok r.2
def walkFields {V σ : Type} (visit : V → Option Tree → σ → Option V × σ) (v : V) :
    List FieldVal → List (FieldAct σ)
  | [] => []
  | x :: xs => walkField visit v x :: walkFields visit v xs
def walkField {V σ : Type} (visit : V → Option Tree → σ → Option V × σ) (v : V) : FieldVal → FieldAct σ
  | .nil f => .nil f
  | .one f t => .one f (walk visit v t)
  | .list f ts => .list f (walkList visit v ts)
def walkList {V σ : Type} (visit : V → Option Tree → σ → Option V × σ) (v : V) :
    List Tree → List (σ → Out σ)
  | [] => []
  | t :: ts => walk visit v t :: walkList visit v ts
end

/-- `inspector.Visit`, sqlast/walk.go:393-400: the visitor is the function itself. -/
def inspectorVisit {σ : Type} (f : Option Tree → σ → Bool × σ) (v : Unit) (n : Option Tree) (s : σ) :
    Option Unit × σ :=
  let r := f n s
  (if r.1 then some v else none, r.2)

/-- `Inspect`, sqlast/walk.go:402-404. -/
def inspect {σ : Type} (f : Option Tree → σ → Bool × σ) (t : Tree) (s : σ) : Out σ :=
  walk (inspectorVisit f) () t s

end Verif
