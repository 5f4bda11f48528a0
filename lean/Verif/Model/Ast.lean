import Verif.Model.Token
/-
Model of the syntax tree types of package sqlast: ast.go, query.go, stmt.go, table_option.go, type.go,
value.go, operator.go, comment.go.  One constructor per Go struct type, one argument per field, in
the order of the Go declaration where possible.

Conventions.
* A pointer or interface field that the code treats as optional (compares with nil) is an `Option`;
  all other pointer fields are assumed non-nil (a tree with nil in them cannot be printed in Go).
* Slices are lists; nil and empty slices are identified (the code only ever uses `len`).
* `TableJoinElement` (query.go:512-531), a struct with the single field `Ref`, is not a separate type
  here: its methods all delegate to `Ref`.
* `time.Time` values of the four date/time literals (value.go:198-324), which the parser never builds,
  are represented by their formatted text.
-/
namespace Verif

/-- sqlast/ast.go:64-67, `Ident`. -/
structure Ident where
  value : Str
  from_ : Pos
  to_ : Pos
  deriving DecidableEq, Repr, Inhabited

/-- sqlast/ast.go:529-531, `ObjectName`. -/
structure ObjectName where
  idents : List Ident
  deriving DecidableEq, Repr, Inhabited

/-- sqlast/type.go, the implementations of `Type`.  `uint` sizes are natural numbers. -/
inductive DataType where
  /-- type.go:13-16 -/
  | char (size : Option Nat) (from_ to_ rparen : Pos)
  /-- type.go:37-40 -/
  | varchar (size : Option Nat) (character varying rparen : Pos)
  /-- type.go:61-63 -/
  | uuid (from_ to_ : Pos)
  /-- type.go:81-84 -/
  | clob (size : Nat) (clob rparen : Pos)
  /-- type.go:102-105 -/
  | binary (size : Nat) (binary rparen : Pos)
  /-- type.go:123-126 -/
  | varbinary (size : Nat) (varbinary rparen : Pos)
  /-- type.go:144-147 -/
  | blob (size : Nat) (blob rparen : Pos)
  /-- type.go:167-173 -/
  | decimal (precision scale : Option Nat) (numeric rparen : Pos) (isUnsigned : Bool) (unsigned : Pos)
  /-- type.go:206-211 -/
  | float (size : Option Nat) (from_ to_ rparen : Pos) (isUnsigned : Bool) (unsigned : Pos)
  /-- type.go:237-241 -/
  | smallInt (from_ to_ : Pos) (isUnsigned : Bool) (unsigned : Pos)
  /-- type.go:264-268 -/
  | int (from_ to_ : Pos) (isUnsigned : Bool) (unsigned : Pos)
  /-- type.go:291-295 -/
  | bigInt (from_ to_ : Pos) (isUnsigned : Bool) (unsigned : Pos)
  /-- type.go:318-322 -/
  | real (from_ to_ : Pos) (isUnsigned : Bool) (unsigned : Pos)
  /-- type.go:345-347 -/
  | double (from_ to_ : Pos)
  /-- type.go:365-367 -/
  | boolean (from_ to_ : Pos)
  /-- type.go:385-387 -/
  | date (from_ to_ : Pos)
  /-- type.go:405-407 -/
  | time (from_ to_ : Pos)
  /-- type.go:425-429 -/
  | timestamp (withTimeZone : Bool) (timestamp zone : Pos)
  /-- type.go:456-458 -/
  | regclass (from_ to_ : Pos)
  /-- type.go:476-478 -/
  | text (from_ to_ : Pos)
  /-- type.go:496-498 -/
  | bytea (from_ to_ : Pos)
  /-- type.go:516-519 -/
  | array (ty : DataType) (rparen : Pos)
  /-- type.go:537-539 -/
  | custom (ty : ObjectName)
  deriving DecidableEq, Repr, Inhabited

/-- sqlast/operator.go:22-42, `OperatorType`. -/
inductive OpType where
  | Plus | Minus | Multiply | Divide | Modulus | Gt | Lt | GtEq | LtEq | Eq | NotEq | And | Or | Not
  | Like | NotLike | None
  deriving DecidableEq, Repr, Inhabited

/-- sqlast/operator.go:9-12, `Operator`. -/
structure Operator where
  type : OpType
  from_ : Pos
  to_ : Pos
  deriving DecidableEq, Repr, Inhabited

/-- sqlast/value.go:17-20, `LongValue`; `int64` as an integer. -/
structure LongValue where
  from_ : Pos
  to_ : Pos
  long : Int
  deriving DecidableEq, Repr, Inhabited

/-- sqlast/ast.go:668-674, `WindowFrameUnitType`. -/
inductive WindowUnit where
  | Rows | Range | Groups
  deriving DecidableEq, Repr, Inhabited

/-- sqlast/ast.go:655-658, `WindowFrameUnit`. -/
structure WindowFrameUnit where
  from_ : Pos
  to_ : Pos
  type : WindowUnit
  deriving DecidableEq, Repr, Inhabited

/-- sqlast/ast.go:719-831, the implementations of `SQLWindowFrameBound`.  The `*uint64` bound is never
nil in a tree the parser builds (parser.go:2532-2565), so it is a number here. -/
inductive FrameBound where
  | currentRow (current row : Pos)
  | unboundedPreceding (unbounded preceding : Pos)
  | unboundedFollowing (unbounded following : Pos)
  | preceding (bound : Nat) (from_ preceding : Pos)
  | following (bound : Nat) (from_ following : Pos)
  deriving DecidableEq, Repr, Inhabited

/-- sqlast/ast.go:622-626, `WindowFrame`. -/
structure WindowFrame where
  units : WindowFrameUnit
  startBound : FrameBound
  endBound : Option FrameBound
  deriving DecidableEq, Repr, Inhabited

/-- sqlast/query.go:678-689, `JoinTypeCondition`. -/
inductive JoinCond where
  | INNER | LEFT | RIGHT | FULL | LEFTOUTER | RIGHTOUTER | FULLOUTER | IMPLICIT
  deriving DecidableEq, Repr, Inhabited

/-- sqlast/query.go:665-668, `JoinType`. -/
structure JoinType where
  cond : JoinCond
  from_ : Pos
  to_ : Pos
  deriving DecidableEq, Repr, Inhabited

/-- sqlast/query.go:168-229, the implementations of `SQLSetOperator`. -/
inductive SetOp where
  | union (from_ to_ : Pos)
  | except (from_ to_ : Pos)
  | intersect (from_ to_ : Pos)
  deriving DecidableEq, Repr, Inhabited

/-- sqlast/query.go:756-762, `LimitExpr`.  `limitValue` is read only when `all` is false and is non-nil
then, so the two fields are one here: `none` is `LIMIT ALL`. -/
structure LimitExpr where
  count : Option LongValue
  allPos : Pos
  limitPos : Pos
  offset : Option LongValue
  deriving DecidableEq, Repr, Inhabited

/-- A `float64` as its bit pattern.  `strconv.ParseFloat` and `strconv.AppendFloat` are
parameters (`FloatFns`) of everything that uses them; Verif/Model/Strconv.lean models them. -/
abbrev F64 := BitVec 64

/-- `strconv.ParseFloat(s, 64)` (parser.go:2615), `none` if it returns an error, and
`strconv.AppendFloat(_, f, 'f', -1, 64)` (value.go:78). -/
structure FloatFns where
  parse : Str → Option F64
  format : F64 → Str

/-- Which of the four date/time literal types of sqlast/value.go:198-324. -/
inductive TimeKind where
  | Date | Time | DateTime | Timestamp
  deriving DecidableEq, Repr, Inhabited

mutual

/-- The expression node types: sqlast/ast.go:63-526 and value.go. -/
inductive Expr where
  /-- ast.go:64-67 -/
  | ident (i : Ident)
  /-- ast.go:103-105 -/
  | wildcard (wildcard : Pos)
  /-- ast.go:127-129 -/
  | qualifiedWildcard (idents : List Ident)
  /-- ast.go:148-150 -/
  | compoundIdent (idents : List Ident)
  /-- ast.go:169-171 -/
  | isNull (x : Expr)
  /-- ast.go:193-195 -/
  | isNotNull (x : Expr)
  /-- ast.go:217-222 -/
  | inList (expr : Expr) (list : List Expr) (negated : Bool) (rparen : Pos)
  /-- ast.go:244-249 -/
  | inSubQuery (expr : Expr) (subQuery : QueryStmt) (negated : Bool) (rparen : Pos)
  /-- ast.go:271-276 -/
  | between (expr : Expr) (negated : Bool) (low high : Expr)
  /-- ast.go:298-302 -/
  | binary (left : Expr) (op : Operator) (right : Expr)
  /-- ast.go:331-336 -/
  | cast (expr : Expr) (dataType : DataType) (cast rparen : Pos)
  /-- ast.go:360-363 -/
  | nested (ast : Expr) (lparen rparen : Pos)
  /-- ast.go:382-386 -/
  | unary (from_ : Pos) (op : Operator) (expr : Expr)
  /-- ast.go:405-411 -/
  | function (name : ObjectName) (args : List Expr) (argsRParen : Pos) (over : Option WindowSpec)
      (overRParen : Pos)
  /-- ast.go:438-445 -/
  | caseExpr (case_ caseEnd : Pos) (operand : Option Expr) (conditions results : List Expr)
      (elseResult : Option Expr)
  /-- ast.go:477-483 -/
  | exists_ (negated : Bool) (query : QueryStmt) (not_ exists_ rparen : Pos)
  /-- ast.go:507-510 -/
  | subQuery (rparen lparen : Pos) (query : QueryStmt)
  /-- value.go:17-20 -/
  | long (v : LongValue)
  /-- value.go:49-52 -/
  | double (from_ to_ : Pos) (v : F64)
  /-- value.go:83-86 -/
  | singleQuoted (from_ to_ : Pos) (s : Str)
  /-- value.go:123-126 -/
  | national (from_ to_ : Pos) (s : Str)
  /-- value.go:163-166 -/
  | boolean (from_ to_ : Pos) (b : Bool)
  /-- value.go:326-328 -/
  | null (from_ to_ : Pos)
  /-- value.go:198-324: `DateValue`, `TimeValue`, `DateTimeValue`, `TimestampValue` -/
  | timeValue (kind : TimeKind) (from_ to_ : Pos) (text : Str)

/-- sqlast/ast.go:561-566, `WindowSpec`. -/
inductive WindowSpec where
  | mk (partitionBy : List Expr) (orderBy : List OrderByExpr) (frame : Option WindowFrame)
      (partition order : Pos)

/-- sqlast/query.go:720-724, `OrderByExpr`. -/
inductive OrderByExpr where
  | mk (expr : Expr) (orderingPos : Pos) (asc : Option Bool)

/-- sqlast/query.go:11-18, `QueryStmt`. -/
inductive QueryStmt where
  | mk (with_ : Pos) (ctes : List CTE) (body : SetExpr) (orderBy : List OrderByExpr)
      (limit : Option LimitExpr)

/-- sqlast/query.go:69-73, `CTE`. -/
inductive CTE where
  | mk (alias : Ident) (query : QueryStmt) (rparen : Pos)

/-- sqlast/query.go:93-164 and 231-295, the implementations of `SQLSetExpr`. -/
inductive SetExpr where
  /-- `SelectExpr`, query.go:96-99 (never built by the parser) -/
  | selectExpr (select : SQLSelect)
  /-- `SQLSelect` -/
  | select (select : SQLSelect)
  /-- `QueryExpr`, query.go:118-122 -/
  | query (lparen rparen : Pos) (query : QueryStmt)
  /-- `SetOperationExpr`, query.go:140-146 -/
  | setOp (op : SetOp) (all : Bool) (left right : SetExpr)

/-- sqlast/query.go:231-240, `SQLSelect`. -/
inductive SQLSelect where
  | mk (distinct : Bool) (projection : List SelectItem) (from_ : List TableRef)
      (where_ : Option Expr) (groupBy : List Expr) (having : Option Expr) (pos : Pos)

/-- sqlast/query.go:397-484, the implementations of `SQLSelectItem`. -/
inductive SelectItem where
  | unnamed (node : Expr)
  | alias (expr : Expr) (alias : Ident)
  | qualifiedWildcard (prefix_ : ObjectName)
  | wildcard (from_ to_ : Pos)

/-- sqlast/query.go:305-393, the implementations of `TableFactor`. -/
inductive TableFactor where
  | table (name : ObjectName) (alias : Option Ident) (args : List Expr) (argsRParen : Pos)
      (withHints : List Expr) (withHintsRParen : Pos)
  | derived (lateral : Bool) (lateralPos lparen rparen : Pos) (subQuery : QueryStmt)
      (alias : Option Ident)

/-- sqlast/query.go:297-613, the implementations of `TableReference`. -/
inductive TableRef where
  | factor (f : TableFactor)
  /-- query.go:486-490 -/
  | cross (reference : TableRef) (factor : TableFactor)
  /-- query.go:533-539 -/
  | partitioned (factor : TableFactor) (columns : List Ident) (rparen : Pos)
  /-- query.go:560-566 -/
  | qualified (left : TableRef) (type : JoinType) (right : TableRef) (spec : JoinSpec)
  /-- query.go:588-593 -/
  | natural (left : TableRef) (type : JoinType) (right : TableRef)

/-- sqlast/query.go:615-663, the implementations of `JoinSpec`. -/
inductive JoinSpec where
  | namedColumns (columns : List Ident) (using_ rparen : Pos)
  | condition (search : Expr) (on : Pos)

end

instance : Inhabited Expr := ⟨.wildcard default⟩

/-- sqlast/stmt.go:105-108, `RowValueExpr`. -/
structure RowValueExpr where
  values : List Expr
  lparen : Pos
  rparen : Pos

/-- sqlast/stmt.go:54-103, the implementations of `InsertSource`. -/
inductive InsertSource where
  | subQuery (q : QueryStmt)
  | constructor (values : Pos) (rows : List RowValueExpr)

/-- sqlast/stmt.go:315-318, `Assignment`. -/
structure Assignment where
  id : Ident
  value : Expr

/-- sqlast/stmt.go:432-436, `ReferenceKeyExpr`. -/
structure ReferenceKeyExpr where
  tableName : Ident
  columns : List Ident
  rparen : Pos

/-- sqlast/stmt.go:369-479, the implementations of `TableConstraintSpec`. -/
inductive TableConstraintSpec where
  | unique (isPrimary : Bool) (primary unique rparen : Pos) (columns : List Ident)
  | referential (foreign_ : Pos) (columns : List Ident) (keyExpr : ReferenceKeyExpr)
  | check (check rparen : Pos) (expr : Expr)

/-- sqlast/stmt.go:338-343, `TableConstraint`. -/
structure TableConstraint where
  constraint : Pos
  name : Option Ident
  spec : TableConstraintSpec

/-- sqlast/stmt.go:573-684, the implementations of `ColumnConstraintSpec`. -/
inductive ColumnSpec where
  | notNull (not_ null : Pos)
  | unique (isPrimaryKey : Bool) (primary key unique : Pos)
  | references (references rparen : Pos) (tableName : ObjectName) (columns : List Ident)
  | check (expr : Expr) (check rparen : Pos)

/-- sqlast/stmt.go:541-545, `ColumnConstraint`. -/
structure ColumnConstraint where
  name : Option Ident
  constraint : Pos
  spec : ColumnSpec

/-- sqlast/stmt.go:519-523, `AutoIncrement`, the only `MyDataTypeDecoration`. -/
structure AutoIncrement where
  auto : Pos
  increment : Pos

/-- sqlast/stmt.go:481-488, `ColumnDef`. -/
structure ColumnDef where
  name : Ident
  dataType : DataType
  default_ : Option Expr
  decorations : List AutoIncrement
  constraints : List ColumnConstraint

/-- The implementations of `TableElement` (sqlast/stmt.go:336-515). -/
inductive TableElement where
  | constraint (c : TableConstraint)
  | column (c : ColumnDef)

/-- sqlast/table_option.go, the implementations of `TableOption`. -/
inductive TableOption where
  | engine (engine : Pos) (equal : Bool) (name : Ident)
  | charset (isDefault : Bool) (default_ charset : Pos) (equal : Bool) (name : Ident)

/-- sqlast/stmt.go:816-927, the implementations of `AlterColumnAction`. -/
inductive AlterColumnAction where
  | setDefault (set : Pos) (default_ : Expr)
  | dropDefault (drop default_ : Pos)
  | pgAlterDataType (type : Pos) (dataType : DataType)
  | pgSetNotNull (set null : Pos)
  | pgDropNotNull (drop null : Pos)

/-- sqlast/stmt.go:765-1008, the implementations of `AlterTableAction`. -/
inductive AlterTableAction where
  | addColumn (add : Pos) (column : ColumnDef)
  | alterColumn (columnName : Ident) (alter : Pos) (action : AlterColumnAction)
  | removeColumn (name : Ident) (cascade : Bool) (cascadePos drop : Pos)
  | addConstraint (add : Pos) (constraint : TableConstraint)
  | dropConstraint (name : Ident) (drop : Pos) (cascade : Bool) (cascadePos : Pos)

/-- The implementations of `Stmt` (sqlast/stmt.go, query.go:11). -/
inductive Stmt where
  | query (q : QueryStmt)
  /-- stmt.go:13-20 -/
  | insert (insert : Pos) (tableName : ObjectName) (columns : List Ident) (source : InsertSource)
      (updateAssignments : List Assignment)
  /-- stmt.go:133-139 -/
  | copy (copy : Pos) (tableName : ObjectName) (columns : List Ident) (values : List (Option Str))
  /-- stmt.go:178-184 -/
  | update (update : Pos) (tableName : ObjectName) (assignments : List Assignment)
      (selection : Option Expr)
  /-- stmt.go:216-221 -/
  | delete (delete : Pos) (tableName : ObjectName) (selection : Option Expr)
  /-- stmt.go:248-254 -/
  | createView (create : Pos) (name : ObjectName) (query : QueryStmt) (materialized : Bool)
  /-- stmt.go:276-284; `Location` is never read -/
  | createTable (create : Pos) (name : ObjectName) (elements : List TableElement) (notExists : Bool)
      (options : List TableOption)
  /-- stmt.go:740-745 -/
  | alterTable (alter : Pos) (tableName : ObjectName) (action : AlterTableAction)
  /-- stmt.go:1010-1017 -/
  | dropTable (tableNames : List ObjectName) (cascade : Bool) (cascadePos : Pos) (ifExists : Bool)
      (drop : Pos)
  /-- stmt.go:1046-1056 -/
  | createIndex (create : Pos) (tableName : ObjectName) (isUnique : Bool) (indexName : Option Ident)
      (methodName : Option Ident) (columnNames : List Ident) (rparen : Pos) (selection : Option Expr)
  /-- stmt.go:1091-1095 -/
  | dropIndex (drop : Pos) (indexNames : List Ident)
  /-- stmt.go:1115-1119 -/
  | explain (stmt : Stmt) (explain : Pos)

/-- sqlast/comment.go:33-36, `Comment`. -/
structure Comment where
  text : Str
  from_ : Pos
  to_ : Pos
  deriving DecidableEq, Repr, Inhabited

/-- sqlast/comment.go:9-11, `CommentGroup`. -/
structure CommentGroup where
  list : List Comment
  deriving DecidableEq, Repr, Inhabited

/-- sqlast/ast.go:25-28, `File`. -/
structure File where
  stmts : List Stmt
  comments : List CommentGroup

end Verif
