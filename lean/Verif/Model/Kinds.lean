/-
The node types of package sqlast as data: their names, their fields that hold nodes, the interfaces they
implement.  The tables follow the struct declarations of ast.go, query.go, stmt.go, table_option.go, type.go,
value.go, operator.go and comment.go in declaration order; fields without nodes (positions, flags, texts) are
left out.
-/
namespace Verif

/-- The struct types of package sqlast that implement `Node`; lines of the declaration. -/
inductive Kind where
  /-- sqlast/ast.go:25-28 -/
  | File
  /-- sqlast/ast.go:64-67 -/
  | Ident
  /-- sqlast/ast.go:103-105 -/
  | Wildcard
  /-- sqlast/ast.go:127-129 -/
  | QualifiedWildcard
  /-- sqlast/ast.go:148-150 -/
  | CompoundIdent
  /-- sqlast/ast.go:169-171 -/
  | IsNull
  /-- sqlast/ast.go:193-195 -/
  | IsNotNull
  /-- sqlast/ast.go:217-222 -/
  | InList
  /-- sqlast/ast.go:244-249 -/
  | InSubQuery
  /-- sqlast/ast.go:271-276 -/
  | Between
  /-- sqlast/ast.go:298-302 -/
  | BinaryExpr
  /-- sqlast/ast.go:331-336 -/
  | Cast
  /-- sqlast/ast.go:360-363 -/
  | Nested
  /-- sqlast/ast.go:382-386 -/
  | UnaryExpr
  /-- sqlast/ast.go:405-411 -/
  | Function
  /-- sqlast/ast.go:438-445 -/
  | CaseExpr
  /-- sqlast/ast.go:477-483 -/
  | Exists
  /-- sqlast/ast.go:507-510 -/
  | SubQuery
  /-- sqlast/ast.go:529-531 -/
  | ObjectName
  /-- sqlast/ast.go:561-566 -/
  | WindowSpec
  /-- sqlast/ast.go:622-626 -/
  | WindowFrame
  /-- sqlast/ast.go:655-658 -/
  | WindowFrameUnit
  /-- sqlast/ast.go:719-723 -/
  | CurrentRow
  /-- sqlast/ast.go:741-745 -/
  | UnboundedPreceding
  /-- sqlast/ast.go:763-767 -/
  | UnboundedFollowing
  /-- sqlast/ast.go:786-791 -/
  | Preceding
  /-- sqlast/ast.go:810-815 -/
  | Following
  /-- sqlast/comment.go:9-11 -/
  | CommentGroup
  /-- sqlast/comment.go:33-36 -/
  | Comment
  /-- sqlast/operator.go:9-12 -/
  | Operator
  /-- sqlast/query.go:11-18 -/
  | QueryStmt
  /-- sqlast/query.go:69-73 -/
  | CTE
  /-- sqlast/query.go:96-99 -/
  | SelectExpr
  /-- sqlast/query.go:118-122 -/
  | QueryExpr
  /-- sqlast/query.go:140-146 -/
  | SetOperationExpr
  /-- sqlast/query.go:168-171 -/
  | UnionOperator
  /-- sqlast/query.go:189-192 -/
  | ExceptOperator
  /-- sqlast/query.go:210-213 -/
  | IntersectOperator
  /-- sqlast/query.go:231-240 -/
  | SQLSelect
  /-- sqlast/query.go:305-314 -/
  | Table
  /-- sqlast/query.go:355-364 -/
  | Derived
  /-- sqlast/query.go:397-400 -/
  | UnnamedSelectItem
  /-- sqlast/query.go:418-422 -/
  | AliasSelectItem
  /-- sqlast/query.go:441-444 -/
  | QualifiedWildcardSelectItem
  /-- sqlast/query.go:465-468 -/
  | WildcardSelectItem
  /-- sqlast/query.go:486-490 -/
  | CrossJoin
  /-- sqlast/query.go:512-515 -/
  | TableJoinElement
  /-- sqlast/query.go:533-539 -/
  | PartitionedJoinTable
  /-- sqlast/query.go:560-566 -/
  | QualifiedJoin
  /-- sqlast/query.go:588-593 -/
  | NaturalJoin
  /-- sqlast/query.go:617-622 -/
  | NamedColumnsJoin
  /-- sqlast/query.go:643-647 -/
  | JoinCondition
  /-- sqlast/query.go:665-668 -/
  | JoinType
  /-- sqlast/query.go:720-724 -/
  | OrderByExpr
  /-- sqlast/query.go:756-762 -/
  | LimitExpr
  /-- sqlast/stmt.go:13-20 -/
  | InsertStmt
  /-- sqlast/stmt.go:57-60 -/
  | SubQuerySource
  /-- sqlast/stmt.go:78-82 -/
  | ConstructorSource
  /-- sqlast/stmt.go:105-108 -/
  | RowValueExpr
  /-- sqlast/stmt.go:133-139 -/
  | CopyStmt
  /-- sqlast/stmt.go:178-184 -/
  | UpdateStmt
  /-- sqlast/stmt.go:216-221 -/
  | DeleteStmt
  /-- sqlast/stmt.go:248-254 -/
  | CreateViewStmt
  /-- sqlast/stmt.go:276-284 -/
  | CreateTableStmt
  /-- sqlast/stmt.go:315-318 -/
  | Assignment
  /-- sqlast/stmt.go:338-343 -/
  | TableConstraint
  /-- sqlast/stmt.go:371-377 -/
  | UniqueTableConstraint
  /-- sqlast/stmt.go:405-410 -/
  | ReferentialTableConstraint
  /-- sqlast/stmt.go:432-436 -/
  | ReferenceKeyExpr
  /-- sqlast/stmt.go:456-461 -/
  | CheckTableConstraint
  /-- sqlast/stmt.go:481-488 -/
  | ColumnDef
  /-- sqlast/stmt.go:519-523 -/
  | AutoIncrement
  /-- sqlast/stmt.go:541-545 -/
  | ColumnConstraint
  /-- sqlast/stmt.go:577-579 -/
  | NotNullColumnSpec
  /-- sqlast/stmt.go:597-601 -/
  | UniqueColumnSpec
  /-- sqlast/stmt.go:636-641 -/
  | ReferencesColumnSpec
  /-- sqlast/stmt.go:662-666 -/
  | CheckColumnSpec
  /-- sqlast/stmt.go:740-745 -/
  | AlterTableStmt
  /-- sqlast/stmt.go:767-771 -/
  | AddColumnTableAction
  /-- sqlast/stmt.go:791-796 -/
  | AlterColumnTableAction
  /-- sqlast/stmt.go:821-825 -/
  | SetDefaultColumnAction
  /-- sqlast/stmt.go:843-846 -/
  | DropDefaultColumnAction
  /-- sqlast/stmt.go:865-869 -/
  | PGAlterDataTypeColumnAction
  /-- sqlast/stmt.go:887-890 -/
  | PGSetNotNullColumnAction
  /-- sqlast/stmt.go:908-911 -/
  | PGDropNotNullColumnAction
  /-- sqlast/stmt.go:929-935 -/
  | RemoveColumnTableAction
  /-- sqlast/stmt.go:958-962 -/
  | AddConstraintTableAction
  /-- sqlast/stmt.go:980-986 -/
  | DropConstraintTableAction
  /-- sqlast/stmt.go:1010-1017 -/
  | DropTableStmt
  /-- sqlast/stmt.go:1046-1056 -/
  | CreateIndexStmt
  /-- sqlast/stmt.go:1091-1095 -/
  | DropIndexStmt
  /-- sqlast/stmt.go:1115-1119 -/
  | ExplainStmt
  /-- sqlast/table_option.go:12-17 -/
  | MyEngine
  /-- sqlast/table_option.go:37-44 -/
  | MyCharset
  /-- sqlast/type.go:13-16 -/
  | CharType
  /-- sqlast/type.go:37-40 -/
  | VarcharType
  /-- sqlast/type.go:61-63 -/
  | UUID
  /-- sqlast/type.go:81-84 -/
  | Clob
  /-- sqlast/type.go:102-105 -/
  | Binary
  /-- sqlast/type.go:123-126 -/
  | Varbinary
  /-- sqlast/type.go:144-147 -/
  | Blob
  /-- sqlast/type.go:167-173 -/
  | Decimal
  /-- sqlast/type.go:206-211 -/
  | Float
  /-- sqlast/type.go:237-241 -/
  | SmallInt
  /-- sqlast/type.go:264-268 -/
  | Int
  /-- sqlast/type.go:291-295 -/
  | BigInt
  /-- sqlast/type.go:318-322 -/
  | Real
  /-- sqlast/type.go:345-347 -/
  | Double
  /-- sqlast/type.go:365-367 -/
  | Boolean
  /-- sqlast/type.go:385-387 -/
  | Date
  /-- sqlast/type.go:405-407 -/
  | Time
  /-- sqlast/type.go:425-429 -/
  | Timestamp
  /-- sqlast/type.go:456-458 -/
  | Regclass
  /-- sqlast/type.go:476-478 -/
  | Text
  /-- sqlast/type.go:496-498 -/
  | Bytea
  /-- sqlast/type.go:516-519 -/
  | Array
  /-- sqlast/type.go:537-539 -/
  | Custom
  /-- sqlast/value.go:17-20 -/
  | LongValue
  /-- sqlast/value.go:49-52 -/
  | DoubleValue
  /-- sqlast/value.go:83-86 -/
  | SingleQuotedString
  /-- sqlast/value.go:123-126 -/
  | NationalStringLiteral
  /-- sqlast/value.go:163-166 -/
  | BooleanValue
  /-- sqlast/value.go:198-201 -/
  | DateValue
  /-- sqlast/value.go:226-229 -/
  | TimeValue
  /-- sqlast/value.go:260-263 -/
  | DateTimeValue
  /-- sqlast/value.go:294-297 -/
  | TimestampValue
  /-- sqlast/value.go:326-328 -/
  | NullValue
  deriving DecidableEq, Repr, Inhabited

def Kind.all : List Kind := [
  .File, .Ident, .Wildcard, .QualifiedWildcard, .CompoundIdent, .IsNull, .IsNotNull, .InList,
  .InSubQuery, .Between, .BinaryExpr, .Cast, .Nested, .UnaryExpr, .Function, .CaseExpr, .Exists,
  .SubQuery, .ObjectName, .WindowSpec, .WindowFrame, .WindowFrameUnit, .CurrentRow, .UnboundedPreceding,
  .UnboundedFollowing, .Preceding, .Following, .CommentGroup, .Comment, .Operator, .QueryStmt, .CTE,
  .SelectExpr, .QueryExpr, .SetOperationExpr, .UnionOperator, .ExceptOperator, .IntersectOperator,
  .SQLSelect, .Table, .Derived, .UnnamedSelectItem, .AliasSelectItem, .QualifiedWildcardSelectItem,
  .WildcardSelectItem, .CrossJoin, .TableJoinElement, .PartitionedJoinTable, .QualifiedJoin,
  .NaturalJoin, .NamedColumnsJoin, .JoinCondition, .JoinType, .OrderByExpr, .LimitExpr, .InsertStmt,
  .SubQuerySource, .ConstructorSource, .RowValueExpr, .CopyStmt, .UpdateStmt, .DeleteStmt,
  .CreateViewStmt, .CreateTableStmt, .Assignment, .TableConstraint, .UniqueTableConstraint,
  .ReferentialTableConstraint, .ReferenceKeyExpr, .CheckTableConstraint, .ColumnDef, .AutoIncrement,
  .ColumnConstraint, .NotNullColumnSpec, .UniqueColumnSpec, .ReferencesColumnSpec, .CheckColumnSpec,
  .AlterTableStmt, .AddColumnTableAction, .AlterColumnTableAction, .SetDefaultColumnAction,
  .DropDefaultColumnAction, .PGAlterDataTypeColumnAction, .PGSetNotNullColumnAction,
  .PGDropNotNullColumnAction, .RemoveColumnTableAction, .AddConstraintTableAction,
  .DropConstraintTableAction, .DropTableStmt, .CreateIndexStmt, .DropIndexStmt, .ExplainStmt, .MyEngine,
  .MyCharset, .CharType, .VarcharType, .UUID, .Clob, .Binary, .Varbinary, .Blob, .Decimal, .Float,
  .SmallInt, .Int, .BigInt, .Real, .Double, .Boolean, .Date, .Time, .Timestamp, .Regclass, .Text,
  .Bytea, .Array, .Custom, .LongValue, .DoubleValue, .SingleQuotedString, .NationalStringLiteral,
  .BooleanValue, .DateValue, .TimeValue, .DateTimeValue, .TimestampValue, .NullValue]

/-- The names of the fields that hold nodes.  `QueryStmt` is not the name of any field of any struct; it occurs
in sqlastutil/rewrite.go. `Type_` is the field `Type`. -/
inductive FName where
  | Stmts | Comments | Idents | X | Expr | List | SubQuery | Low | High | Left | Op | Right | DataType
  | AST | Name | Args | Over | Operand | Conditions | Results | ElseResult | Query | PartitionBy
  | OrderBy | WindowsFrame | Units | StartBound | EndBound | CTEs | Body | Limit | Alias | Select
  | Projection | FromClause | WhereClause | GroupByClause | HavingClause | WithHints | Node | Prefix
  | Reference | Factor | Ref | ColumnList | LeftElement | Type_ | RightElement | Spec | SearchCondition
  | LimitValue | OffsetValue | TableName | Columns | Source | UpdateAssignments | Rows | Values
  | Assignments | Selection | Elements | Options | ID | Value | KeyExpr | Default | MyDataTypeDecoration
  | Constraints | Action | Column | ColumnName | Constraint | TableNames | IndexName | MethodName
  | ColumnNames | IndexNames | Stmt | Ty | QueryStmt
  deriving DecidableEq, Repr, Inhabited

/-- The interface types of fields. -/
inductive Iface where
  /-- sqlast/alter_column_action_gen.go:5-8 -/
  | AlterColumnAction
  /-- sqlast/alter_table_action_gen.go:5-8 -/
  | AlterTableAction
  /-- sqlast/ast.go:17-23 -/
  | Node
  /-- sqlast/insert_source_gen.go:5-8 -/
  | InsertSource
  /-- sqlast/join_spec_gen.go:5-8 -/
  | JoinSpec
  /-- sqlast/my_data_type_decoration_gen.go:5-8 -/
  | MyDataTypeDecoration
  /-- sqlast/sql_select_item_gen.go:5-8 -/
  | SQLSelectItem
  /-- sqlast/sql_set_expr_gen.go:5-8 -/
  | SQLSetExpr
  /-- sqlast/sql_set_operator_gen.go:5-8 -/
  | SQLSetOperator
  /-- sqlast/sql_window_frame_bound_gen.go:5-8 -/
  | SQLWindowFrameBound
  /-- sqlast/stmt.go:573-575 -/
  | ColumnConstraintSpec
  /-- sqlast/stmt_gen.go:5-8 -/
  | Stmt
  /-- sqlast/table_constraint_spec_gen.go:5-8 -/
  | TableConstraintSpec
  /-- sqlast/table_element_gen.go:5-8 -/
  | TableElement
  /-- sqlast/table_factor_gen.go:5-8 -/
  | TableFactor
  /-- sqlast/table_option_gen.go:5-8 -/
  | TableOption
  /-- sqlast/table_reference_gen.go:5-8 -/
  | TableReference
  /-- sqlast/type.go:9-11 -/
  | Type
  deriving DecidableEq, Repr, Inhabited

/-- The type of a field (or of the elements of a slice field): a pointer to a struct type, or an interface. -/
inductive FTy where
  | ptr (k : Kind)
  | iface (i : Iface)
  deriving DecidableEq, Repr, Inhabited

/-- A field declaration: its name, whether it is a slice, and its (element) type. -/
structure Field where
  name : FName
  slice : Bool
  type : FTy
  deriving DecidableEq, Repr, Inhabited

/-- The fields of each struct type that hold nodes, in the order of declaration. -/
def Kind.fields : Kind → List Field
  | .File => [⟨.Stmts, true, .iface .Stmt⟩, ⟨.Comments, true, .ptr .CommentGroup⟩]
  | .QualifiedWildcard => [⟨.Idents, true, .ptr .Ident⟩]
  | .CompoundIdent => [⟨.Idents, true, .ptr .Ident⟩]
  | .IsNull => [⟨.X, false, .iface .Node⟩]
  | .IsNotNull => [⟨.X, false, .iface .Node⟩]
  | .InList => [⟨.Expr, false, .iface .Node⟩, ⟨.List, true, .iface .Node⟩]
  | .InSubQuery => [⟨.Expr, false, .iface .Node⟩, ⟨.SubQuery, false, .ptr .QueryStmt⟩]
  | .Between => [⟨.Expr, false, .iface .Node⟩, ⟨.Low, false, .iface .Node⟩, ⟨.High, false, .iface .Node⟩]
  | .BinaryExpr => [⟨.Left, false, .iface .Node⟩, ⟨.Op, false, .ptr .Operator⟩, ⟨.Right, false, .iface .Node⟩]
  | .Cast => [⟨.Expr, false, .iface .Node⟩, ⟨.DataType, false, .iface .Type⟩]
  | .Nested => [⟨.AST, false, .iface .Node⟩]
  | .UnaryExpr => [⟨.Op, false, .ptr .Operator⟩, ⟨.Expr, false, .iface .Node⟩]
  | .Function => [⟨.Name, false, .ptr .ObjectName⟩, ⟨.Args, true, .iface .Node⟩, ⟨.Over, false, .ptr .WindowSpec⟩]
  | .CaseExpr => [⟨.Operand, false, .iface .Node⟩, ⟨.Conditions, true, .iface .Node⟩, ⟨.Results, true, .iface .Node⟩, ⟨.ElseResult, false, .iface .Node⟩]
  | .Exists => [⟨.Query, false, .ptr .QueryStmt⟩]
  | .SubQuery => [⟨.Query, false, .ptr .QueryStmt⟩]
  | .ObjectName => [⟨.Idents, true, .ptr .Ident⟩]
  | .WindowSpec => [⟨.PartitionBy, true, .iface .Node⟩, ⟨.OrderBy, true, .ptr .OrderByExpr⟩, ⟨.WindowsFrame, false, .ptr .WindowFrame⟩]
  | .WindowFrame => [⟨.Units, false, .ptr .WindowFrameUnit⟩, ⟨.StartBound, false, .iface .SQLWindowFrameBound⟩, ⟨.EndBound, false, .iface .SQLWindowFrameBound⟩]
  | .CommentGroup => [⟨.List, true, .ptr .Comment⟩]
  | .QueryStmt => [⟨.CTEs, true, .ptr .CTE⟩, ⟨.Body, false, .iface .SQLSetExpr⟩, ⟨.OrderBy, true, .ptr .OrderByExpr⟩, ⟨.Limit, false, .ptr .LimitExpr⟩]
  | .CTE => [⟨.Alias, false, .ptr .Ident⟩, ⟨.Query, false, .ptr .QueryStmt⟩]
  | .SelectExpr => [⟨.Select, false, .ptr .SQLSelect⟩]
  | .QueryExpr => [⟨.Query, false, .ptr .QueryStmt⟩]
  | .SetOperationExpr => [⟨.Op, false, .iface .SQLSetOperator⟩, ⟨.Left, false, .iface .SQLSetExpr⟩, ⟨.Right, false, .iface .SQLSetExpr⟩]
  | .SQLSelect => [⟨.Projection, true, .iface .SQLSelectItem⟩, ⟨.FromClause, true, .iface .TableReference⟩, ⟨.WhereClause, false, .iface .Node⟩, ⟨.GroupByClause, true, .iface .Node⟩, ⟨.HavingClause, false, .iface .Node⟩]
  | .Table => [⟨.Name, false, .ptr .ObjectName⟩, ⟨.Alias, false, .ptr .Ident⟩, ⟨.Args, true, .iface .Node⟩, ⟨.WithHints, true, .iface .Node⟩]
  | .Derived => [⟨.SubQuery, false, .ptr .QueryStmt⟩, ⟨.Alias, false, .ptr .Ident⟩]
  | .UnnamedSelectItem => [⟨.Node, false, .iface .Node⟩]
  | .AliasSelectItem => [⟨.Expr, false, .iface .Node⟩, ⟨.Alias, false, .ptr .Ident⟩]
  | .QualifiedWildcardSelectItem => [⟨.Prefix, false, .ptr .ObjectName⟩]
  | .CrossJoin => [⟨.Reference, false, .iface .TableReference⟩, ⟨.Factor, false, .iface .TableFactor⟩]
  | .TableJoinElement => [⟨.Ref, false, .iface .TableReference⟩]
  | .PartitionedJoinTable => [⟨.Factor, false, .iface .TableFactor⟩, ⟨.ColumnList, true, .ptr .Ident⟩]
  | .QualifiedJoin => [⟨.LeftElement, false, .ptr .TableJoinElement⟩, ⟨.Type_, false, .ptr .JoinType⟩, ⟨.RightElement, false, .ptr .TableJoinElement⟩, ⟨.Spec, false, .iface .JoinSpec⟩]
  | .NaturalJoin => [⟨.LeftElement, false, .ptr .TableJoinElement⟩, ⟨.Type_, false, .ptr .JoinType⟩, ⟨.RightElement, false, .ptr .TableJoinElement⟩]
  | .NamedColumnsJoin => [⟨.ColumnList, true, .ptr .Ident⟩]
  | .JoinCondition => [⟨.SearchCondition, false, .iface .Node⟩]
  | .OrderByExpr => [⟨.Expr, false, .iface .Node⟩]
  | .LimitExpr => [⟨.LimitValue, false, .ptr .LongValue⟩, ⟨.OffsetValue, false, .ptr .LongValue⟩]
  | .InsertStmt => [⟨.TableName, false, .ptr .ObjectName⟩, ⟨.Columns, true, .ptr .Ident⟩, ⟨.Source, false, .iface .InsertSource⟩, ⟨.UpdateAssignments, true, .ptr .Assignment⟩]
  | .SubQuerySource => [⟨.SubQuery, false, .ptr .QueryStmt⟩]
  | .ConstructorSource => [⟨.Rows, true, .ptr .RowValueExpr⟩]
  | .RowValueExpr => [⟨.Values, true, .iface .Node⟩]
  | .CopyStmt => [⟨.TableName, false, .ptr .ObjectName⟩, ⟨.Columns, true, .ptr .Ident⟩]
  | .UpdateStmt => [⟨.TableName, false, .ptr .ObjectName⟩, ⟨.Assignments, true, .ptr .Assignment⟩, ⟨.Selection, false, .iface .Node⟩]
  | .DeleteStmt => [⟨.TableName, false, .ptr .ObjectName⟩, ⟨.Selection, false, .iface .Node⟩]
  | .CreateViewStmt => [⟨.Name, false, .ptr .ObjectName⟩, ⟨.Query, false, .ptr .QueryStmt⟩]
  | .CreateTableStmt => [⟨.Name, false, .ptr .ObjectName⟩, ⟨.Elements, true, .iface .TableElement⟩, ⟨.Options, true, .iface .TableOption⟩]
  | .Assignment => [⟨.ID, false, .ptr .Ident⟩, ⟨.Value, false, .iface .Node⟩]
  | .TableConstraint => [⟨.Name, false, .ptr .Ident⟩, ⟨.Spec, false, .iface .TableConstraintSpec⟩]
  | .UniqueTableConstraint => [⟨.Columns, true, .ptr .Ident⟩]
  | .ReferentialTableConstraint => [⟨.Columns, true, .ptr .Ident⟩, ⟨.KeyExpr, false, .ptr .ReferenceKeyExpr⟩]
  | .ReferenceKeyExpr => [⟨.TableName, false, .ptr .Ident⟩, ⟨.Columns, true, .ptr .Ident⟩]
  | .CheckTableConstraint => [⟨.Expr, false, .iface .Node⟩]
  | .ColumnDef => [⟨.Name, false, .ptr .Ident⟩, ⟨.DataType, false, .iface .Type⟩, ⟨.Default, false, .iface .Node⟩, ⟨.MyDataTypeDecoration, true, .iface .MyDataTypeDecoration⟩, ⟨.Constraints, true, .ptr .ColumnConstraint⟩]
  | .ColumnConstraint => [⟨.Name, false, .ptr .Ident⟩, ⟨.Spec, false, .iface .ColumnConstraintSpec⟩]
  | .ReferencesColumnSpec => [⟨.TableName, false, .ptr .ObjectName⟩, ⟨.Columns, true, .ptr .Ident⟩]
  | .CheckColumnSpec => [⟨.Expr, false, .iface .Node⟩]
  | .AlterTableStmt => [⟨.TableName, false, .ptr .ObjectName⟩, ⟨.Action, false, .iface .AlterTableAction⟩]
  | .AddColumnTableAction => [⟨.Column, false, .ptr .ColumnDef⟩]
  | .AlterColumnTableAction => [⟨.ColumnName, false, .ptr .Ident⟩, ⟨.Action, false, .iface .AlterColumnAction⟩]
  | .SetDefaultColumnAction => [⟨.Default, false, .iface .Node⟩]
  | .PGAlterDataTypeColumnAction => [⟨.DataType, false, .iface .Type⟩]
  | .RemoveColumnTableAction => [⟨.Name, false, .ptr .Ident⟩]
  | .AddConstraintTableAction => [⟨.Constraint, false, .ptr .TableConstraint⟩]
  | .DropConstraintTableAction => [⟨.Name, false, .ptr .Ident⟩]
  | .DropTableStmt => [⟨.TableNames, true, .ptr .ObjectName⟩]
  | .CreateIndexStmt => [⟨.TableName, false, .ptr .ObjectName⟩, ⟨.IndexName, false, .ptr .Ident⟩, ⟨.MethodName, false, .ptr .Ident⟩, ⟨.ColumnNames, true, .ptr .Ident⟩, ⟨.Selection, false, .iface .Node⟩]
  | .DropIndexStmt => [⟨.IndexNames, true, .ptr .Ident⟩]
  | .ExplainStmt => [⟨.Stmt, false, .iface .Stmt⟩]
  | .MyEngine => [⟨.Name, false, .ptr .Ident⟩]
  | .MyCharset => [⟨.Name, false, .ptr .Ident⟩]
  | .Array => [⟨.Ty, false, .iface .Type⟩]
  | .Custom => [⟨.Ty, false, .ptr .ObjectName⟩]
  | _ => []

/-- The interfaces that a struct type implements by embedding their marker struct (every one of them embeds
`Node`, and `TableFactor` embeds `TableReference`). -/
def Kind.markers : Kind → List Iface
  | .CurrentRow => [.SQLWindowFrameBound]
  | .UnboundedPreceding => [.SQLWindowFrameBound]
  | .UnboundedFollowing => [.SQLWindowFrameBound]
  | .Preceding => [.SQLWindowFrameBound]
  | .Following => [.SQLWindowFrameBound]
  | .QueryStmt => [.Stmt]
  | .SelectExpr => [.SQLSetExpr]
  | .QueryExpr => [.SQLSetExpr]
  | .SetOperationExpr => [.SQLSetExpr]
  | .UnionOperator => [.SQLSetOperator]
  | .ExceptOperator => [.SQLSetOperator]
  | .IntersectOperator => [.SQLSetOperator]
  | .SQLSelect => [.SQLSetExpr]
  | .Table => [.TableFactor, .TableReference]
  | .Derived => [.TableFactor, .TableReference]
  | .UnnamedSelectItem => [.SQLSelectItem]
  | .AliasSelectItem => [.SQLSelectItem]
  | .QualifiedWildcardSelectItem => [.SQLSelectItem]
  | .WildcardSelectItem => [.SQLSelectItem]
  | .CrossJoin => [.TableReference]
  | .PartitionedJoinTable => [.TableReference]
  | .QualifiedJoin => [.TableReference]
  | .NaturalJoin => [.TableReference]
  | .NamedColumnsJoin => [.JoinSpec]
  | .JoinCondition => [.JoinSpec]
  | .InsertStmt => [.Stmt]
  | .SubQuerySource => [.InsertSource]
  | .ConstructorSource => [.InsertSource]
  | .CopyStmt => [.Stmt]
  | .UpdateStmt => [.Stmt]
  | .DeleteStmt => [.Stmt]
  | .CreateViewStmt => [.Stmt]
  | .CreateTableStmt => [.Stmt]
  | .TableConstraint => [.TableElement]
  | .UniqueTableConstraint => [.TableConstraintSpec]
  | .ReferentialTableConstraint => [.TableConstraintSpec]
  | .CheckTableConstraint => [.TableConstraintSpec]
  | .ColumnDef => [.TableElement]
  | .AutoIncrement => [.MyDataTypeDecoration]
  | .AlterTableStmt => [.Stmt]
  | .AddColumnTableAction => [.AlterTableAction]
  | .AlterColumnTableAction => [.AlterTableAction]
  | .SetDefaultColumnAction => [.AlterColumnAction]
  | .DropDefaultColumnAction => [.AlterColumnAction]
  | .PGAlterDataTypeColumnAction => [.AlterColumnAction]
  | .PGSetNotNullColumnAction => [.AlterColumnAction]
  | .PGDropNotNullColumnAction => [.AlterColumnAction]
  | .RemoveColumnTableAction => [.AlterTableAction]
  | .AddConstraintTableAction => [.AlterTableAction]
  | .DropConstraintTableAction => [.AlterTableAction]
  | .DropTableStmt => [.Stmt]
  | .CreateIndexStmt => [.Stmt]
  | .DropIndexStmt => [.Stmt]
  | .ExplainStmt => [.Stmt]
  | .MyEngine => [.TableOption]
  | .MyCharset => [.TableOption]
  | _ => []

/-- Does `*k` implement the interface?  `Node` is implemented by all; `Type` (type.go:9-11) and
`ColumnConstraintSpec` (stmt.go:573-575) only embed `Node`. -/
def Kind.implements (k : Kind) (i : Iface) : Bool :=
  match i with
  | .Node | .Type | .ColumnConstraintSpec => true
  | .TableFactor => k.markers.contains .TableFactor && k.markers.contains .TableReference
  | i => k.markers.contains i

/-- Can a pointer to a `k` be stored in a field of type `ty`? -/
def FTy.accepts : FTy → Kind → Bool
  | .ptr k', k => k' == k
  | .iface i, k => k.implements i

end Verif
