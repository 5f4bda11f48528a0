/-
The trees of `Verif/Model/Ast.lean` (one Lean type per family of Go types, as built by the parser) as `Tree`s (one
type for all nodes, as seen by `Walk`, `Apply` and `NewCommentMap`).  Every Go struct becomes one `Tree.mk` with
the node-valued fields in the order of `Kind.fields` and the results of its methods `Pos` and `End`; everything else
(flags, texts) is dropped, except `LimitExpr.All`.  All nodes get the identity 0.  `TableJoinElement`
(query.go:512-531), which `Ast.lean` leaves out, is put back around the two sides of a join.
-/
import Verif.Model.NodePos
import Verif.Model.Walk

namespace Verif

/-- A node without node-valued fields. -/
def Tree.leaf (k : Kind) (p e : Option Pos) : Tree := .mk k ⟨0, p, e⟩ false []

def Tree.node (k : Kind) (p e : Option Pos) (fs : List FieldVal) : Tree := .mk k ⟨0, p, e⟩ false fs

/-- An optional field. -/
def FieldVal.opt (f : FName) : Option Tree → FieldVal
  | none => .nil f
  | some t => .one f t

def Ident.tree (i : Ident) : Tree := .leaf .Ident i.from_ i.to_

def Ident.trees (is : List Ident) : List Tree := is.map Ident.tree

def ObjectName.tree (n : ObjectName) : Tree :=
  .node .ObjectName (identsPos n.idents) (identsEnd n.idents) [.list .Idents (Ident.trees n.idents)]

def DataType.tree (nd : DataType) : Tree :=
  match nd with
  | .char .. => .leaf .CharType nd.pos nd.end_
  | .varchar .. => .leaf .VarcharType nd.pos nd.end_
  | .uuid .. => .leaf .UUID nd.pos nd.end_
  | .clob .. => .leaf .Clob nd.pos nd.end_
  | .binary .. => .leaf .Binary nd.pos nd.end_
  | .varbinary .. => .leaf .Varbinary nd.pos nd.end_
  | .blob .. => .leaf .Blob nd.pos nd.end_
  | .decimal .. => .leaf .Decimal nd.pos nd.end_
  | .float .. => .leaf .Float nd.pos nd.end_
  | .smallInt .. => .leaf .SmallInt nd.pos nd.end_
  | .int .. => .leaf .Int nd.pos nd.end_
  | .bigInt .. => .leaf .BigInt nd.pos nd.end_
  | .real .. => .leaf .Real nd.pos nd.end_
  | .double .. => .leaf .Double nd.pos nd.end_
  | .boolean .. => .leaf .Boolean nd.pos nd.end_
  | .date .. => .leaf .Date nd.pos nd.end_
  | .time .. => .leaf .Time nd.pos nd.end_
  | .timestamp .. => .leaf .Timestamp nd.pos nd.end_
  | .regclass .. => .leaf .Regclass nd.pos nd.end_
  | .text .. => .leaf .Text nd.pos nd.end_
  | .bytea .. => .leaf .Bytea nd.pos nd.end_
  | .array ty _ => .node .Array nd.pos nd.end_ [.one .Ty ty.tree]
  | .custom ty => .node .Custom nd.pos nd.end_ [.one .Ty ty.tree]

/-- `Pos`, `End`: operator.go:14-20. -/
def Operator.tree (o : Operator) : Tree := .leaf .Operator o.from_ o.to_
def LongValue.tree (v : LongValue) : Tree := .leaf .LongValue v.from_ v.to_
/-- `Pos`, `End`: ast.go:660-666. -/
def WindowFrameUnit.tree (u : WindowFrameUnit) : Tree := .leaf .WindowFrameUnit u.from_ u.to_
/-- `Pos`, `End`: query.go:670-676. -/
def JoinType.tree (t : JoinType) : Tree := .leaf .JoinType t.from_ t.to_

def FrameBound.tree (nd : FrameBound) : Tree :=
  match nd with
  | .currentRow .. => .leaf .CurrentRow nd.pos nd.end_
  | .unboundedPreceding .. => .leaf .UnboundedPreceding nd.pos nd.end_
  | .unboundedFollowing .. => .leaf .UnboundedFollowing nd.pos nd.end_
  | .preceding .. => .leaf .Preceding nd.pos nd.end_
  | .following .. => .leaf .Following nd.pos nd.end_

def WindowFrame.tree (w : WindowFrame) : Tree :=
  .node .WindowFrame w.pos w.end_ [.one .Units w.units.tree, .one .StartBound w.startBound.tree,
    .opt .EndBound (w.endBound.map FrameBound.tree)]

def SetOp.tree : SetOp → Tree
  | .union f t => .leaf .UnionOperator f t
  | .except f t => .leaf .ExceptOperator f t
  | .intersect f t => .leaf .IntersectOperator f t

/-- `LimitExpr`; `LIMIT ALL` has the flag set and no value. -/
def LimitExpr.tree (l : LimitExpr) : Tree :=
  .mk .LimitExpr ⟨0, l.pos, l.end_⟩ l.count.isNone
    [.opt .LimitValue (l.count.map LongValue.tree), .opt .OffsetValue (l.offset.map LongValue.tree)]

def TimeKind.kind : TimeKind → Kind
  | .Date => .DateValue
  | .Time => .TimeValue
  | .DateTime => .DateTimeValue
  | .Timestamp => .TimestampValue

mutual
def Expr.tree (nd : Expr) : Tree :=
  match nd with
  | .ident i => i.tree
  | .wildcard _ => .leaf .Wildcard nd.pos nd.end_
  | .qualifiedWildcard is => .node .QualifiedWildcard nd.pos nd.end_ [.list .Idents (Ident.trees is)]
  | .compoundIdent is => .node .CompoundIdent nd.pos nd.end_ [.list .Idents (Ident.trees is)]
  | .isNull x => .node .IsNull nd.pos nd.end_ [.one .X x.tree]
  | .isNotNull x => .node .IsNotNull nd.pos nd.end_ [.one .X x.tree]
  | .inList e l _ _ => .node .InList nd.pos nd.end_ [.one .Expr e.tree, .list .List (Expr.trees l)]
  | .inSubQuery e q _ _ => .node .InSubQuery nd.pos nd.end_ [.one .Expr e.tree, .one .SubQuery q.tree]
  | .between e _ l h => .node .Between nd.pos nd.end_ [.one .Expr e.tree, .one .Low l.tree, .one .High h.tree]
  | .binary l o r => .node .BinaryExpr nd.pos nd.end_ [.one .Left l.tree, .one .Op o.tree, .one .Right r.tree]
  | .cast e d _ _ => .node .Cast nd.pos nd.end_ [.one .Expr e.tree, .one .DataType d.tree]
  | .nested e _ _ => .node .Nested nd.pos nd.end_ [.one .AST e.tree]
  | .unary _ o e => .node .UnaryExpr nd.pos nd.end_ [.one .Op o.tree, .one .Expr e.tree]
  | .function n args _ over _ =>
    .node .Function nd.pos nd.end_ [.one .Name n.tree, .list .Args (Expr.trees args), WindowSpec.treeOpt .Over over]
  | .caseExpr _ _ operand conditions results elseResult =>
    .node .CaseExpr nd.pos nd.end_ [Expr.treeOpt .Operand operand, .list .Conditions (Expr.trees conditions),
      .list .Results (Expr.trees results), Expr.treeOpt .ElseResult elseResult]
  | .exists_ _ q _ _ _ => .node .Exists nd.pos nd.end_ [.one .Query q.tree]
  | .subQuery _ _ q => .node .SubQuery nd.pos nd.end_ [.one .Query q.tree]
  | .long v => v.tree
  | .double .. => .leaf .DoubleValue nd.pos nd.end_
  | .singleQuoted .. => .leaf .SingleQuotedString nd.pos nd.end_
  | .national .. => .leaf .NationalStringLiteral nd.pos nd.end_
  | .boolean .. => .leaf .BooleanValue nd.pos nd.end_
  | .null .. => .leaf .NullValue nd.pos nd.end_
  | .timeValue k _ _ _ => .leaf k.kind nd.pos nd.end_
def Expr.treeOpt (f : FName) : Option Expr → FieldVal
  | none => .nil f
  | some e => .one f e.tree
def Expr.trees : List Expr → List Tree
  | [] => []
  | e :: es => e.tree :: Expr.trees es
def WindowSpec.tree (nd : WindowSpec) : Tree :=
  match nd with
  | .mk partitionBy orderBy frame _ _ =>
    .node .WindowSpec nd.pos nd.end_
      [.list .PartitionBy (Expr.trees partitionBy), .list .OrderBy (OrderByExpr.trees orderBy),
      .opt .WindowsFrame (frame.map WindowFrame.tree)]
def WindowSpec.treeOpt (f : FName) : Option WindowSpec → FieldVal
  | none => .nil f
  | some w => .one f w.tree
def OrderByExpr.tree (nd : OrderByExpr) : Tree :=
  match nd with
  | .mk e _ _ => .node .OrderByExpr nd.pos nd.end_ [.one .Expr e.tree]
def OrderByExpr.trees : List OrderByExpr → List Tree
  | [] => []
  | e :: es => e.tree :: OrderByExpr.trees es
def QueryStmt.tree (nd : QueryStmt) : Tree :=
  match nd with
  | .mk _ ctes body orderBy limit =>
    .node .QueryStmt nd.pos nd.end_
      [.list .CTEs (CTE.trees ctes), .one .Body body.tree, .list .OrderBy (OrderByExpr.trees orderBy),
      .opt .Limit (limit.map LimitExpr.tree)]
def CTE.tree (nd : CTE) : Tree :=
  match nd with
  | .mk a q _ => .node .CTE nd.pos nd.end_ [.one .Alias a.tree, .one .Query q.tree]
def CTE.trees : List CTE → List Tree
  | [] => []
  | e :: es => e.tree :: CTE.trees es
def SetExpr.tree (nd : SetExpr) : Tree :=
  match nd with
  | .selectExpr s => .node .SelectExpr nd.pos nd.end_ [.one .Select s.tree]
  | .select s => s.tree
  | .query _ _ q => .node .QueryExpr nd.pos nd.end_ [.one .Query q.tree]
  | .setOp o _ l r => .node .SetOperationExpr nd.pos nd.end_ [.one .Op o.tree, .one .Left l.tree, .one .Right r.tree]
def SQLSelect.tree (nd : SQLSelect) : Tree :=
  match nd with
  | .mk _ projection from_ where_ groupBy having _ =>
    .node .SQLSelect nd.pos nd.end_
      [.list .Projection (SelectItem.trees projection), .list .FromClause (TableRef.trees from_),
      Expr.treeOpt .WhereClause where_, .list .GroupByClause (Expr.trees groupBy),
      Expr.treeOpt .HavingClause having]
def SelectItem.tree (nd : SelectItem) : Tree :=
  match nd with
  | .unnamed e => .node .UnnamedSelectItem nd.pos nd.end_ [.one .Node e.tree]
  | .alias e a => .node .AliasSelectItem nd.pos nd.end_ [.one .Expr e.tree, .one .Alias a.tree]
  | .qualifiedWildcard p => .node .QualifiedWildcardSelectItem nd.pos nd.end_ [.one .Prefix p.tree]
  | .wildcard _ _ => .leaf .WildcardSelectItem nd.pos nd.end_
def SelectItem.trees : List SelectItem → List Tree
  | [] => []
  | e :: es => e.tree :: SelectItem.trees es
def TableFactor.tree (nd : TableFactor) : Tree :=
  match nd with
  | .table n a args _ hints _ =>
    .node .Table nd.pos nd.end_ [.one .Name n.tree, .opt .Alias (a.map Ident.tree), .list .Args (Expr.trees args),
      .list .WithHints (Expr.trees hints)]
  | .derived _ _ _ _ q a => .node .Derived nd.pos nd.end_ [.one .SubQuery q.tree, .opt .Alias (a.map Ident.tree)]
def TableRef.tree (nd : TableRef) : Tree :=
  match nd with
  | .factor f => f.tree
  | .cross r f => .node .CrossJoin nd.pos nd.end_ [.one .Reference r.tree, .one .Factor f.tree]
  | .partitioned f cs _ =>
    .node .PartitionedJoinTable nd.pos nd.end_ [.one .Factor f.tree, .list .ColumnList (Ident.trees cs)]
  | .qualified l t r s =>
    .node .QualifiedJoin nd.pos nd.end_
      [.one .LeftElement (.node .TableJoinElement l.pos l.end_ [.one .Ref l.tree]), .one .Type_ t.tree,
      .one .RightElement (.node .TableJoinElement r.pos r.end_ [.one .Ref r.tree]), .one .Spec s.tree]
  | .natural l t r =>
    .node .NaturalJoin nd.pos nd.end_
      [.one .LeftElement (.node .TableJoinElement l.pos l.end_ [.one .Ref l.tree]), .one .Type_ t.tree,
      .one .RightElement (.node .TableJoinElement r.pos r.end_ [.one .Ref r.tree])]
def TableRef.trees : List TableRef → List Tree
  | [] => []
  | e :: es => e.tree :: TableRef.trees es
def JoinSpec.tree (nd : JoinSpec) : Tree :=
  match nd with
  | .namedColumns cs _ _ => .node .NamedColumnsJoin nd.pos nd.end_ [.list .ColumnList (Ident.trees cs)]
  | .condition e _ => .node .JoinCondition nd.pos nd.end_ [.one .SearchCondition e.tree]
end

/-- `Pos`, `End`: stmt.go:110-116. -/
def RowValueExpr.tree (r : RowValueExpr) : Tree :=
  .node .RowValueExpr r.lparen r.rparen [.list .Values (r.values.map Expr.tree)]

def InsertSource.tree (nd : InsertSource) : Tree :=
  match nd with
  | .subQuery q => .node .SubQuerySource nd.pos nd.end_ [.one .SubQuery q.tree]
  | .constructor _ rows => .node .ConstructorSource nd.pos nd.end_ [.list .Rows (rows.map RowValueExpr.tree)]

def Assignment.tree (a : Assignment) : Tree :=
  .node .Assignment a.pos a.end_ [.one .ID a.id.tree, .one .Value a.value.tree]

def ReferenceKeyExpr.tree (r : ReferenceKeyExpr) : Tree :=
  .node .ReferenceKeyExpr r.pos r.end_ [.one .TableName r.tableName.tree, .list .Columns (Ident.trees r.columns)]

def TableConstraintSpec.tree (nd : TableConstraintSpec) : Tree :=
  match nd with
  | .unique _ _ _ _ cs => .node .UniqueTableConstraint nd.pos nd.end_ [.list .Columns (Ident.trees cs)]
  | .referential _ cs k =>
    .node .ReferentialTableConstraint nd.pos nd.end_ [.list .Columns (Ident.trees cs), .one .KeyExpr k.tree]
  | .check _ _ e => .node .CheckTableConstraint nd.pos nd.end_ [.one .Expr e.tree]

def TableConstraint.tree (c : TableConstraint) : Tree :=
  .node .TableConstraint c.pos c.end_ [.opt .Name (c.name.map Ident.tree), .one .Spec c.spec.tree]

def ColumnSpec.tree (nd : ColumnSpec) : Tree :=
  match nd with
  | .notNull .. => .leaf .NotNullColumnSpec nd.pos nd.end_
  | .unique .. => .leaf .UniqueColumnSpec nd.pos nd.end_
  | .references _ _ t cs =>
    .node .ReferencesColumnSpec nd.pos nd.end_ [.one .TableName t.tree, .list .Columns (Ident.trees cs)]
  | .check e _ _ => .node .CheckColumnSpec nd.pos nd.end_ [.one .Expr e.tree]

def ColumnConstraint.tree (c : ColumnConstraint) : Tree :=
  .node .ColumnConstraint c.pos c.end_ [.opt .Name (c.name.map Ident.tree), .one .Spec c.spec.tree]

/-- `Pos`, `End`: stmt.go:533-539. -/
def AutoIncrement.tree (a : AutoIncrement) : Tree := .leaf .AutoIncrement a.auto a.increment

def ColumnDef.tree (c : ColumnDef) : Tree :=
  .node .ColumnDef c.pos c.end_ [.one .Name c.name.tree, .one .DataType c.dataType.tree,
    .opt .Default (c.default_.map Expr.tree), .list .MyDataTypeDecoration (c.decorations.map AutoIncrement.tree),
    .list .Constraints (c.constraints.map ColumnConstraint.tree)]

def TableElement.tree : TableElement → Tree
  | .constraint c => c.tree
  | .column c => c.tree

def TableOption.tree (nd : TableOption) : Tree :=
  match nd with
  | .engine _ _ n => .node .MyEngine nd.pos nd.end_ [.one .Name n.tree]
  | .charset _ _ _ _ n => .node .MyCharset nd.pos nd.end_ [.one .Name n.tree]

def AlterColumnAction.tree (nd : AlterColumnAction) : Tree :=
  match nd with
  | .setDefault _ e => .node .SetDefaultColumnAction nd.pos nd.end_ [.one .Default e.tree]
  | .dropDefault .. => .leaf .DropDefaultColumnAction nd.pos nd.end_
  | .pgAlterDataType _ d => .node .PGAlterDataTypeColumnAction nd.pos nd.end_ [.one .DataType d.tree]
  | .pgSetNotNull .. => .leaf .PGSetNotNullColumnAction nd.pos nd.end_
  | .pgDropNotNull .. => .leaf .PGDropNotNullColumnAction nd.pos nd.end_

def AlterTableAction.tree (nd : AlterTableAction) : Tree :=
  match nd with
  | .addColumn _ c => .node .AddColumnTableAction nd.pos nd.end_ [.one .Column c.tree]
  | .alterColumn n _ a => .node .AlterColumnTableAction nd.pos nd.end_ [.one .ColumnName n.tree, .one .Action a.tree]
  | .removeColumn n _ _ _ => .node .RemoveColumnTableAction nd.pos nd.end_ [.one .Name n.tree]
  | .addConstraint _ c => .node .AddConstraintTableAction nd.pos nd.end_ [.one .Constraint c.tree]
  | .dropConstraint n _ _ _ => .node .DropConstraintTableAction nd.pos nd.end_ [.one .Name n.tree]

def Stmt.tree (nd : Stmt) : Tree :=
  match nd with
  | .query q => q.tree
  | .insert _ t cs s as =>
    .node .InsertStmt nd.pos nd.end_ [.one .TableName t.tree, .list .Columns (Ident.trees cs), .one .Source s.tree,
      .list .UpdateAssignments (as.map Assignment.tree)]
  | .copy _ t cs _ => .node .CopyStmt nd.pos nd.end_ [.one .TableName t.tree, .list .Columns (Ident.trees cs)]
  | .update _ t as s =>
    .node .UpdateStmt nd.pos nd.end_ [.one .TableName t.tree, .list .Assignments (as.map Assignment.tree),
      .opt .Selection (s.map Expr.tree)]
  | .delete _ t s => .node .DeleteStmt nd.pos nd.end_ [.one .TableName t.tree, .opt .Selection (s.map Expr.tree)]
  | .createView _ n q _ => .node .CreateViewStmt nd.pos nd.end_ [.one .Name n.tree, .one .Query q.tree]
  | .createTable _ n es _ os =>
    .node .CreateTableStmt nd.pos nd.end_ [.one .Name n.tree, .list .Elements (es.map TableElement.tree),
      .list .Options (os.map TableOption.tree)]
  | .alterTable _ t a => .node .AlterTableStmt nd.pos nd.end_ [.one .TableName t.tree, .one .Action a.tree]
  | .dropTable ts _ _ _ _ => .node .DropTableStmt nd.pos nd.end_ [.list .TableNames (ts.map ObjectName.tree)]
  | .createIndex _ t _ i m cs _ s =>
    .node .CreateIndexStmt nd.pos nd.end_ [.one .TableName t.tree, .opt .IndexName (i.map Ident.tree),
      .opt .MethodName (m.map Ident.tree), .list .ColumnNames (Ident.trees cs), .opt .Selection (s.map Expr.tree)]
  | .dropIndex _ is => .node .DropIndexStmt nd.pos nd.end_ [.list .IndexNames (Ident.trees is)]
  | .explain s _ => .node .ExplainStmt nd.pos nd.end_ [.one .Stmt s.tree]

/-- `Pos`, `End`: comment.go:46-52. -/
def Comment.tree (c : Comment) : Tree := .leaf .Comment c.from_ c.to_
def CommentGroup.tree (g : CommentGroup) : Tree :=
  .node .CommentGroup g.pos? g.end? [.list .List (g.list.map Comment.tree)]

def File.tree (f : File) : Tree :=
  .node .File f.pos f.end_ [.list .Stmts (f.stmts.map Stmt.tree), .list .Comments (f.comments.map CommentGroup.tree)]

end Verif
