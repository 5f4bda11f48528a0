import Verif.Model.Ast
/-
Trees up to positions: `erase` replaces every position of a tree by zero.  Two trees are the same up to
positions if their `erase`s are equal.
-/
namespace Verif

def Ident.erase (i : Ident) : Ident := ⟨i.value, Pos.zero, Pos.zero⟩

def ObjectName.erase (o : ObjectName) : ObjectName := ⟨o.idents.map Ident.erase⟩

def DataType.erase : DataType → DataType
  | .char size _ _ _ => .char size Pos.zero Pos.zero Pos.zero
  | .varchar size _ _ _ => .varchar size Pos.zero Pos.zero Pos.zero
  | .uuid _ _ => .uuid Pos.zero Pos.zero
  | .clob size _ _ => .clob size Pos.zero Pos.zero
  | .binary size _ _ => .binary size Pos.zero Pos.zero
  | .varbinary size _ _ => .varbinary size Pos.zero Pos.zero
  | .blob size _ _ => .blob size Pos.zero Pos.zero
  | .decimal precision scale _ _ isUnsigned _ => .decimal precision scale Pos.zero Pos.zero isUnsigned Pos.zero
  | .float size _ _ _ isUnsigned _ => .float size Pos.zero Pos.zero Pos.zero isUnsigned Pos.zero
  | .smallInt _ _ isUnsigned _ => .smallInt Pos.zero Pos.zero isUnsigned Pos.zero
  | .int _ _ isUnsigned _ => .int Pos.zero Pos.zero isUnsigned Pos.zero
  | .bigInt _ _ isUnsigned _ => .bigInt Pos.zero Pos.zero isUnsigned Pos.zero
  | .real _ _ isUnsigned _ => .real Pos.zero Pos.zero isUnsigned Pos.zero
  | .double _ _ => .double Pos.zero Pos.zero
  | .boolean _ _ => .boolean Pos.zero Pos.zero
  | .date _ _ => .date Pos.zero Pos.zero
  | .time _ _ => .time Pos.zero Pos.zero
  | .timestamp withTimeZone _ _ => .timestamp withTimeZone Pos.zero Pos.zero
  | .regclass _ _ => .regclass Pos.zero Pos.zero
  | .text _ _ => .text Pos.zero Pos.zero
  | .bytea _ _ => .bytea Pos.zero Pos.zero
  | .array ty _ => .array ty.erase Pos.zero
  | .custom ty => .custom ty.erase

def Operator.erase (o : Operator) : Operator := ⟨o.type, Pos.zero, Pos.zero⟩

def LongValue.erase (l : LongValue) : LongValue := ⟨Pos.zero, Pos.zero, l.long⟩

def WindowFrameUnit.erase (u : WindowFrameUnit) : WindowFrameUnit := ⟨Pos.zero, Pos.zero, u.type⟩

def FrameBound.erase : FrameBound → FrameBound
  | .currentRow _ _ => .currentRow Pos.zero Pos.zero
  | .unboundedPreceding _ _ => .unboundedPreceding Pos.zero Pos.zero
  | .unboundedFollowing _ _ => .unboundedFollowing Pos.zero Pos.zero
  | .preceding b _ _ => .preceding b Pos.zero Pos.zero
  | .following b _ _ => .following b Pos.zero Pos.zero

def WindowFrame.erase (f : WindowFrame) : WindowFrame :=
  ⟨f.units.erase, f.startBound.erase, f.endBound.map FrameBound.erase⟩

def JoinType.erase (j : JoinType) : JoinType := ⟨j.cond, Pos.zero, Pos.zero⟩

def SetOp.erase : SetOp → SetOp
  | .union _ _ => .union Pos.zero Pos.zero
  | .except _ _ => .except Pos.zero Pos.zero
  | .intersect _ _ => .intersect Pos.zero Pos.zero

def LimitExpr.erase (l : LimitExpr) : LimitExpr :=
  ⟨l.count.map LongValue.erase, Pos.zero, Pos.zero, l.offset.map LongValue.erase⟩

mutual

def Expr.erase : Expr → Expr
  | .ident i => .ident i.erase
  | .wildcard _ => .wildcard Pos.zero
  | .qualifiedWildcard is => .qualifiedWildcard (is.map Ident.erase)
  | .compoundIdent is => .compoundIdent (is.map Ident.erase)
  | .isNull x => .isNull x.erase
  | .isNotNull x => .isNotNull x.erase
  | .inList e l neg _ => .inList e.erase (Expr.erases l) neg Pos.zero
  | .inSubQuery e q neg _ => .inSubQuery e.erase q.erase neg Pos.zero
  | .between e neg low high => .between e.erase neg low.erase high.erase
  | .binary l op r => .binary l.erase op.erase r.erase
  | .cast e ty _ _ => .cast e.erase ty.erase Pos.zero Pos.zero
  | .nested e _ _ => .nested e.erase Pos.zero Pos.zero
  | .unary _ op e => .unary Pos.zero op.erase e.erase
  | .function name args _ over _ =>
    .function name.erase (Expr.erases args) Pos.zero (WindowSpec.eraseOpt over) Pos.zero
  | .caseExpr _ _ operand conds results else_ =>
    .caseExpr Pos.zero Pos.zero (Expr.eraseOpt operand) (Expr.erases conds) (Expr.erases results)
      (Expr.eraseOpt else_)
  | .exists_ neg q _ _ _ => .exists_ neg q.erase Pos.zero Pos.zero Pos.zero
  | .subQuery _ _ q => .subQuery Pos.zero Pos.zero q.erase
  | .long v => .long v.erase
  | .double _ _ v => .double Pos.zero Pos.zero v
  | .singleQuoted _ _ s => .singleQuoted Pos.zero Pos.zero s
  | .national _ _ s => .national Pos.zero Pos.zero s
  | .boolean _ _ b => .boolean Pos.zero Pos.zero b
  | .null _ _ => .null Pos.zero Pos.zero
  | .timeValue kind _ _ text => .timeValue kind Pos.zero Pos.zero text

def Expr.eraseOpt : Option Expr → Option Expr
  | none => none
  | some e => some e.erase

def Expr.erases : List Expr → List Expr
  | [] => []
  | e :: es => e.erase :: Expr.erases es

def WindowSpec.erase : WindowSpec → WindowSpec
  | .mk partitionBy orderBy frame _ _ =>
    .mk (Expr.erases partitionBy) (OrderByExpr.erases orderBy) (frame.map WindowFrame.erase) Pos.zero Pos.zero

def WindowSpec.eraseOpt : Option WindowSpec → Option WindowSpec
  | none => none
  | some w => some w.erase

def OrderByExpr.erase : OrderByExpr → OrderByExpr
  | .mk e _ asc => .mk e.erase Pos.zero asc

def OrderByExpr.erases : List OrderByExpr → List OrderByExpr
  | [] => []
  | e :: es => e.erase :: OrderByExpr.erases es

def QueryStmt.erase : QueryStmt → QueryStmt
  | .mk _ ctes body orderBy limit =>
    .mk Pos.zero (CTE.erases ctes) body.erase (OrderByExpr.erases orderBy) (limit.map LimitExpr.erase)

def CTE.erase : CTE → CTE
  | .mk alias q _ => .mk alias.erase q.erase Pos.zero

def CTE.erases : List CTE → List CTE
  | [] => []
  | e :: es => e.erase :: CTE.erases es

def SetExpr.erase : SetExpr → SetExpr
  | .selectExpr s => .selectExpr s.erase
  | .select s => .select s.erase
  | .query _ _ q => .query Pos.zero Pos.zero q.erase
  | .setOp op all l r => .setOp op.erase all l.erase r.erase

def SQLSelect.erase : SQLSelect → SQLSelect
  | .mk distinct projection from_ where_ groupBy having _ =>
    .mk distinct (SelectItem.erases projection) (TableRef.erases from_) (Expr.eraseOpt where_)
      (Expr.erases groupBy) (Expr.eraseOpt having) Pos.zero

def SelectItem.erase : SelectItem → SelectItem
  | .unnamed e => .unnamed e.erase
  | .alias e a => .alias e.erase a.erase
  | .qualifiedWildcard p => .qualifiedWildcard p.erase
  | .wildcard _ _ => .wildcard Pos.zero Pos.zero

def SelectItem.erases : List SelectItem → List SelectItem
  | [] => []
  | e :: es => e.erase :: SelectItem.erases es

def TableFactor.erase : TableFactor → TableFactor
  | .table name alias args _ withHints _ =>
    .table name.erase (alias.map Ident.erase) (Expr.erases args) Pos.zero (Expr.erases withHints) Pos.zero
  | .derived lateral _ _ _ q alias =>
    .derived lateral Pos.zero Pos.zero Pos.zero q.erase (alias.map Ident.erase)

def TableRef.erase : TableRef → TableRef
  | .factor f => .factor f.erase
  | .cross l f => .cross l.erase f.erase
  | .partitioned f cols _ => .partitioned f.erase (cols.map Ident.erase) Pos.zero
  | .qualified l ty r spec => .qualified l.erase ty.erase r.erase spec.erase
  | .natural l ty r => .natural l.erase ty.erase r.erase

def TableRef.erases : List TableRef → List TableRef
  | [] => []
  | e :: es => e.erase :: TableRef.erases es

def JoinSpec.erase : JoinSpec → JoinSpec
  | .namedColumns cols _ _ => .namedColumns (cols.map Ident.erase) Pos.zero Pos.zero
  | .condition e _ => .condition e.erase Pos.zero

end

def RowValueExpr.erase (r : RowValueExpr) : RowValueExpr := ⟨Expr.erases r.values, Pos.zero, Pos.zero⟩

def InsertSource.erase : InsertSource → InsertSource
  | .subQuery q => .subQuery q.erase
  | .constructor _ rows => .constructor Pos.zero (rows.map RowValueExpr.erase)

def Assignment.erase (a : Assignment) : Assignment := ⟨a.id.erase, a.value.erase⟩

def ReferenceKeyExpr.erase (r : ReferenceKeyExpr) : ReferenceKeyExpr :=
  ⟨r.tableName.erase, r.columns.map Ident.erase, Pos.zero⟩

def TableConstraintSpec.erase : TableConstraintSpec → TableConstraintSpec
  | .unique isPrimary _ _ _ cols => .unique isPrimary Pos.zero Pos.zero Pos.zero (cols.map Ident.erase)
  | .referential _ cols key => .referential Pos.zero (cols.map Ident.erase) key.erase
  | .check _ _ e => .check Pos.zero Pos.zero e.erase

def TableConstraint.erase (t : TableConstraint) : TableConstraint :=
  ⟨Pos.zero, t.name.map Ident.erase, t.spec.erase⟩

def ColumnSpec.erase : ColumnSpec → ColumnSpec
  | .notNull _ _ => .notNull Pos.zero Pos.zero
  | .unique isPrimaryKey _ _ _ => .unique isPrimaryKey Pos.zero Pos.zero Pos.zero
  | .references _ _ name cols => .references Pos.zero Pos.zero name.erase (cols.map Ident.erase)
  | .check e _ _ => .check e.erase Pos.zero Pos.zero

def ColumnConstraint.erase (c : ColumnConstraint) : ColumnConstraint :=
  ⟨c.name.map Ident.erase, Pos.zero, c.spec.erase⟩

def AutoIncrement.erase (_ : AutoIncrement) : AutoIncrement := ⟨Pos.zero, Pos.zero⟩

def ColumnDef.erase (c : ColumnDef) : ColumnDef :=
  ⟨c.name.erase, c.dataType.erase, c.default_.map Expr.erase, c.decorations.map AutoIncrement.erase,
    c.constraints.map ColumnConstraint.erase⟩

def TableElement.erase : TableElement → TableElement
  | .constraint c => .constraint c.erase
  | .column c => .column c.erase

def TableOption.erase : TableOption → TableOption
  | .engine _ equal name => .engine Pos.zero equal name.erase
  | .charset isDefault _ _ equal name => .charset isDefault Pos.zero Pos.zero equal name.erase

def AlterColumnAction.erase : AlterColumnAction → AlterColumnAction
  | .setDefault _ e => .setDefault Pos.zero e.erase
  | .dropDefault _ _ => .dropDefault Pos.zero Pos.zero
  | .pgAlterDataType _ ty => .pgAlterDataType Pos.zero ty.erase
  | .pgSetNotNull _ _ => .pgSetNotNull Pos.zero Pos.zero
  | .pgDropNotNull _ _ => .pgDropNotNull Pos.zero Pos.zero

def AlterTableAction.erase : AlterTableAction → AlterTableAction
  | .addColumn _ c => .addColumn Pos.zero c.erase
  | .alterColumn name _ action => .alterColumn name.erase Pos.zero action.erase
  | .removeColumn name cascade _ _ => .removeColumn name.erase cascade Pos.zero Pos.zero
  | .addConstraint _ c => .addConstraint Pos.zero c.erase
  | .dropConstraint name _ cascade _ => .dropConstraint name.erase Pos.zero cascade Pos.zero

def Stmt.erase : Stmt → Stmt
  | .query q => .query q.erase
  | .insert _ name cols source assignments =>
    .insert Pos.zero name.erase (cols.map Ident.erase) source.erase (assignments.map Assignment.erase)
  | .copy _ name cols values => .copy Pos.zero name.erase (cols.map Ident.erase) values
  | .update _ name assignments selection =>
    .update Pos.zero name.erase (assignments.map Assignment.erase) (selection.map Expr.erase)
  | .delete _ name selection => .delete Pos.zero name.erase (selection.map Expr.erase)
  | .createView _ name q materialized => .createView Pos.zero name.erase q.erase materialized
  | .createTable _ name elements notExists options =>
    .createTable Pos.zero name.erase (elements.map TableElement.erase) notExists
      (options.map TableOption.erase)
  | .alterTable _ name action => .alterTable Pos.zero name.erase action.erase
  | .dropTable names cascade _ ifExists _ =>
    .dropTable (names.map ObjectName.erase) cascade Pos.zero ifExists Pos.zero
  | .createIndex _ name isUnique indexName methodName cols _ selection =>
    .createIndex Pos.zero name.erase isUnique (indexName.map Ident.erase) (methodName.map Ident.erase)
      (cols.map Ident.erase) Pos.zero (selection.map Expr.erase)
  | .dropIndex _ names => .dropIndex Pos.zero (names.map Ident.erase)
  | .explain s _ => .explain s.erase Pos.zero

end Verif
