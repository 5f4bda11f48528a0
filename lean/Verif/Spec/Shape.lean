import Verif.Spec.WellFormed
/-
`wf` (WellFormed.lean) split in two: `shape`, the conditions that relate parts of a tree to each other, which
every tree the parser returns satisfies, and `plain`, conditions on single names, literals and clauses, which
say that the printer writes them in a way the parser reads back.  `shape` is relative to a property `I` of
identifiers.  Nothing here refers to the parser or the printer.
-/
namespace Verif

/-- The identifier has the form of a word: quoted, or made of identifier characters. -/
def spelled (d : Dialect) (v : Str) : Bool :=
  match v with
  | [] => false
  | q :: rest =>
    if q = '"' ∨ q = '[' ∨ q = '`' then
      d.isDelimStart q && rest.getLast? == some (matchingEndQuote q) && !rest.dropLast.contains (matchingEndQuote q)
    else (q == 'N' || d.isIdentStart q) && rest.all d.isIdentPart

/-- The identifier, without its quotes, is no keyword but for those that may serve as names. -/
def plainWord (v : Str) : Bool :=
  match v with
  | [] => false
  | q :: rest => if q = '"' ∨ q = '[' ∨ q = '`' then identOK.noKeyword rest.dropLast else identOK.noKeyword v

/-- The keywords that are never looked for where the grammar has a name, be it the alias of a table or column without AS. -/
def KW.free : KW → Bool
  | .ADD | .ALL | .ALTER | .ASC | .AUTO_INCREMENT | .BIGINT | .BOOLEAN | .BY | .BYTEA | .CASCADE | .CHAR | .CHARACTER
  | .CHARSET | .COLUMN | .CREATE | .CURRENT | .DATE | .DEFAULT | .DELETE | .DESC | .DOUBLE | .DROP | .DUPLICATE | .ELSE | .END
  | .ENGINE | .EXPLAIN | .FLOAT | .FOLLOWING | .GROUPS | .HAVING | .INDEX | .INSERT | .INT | .INTEGER | .INTO | .KEY | .LIMIT
  | .MATERIALIZED | .NUMERIC | .OFFSET | .OUTER | .PARTITION | .PRECEDING | .PRECISION | .RANGE | .REAL | .REFERENCES | .REGCLASS
  | .ROW | .ROWS | .SET | .SMALLINT | .TABLE | .TEXT | .THEN | .TIME | .TIMESTAMP | .TYPE | .UNBOUNDED | .UPDATE
  | .UUID | .VALUES | .VARCHAR | .VIEW | .ZONE => true
  | _ => false

/-- The identifier, without its quotes, is no keyword but for these. -/
def freeWord (v : Str) : Bool :=
  match v with
  | [] => false
  | q :: rest => if q = '"' ∨ q = '[' ∨ q = '`' then noKeyword rest.dropLast else noKeyword v
where
  noKeyword (w : Str) : Bool :=
    match kwOf (upper w) with
    | some k => k.free && equalFold w k.str
    | none => KW.all.all fun k => !equalFold w k.str

/-! ### Shape -/

def identsShape (I : Str → Bool) (is : List Ident) : Bool := !is.isEmpty && is.all fun i => I i.value
def ObjectName.shape (I : Str → Bool) (o : ObjectName) : Bool := identsShape I o.idents
def optIdentShape (I : Str → Bool) : Option Ident → Bool
  | some i => I i.value
  | none => true

def DataType.shape (I : Str → Bool) : DataType → Bool
  | .char size _ _ _ => sizeOptOK size
  | .varchar size _ _ _ => sizeOptOK size
  | .decimal precision scale _ _ _ _ => precision.isSome && sizeOptOK precision && sizeOptOK scale
  | .float size _ _ _ _ _ => sizeOptOK size
  | .array ty _ => match ty with
    | .text _ _ => true
    | _ => false
  | .custom ty => ty.shape I
  | .clob _ _ _ => false
  | .binary _ _ _ => false
  | .varbinary _ _ _ => false
  | .blob _ _ _ => false
  | _ => true

mutual

def Expr.shape (I : Str → Bool) : Expr → Bool
  | .ident i => I i.value
  | .wildcard _ => true
  | .qualifiedWildcard is => identsShape I is
  | .compoundIdent is => identsShape I is && 2 ≤ is.length
  | .isNull x => x.shape I && 17 ≤ x.rp
  | .isNotNull x => x.shape I && 17 ≤ x.rp
  | .inList x l neg _ => x.shape I && inLevel neg ≤ x.rp && !l.isEmpty && Expr.shapes I l
  | .inSubQuery x q neg _ => x.shape I && inLevel neg ≤ x.rp && q.shape I && q.startsSelect
  | .between x neg low high => x.shape I && inLevel neg ≤ x.rp && low.shape I && low.isPrefix && 10 ≤ low.rp &&
    high.shape I && high.isPrefix
  | .binary l op r => l.shape I && r.shape I && 0 < op.type.level && op.type.level ≤ l.rp && op.type.level < r.lp
  | .cast e ty _ _ => e.shape I && ty.shape I
  | .nested e _ _ => e.shape I
  | .unary _ op e => e.shape I && (match op.type with
    | .Plus => 30 < e.lp
    | .Minus => 30 < e.lp
    | .Not => 15 < e.lp && !e.startsExists
    | _ => false)
  | .function name args _ over _ => name.shape I && Expr.shapes I args && WindowSpec.shapeO I over
  | .caseExpr _ _ operand conds results else_ => Expr.shapeO I operand && !conds.isEmpty &&
    conds.length == results.length && Expr.shapes I conds && Expr.shapes I results && Expr.shapeO I else_
  | .exists_ _ q _ _ _ => q.shape I
  | .subQuery _ _ q => q.shape I && q.startsSelect
  | .long v => longOK v
  | .double _ _ _ => true
  | .singleQuoted _ _ _ => true
  | .national _ _ _ => true
  | .boolean _ _ _ => true
  | .null _ _ => true
  | .timeValue _ _ _ _ => false

def Expr.shapeO (I : Str → Bool) : Option Expr → Bool
  | some e => e.shape I
  | none => true

def Expr.shapes (I : Str → Bool) : List Expr → Bool
  | [] => true
  | e :: es => e.shape I && Expr.shapes I es

def WindowSpec.shapeO (I : Str → Bool) : Option WindowSpec → Bool
  | some w => w.shape I
  | none => true

def WindowSpec.shape (I : Str → Bool) : WindowSpec → Bool
  | .mk partitionBy orderBy frame _ _ =>
    Expr.shapes I partitionBy && OrderByExpr.shapes I orderBy && (match frame with
      | some f => f.wf
      | none => true)

def OrderByExpr.shape (I : Str → Bool) : OrderByExpr → Bool
  | .mk e _ _ => e.shape I

def OrderByExpr.shapes (I : Str → Bool) : List OrderByExpr → Bool
  | [] => true
  | e :: es => e.shape I && OrderByExpr.shapes I es

def QueryStmt.shape (I : Str → Bool) : QueryStmt → Bool
  | .mk _ ctes body orderBy limit =>
    CTE.shapes I ctes && body.shape I && OrderByExpr.shapes I orderBy && (match limit with
      | some l => l.wf && (!orderBy.isEmpty || body.edge == .closed)
      | none => true)

def CTE.shape (I : Str → Bool) : CTE → Bool
  | .mk alias q _ => I alias.value && q.shape I

def CTE.shapes (I : Str → Bool) : List CTE → Bool
  | [] => true
  | e :: es => e.shape I && CTE.shapes I es

def SetExpr.shape (I : Str → Bool) : SetExpr → Bool
  | .selectExpr _ => false
  | .select s => s.shape I
  | .query _ _ q => q.shape I
  | .setOp op _ l r => l.shape I && r.shape I && op.level ≤ l.rp && op.level < r.lp

def SQLSelect.shape (I : Str → Bool) : SQLSelect → Bool
  | .mk _ projection from_ where_ groupBy having _ =>
    !projection.isEmpty && SelectItem.shapes I projection && TableRef.shapes I from_ && Expr.shapeO I where_ &&
    Expr.shapes I groupBy && Expr.shapeO I having &&
    (having.isNone || where_.isSome || !groupBy.isEmpty || fromEdge projection from_ == .closed)

def SelectItem.shape (I : Str → Bool) : SelectItem → Bool
  | .unnamed e => e.shape I && (match e with
    | .qualifiedWildcard _ => false
    | _ => true)
  | .alias e a => e.shape I && I a.value && (match e with
    | .qualifiedWildcard _ => false
    | _ => true)
  | .qualifiedWildcard p => p.shape I
  | .wildcard _ _ => false

def SelectItem.shapes (I : Str → Bool) : List SelectItem → Bool
  | [] => true
  | e :: es => e.shape I && SelectItem.shapes I es

def TableFactor.shape (I : Str → Bool) : TableFactor → Bool
  | .table name alias args _ hints _ => name.shape I && optIdentShape I alias && Expr.shapes I args &&
    Expr.shapes I hints
  | .derived _ _ _ _ q alias => q.shape I && optIdentShape I alias

def TableRef.shape (I : Str → Bool) : TableRef → Bool
  | .factor f => f.shape I
  | .cross l f => l.shape I && (match l with
    | .factor _ => true
    | _ => false) && f.shape I
  | .partitioned _ _ _ => false
  | .qualified l _ r spec => l.shape I && l.open_ && r.shape I && spec.shape I
  | .natural l _ r => l.shape I && l.open_ && r.shape I

def TableRef.shapes (I : Str → Bool) : List TableRef → Bool
  | [] => true
  | e :: es => e.shape I && TableRef.shapes I es

def JoinSpec.shape (I : Str → Bool) : JoinSpec → Bool
  | .namedColumns cols _ _ => identsShape I cols
  | .condition e _ => e.shape I

end

def RowValueExpr.shape (I : Str → Bool) (r : RowValueExpr) : Bool :=
  !r.values.isEmpty && Expr.shapes I r.values

def InsertSource.shape (I : Str → Bool) : InsertSource → Bool
  | .subQuery q => q.shape I
  | .constructor _ rows => !rows.isEmpty && rows.all (RowValueExpr.shape I)

def Assignment.shape (I : Str → Bool) (a : Assignment) : Bool := I a.id.value && a.value.shape I

def TableConstraintSpec.shape (I : Str → Bool) : TableConstraintSpec → Bool
  | .unique _ _ _ _ cols => identsShape I cols
  | .referential _ cols key => identsShape I cols && I key.tableName.value && key.columns.all fun i => I i.value
  | .check _ _ e => e.shape I

def TableConstraint.shape (I : Str → Bool) (t : TableConstraint) : Bool :=
  optIdentShape I t.name && t.spec.shape I

def ColumnSpec.shape (I : Str → Bool) : ColumnSpec → Bool
  | .references _ _ name cols => name.shape I && identsShape I cols
  | .check e _ _ => e.shape I
  | _ => true

def ColumnConstraint.shape (I : Str → Bool) (c : ColumnConstraint) : Bool :=
  optIdentShape I c.name && c.spec.shape I

def ColumnDef.shape (I : Str → Bool) (c : ColumnDef) : Bool :=
  I c.name.value && c.dataType.shape I && c.constraints.all (ColumnConstraint.shape I) &&
  (match c.default_ with
    | some e => e.shape I && e.defaultOK
    | none => true)

def TableElement.shape (I : Str → Bool) : TableElement → Bool
  | .constraint c => c.shape I
  | .column c => c.shape I

def TableOption.shape (I : Str → Bool) : TableOption → Bool
  | .engine _ _ name => I name.value
  | .charset _ _ _ _ name => I name.value

def AlterColumnAction.shape (I : Str → Bool) : AlterColumnAction → Bool
  | .setDefault _ e => e.shape I && e.defaultOK
  | .pgAlterDataType _ ty => ty.shape I
  | _ => true

def AlterTableAction.shape (I : Str → Bool) : AlterTableAction → Bool
  | .addColumn _ c => c.shape I
  | .alterColumn name _ action => I name.value && action.shape I
  | .removeColumn name _ _ _ => I name.value
  | .addConstraint _ c => c.shape I
  | .dropConstraint name _ _ _ => I name.value

def Stmt.shape (I : Str → Bool) : Stmt → Bool
  | .query q => q.shape I && q.startsSelect
  | .insert _ name cols source assigns =>
    name.shape I && (cols.isEmpty || identsShape I cols) && source.shape I && assigns.all (Assignment.shape I) &&
    (match source with
      | .subQuery q => (!cols.isEmpty || q.startsSelect) && (assigns.isEmpty || q.edge != .col)
      | .constructor _ _ => true)
  | .copy _ _ _ _ => false
  | .update _ name assigns selection =>
    name.shape I && !assigns.isEmpty && assigns.all (Assignment.shape I) && Expr.shapeO I selection
  | .delete _ name selection => name.shape I && Expr.shapeO I selection
  | .createView _ name q materialized => name.shape I && q.shape I && !materialized
  | .createTable _ name elements _ options =>
    name.shape I && elements.all (TableElement.shape I) && options.all (TableOption.shape I)
  | .alterTable _ name action => name.shape I && action.shape I
  | .dropTable names _ _ _ _ => names.length == 1 && names.all (ObjectName.shape I)
  | .createIndex _ name _ indexName methodName cols _ selection =>
    name.shape I && optIdentShape I indexName && optIdentShape I methodName && (cols.all fun i => I i.value) &&
    Expr.shapeO I selection
  | .dropIndex _ names => identsShape I names
  | .explain s _ => s.shape I

/-! ### Plainness -/

def identsPlain (is : List Ident) : Bool := is.all fun i => plainWord i.value
def ObjectName.plain (o : ObjectName) : Bool := identsPlain o.idents
def optIdentPlain : Option Ident → Bool
  | some i => plainWord i.value
  | none => true

def DataType.plain : DataType → Bool
  | .custom ty => ty.plain && ty.noType
  | _ => true

mutual

def Expr.plain (fns : FloatFns) : Expr → Bool
  | .ident i => plainWord i.value
  | .wildcard _ => true
  | .qualifiedWildcard is => identsPlain is
  | .compoundIdent is => identsPlain is
  | .isNull x => x.plain fns
  | .isNotNull x => x.plain fns
  | .inList x l _ _ => x.plain fns && Expr.plains fns l
  | .inSubQuery x q _ _ => x.plain fns && q.plain fns
  | .between x _ low high => x.plain fns && low.plain fns && high.plain fns
  | .binary l _ r => l.plain fns && r.plain fns
  | .cast e ty _ _ => e.plain fns && ty.plain
  | .nested e _ _ => e.plain fns
  | .unary _ _ e => e.plain fns
  | .function name args _ over _ => name.plain && Expr.plains fns args && WindowSpec.plainO fns over
  | .caseExpr _ _ operand conds results else_ => Expr.plainO fns operand &&
    Expr.plains fns conds && Expr.plains fns results && Expr.plainO fns else_
  | .exists_ _ q _ _ _ => q.plain fns
  | .subQuery _ _ q => q.plain fns
  | .long _ => true
  | .double _ _ v => floatOK fns v
  | .singleQuoted _ _ s => !s.contains '\''
  | .national _ _ s => !s.contains '\''
  | .boolean _ _ _ => true
  | .null _ _ => true
  | .timeValue _ _ _ _ => true

def Expr.plainO (fns : FloatFns) : Option Expr → Bool
  | some e => e.plain fns
  | none => true

def Expr.plains (fns : FloatFns) : List Expr → Bool
  | [] => true
  | e :: es => e.plain fns && Expr.plains fns es

def WindowSpec.plainO (fns : FloatFns) : Option WindowSpec → Bool
  | some w => w.plain fns
  | none => true

def WindowSpec.plain (fns : FloatFns) : WindowSpec → Bool
  | .mk partitionBy orderBy _ _ _ => Expr.plains fns partitionBy && OrderByExpr.plains fns orderBy

def OrderByExpr.plain (fns : FloatFns) : OrderByExpr → Bool
  | .mk e _ _ => e.plain fns

def OrderByExpr.plains (fns : FloatFns) : List OrderByExpr → Bool
  | [] => true
  | e :: es => e.plain fns && OrderByExpr.plains fns es

def QueryStmt.plain (fns : FloatFns) : QueryStmt → Bool
  | .mk _ ctes body orderBy _ => CTE.plains fns ctes && body.plain fns && OrderByExpr.plains fns orderBy

def CTE.plain (fns : FloatFns) : CTE → Bool
  | .mk alias q _ => plainWord alias.value && q.plain fns

def CTE.plains (fns : FloatFns) : List CTE → Bool
  | [] => true
  | e :: es => e.plain fns && CTE.plains fns es

def SetExpr.plain (fns : FloatFns) : SetExpr → Bool
  | .selectExpr _ => true
  | .select s => s.plain fns
  | .query _ _ q => q.plain fns
  | .setOp _ _ l r => l.plain fns && r.plain fns

def SQLSelect.plain (fns : FloatFns) : SQLSelect → Bool
  | .mk _ projection from_ where_ groupBy having _ =>
    SelectItem.plains fns projection && TableRef.plains fns from_ && Expr.plainO fns where_ &&
    Expr.plains fns groupBy && Expr.plainO fns having

def SelectItem.plain (fns : FloatFns) : SelectItem → Bool
  | .unnamed e => e.plain fns
  | .alias e a => e.plain fns && plainWord a.value
  | .qualifiedWildcard p => p.plain
  | .wildcard _ _ => true

def SelectItem.plains (fns : FloatFns) : List SelectItem → Bool
  | [] => true
  | e :: es => e.plain fns && SelectItem.plains fns es

def TableFactor.plain (fns : FloatFns) : TableFactor → Bool
  | .table name alias args _ hints _ => name.plain && optIdentPlain alias && args.isEmpty && Expr.plains fns hints
  | .derived _ _ _ _ q alias => q.plain fns && optIdentPlain alias

def TableRef.plain (fns : FloatFns) : TableRef → Bool
  | .factor f => f.plain fns
  | .cross l f => l.plain fns && f.plain fns
  | .partitioned _ _ _ => true
  | .qualified l _ r spec => l.plain fns && r.plain fns && spec.plain fns
  | .natural l _ r => l.plain fns && r.plain fns

def TableRef.plains (fns : FloatFns) : List TableRef → Bool
  | [] => true
  | e :: es => e.plain fns && TableRef.plains fns es

def JoinSpec.plain (fns : FloatFns) : JoinSpec → Bool
  | .namedColumns cols _ _ => identsPlain cols
  | .condition e _ => e.plain fns

end

def RowValueExpr.plain (fns : FloatFns) (r : RowValueExpr) : Bool :=
  Expr.plains fns r.values

def InsertSource.plain (fns : FloatFns) : InsertSource → Bool
  | .subQuery q => q.plain fns
  | .constructor _ rows => rows.all (RowValueExpr.plain fns)

def Assignment.plain (fns : FloatFns) (a : Assignment) : Bool := plainWord a.id.value && a.value.plain fns

def TableConstraintSpec.plain (fns : FloatFns) : TableConstraintSpec → Bool
  | .unique _ _ _ _ cols => identsPlain cols
  | .referential _ cols key =>
    identsPlain cols && plainWord key.tableName.value && !key.columns.isEmpty && identsPlain key.columns
  | .check _ _ e => e.plain fns

def TableConstraint.plain (fns : FloatFns) (t : TableConstraint) : Bool :=
  optIdentPlain t.name && t.spec.plain fns

def ColumnSpec.plain (fns : FloatFns) : ColumnSpec → Bool
  | .references _ _ name cols => name.plain && identsPlain cols
  | .check e _ _ => e.plain fns
  | _ => true

def ColumnConstraint.plain (fns : FloatFns) (c : ColumnConstraint) : Bool :=
  optIdentPlain c.name && c.spec.plain fns

def ColumnDef.plain (fns : FloatFns) (c : ColumnDef) : Bool :=
  plainWord c.name.value && c.dataType.plain && c.constraints.all (ColumnConstraint.plain fns) &&
  (match c.default_ with
    | some e => e.plain fns && (!startsNot c.constraints || !c.decorations.isEmpty || 15 ≤ e.rp)
    | none => true)

def TableElement.plain (fns : FloatFns) : TableElement → Bool
  | .constraint c => c.plain fns
  | .column c => c.plain fns

def TableOption.plain : TableOption → Bool
  | .engine _ _ name => plainWord name.value
  | .charset _ _ _ _ name => plainWord name.value

def AlterColumnAction.plain (fns : FloatFns) : AlterColumnAction → Bool
  | .setDefault _ e => e.plain fns
  | .pgAlterDataType _ ty => ty.plain
  | _ => true

def AlterTableAction.plain (fns : FloatFns) : AlterTableAction → Bool
  | .addColumn _ c => c.plain fns
  | .alterColumn name _ action => plainWord name.value && action.plain fns
  | .removeColumn name _ _ _ => plainWord name.value
  | .addConstraint _ c => c.plain fns
  | .dropConstraint name _ _ _ => plainWord name.value

def Stmt.plain (fns : FloatFns) : Stmt → Bool
  | .query q => q.plain fns
  | .insert _ name cols source assigns =>
    name.plain && identsPlain cols && source.plain fns && assigns.all (Assignment.plain fns)
  | .copy _ _ _ _ => true
  | .update _ name assigns selection =>
    name.plain && assigns.all (Assignment.plain fns) && Expr.plainO fns selection
  | .delete _ name selection => name.plain && Expr.plainO fns selection
  | .createView _ name q _ => name.plain && q.plain fns
  | .createTable _ name elements _ options =>
    name.plain && !elements.isEmpty && elements.all (TableElement.plain fns) && options.length ≤ 1 &&
    options.all TableOption.plain
  | .alterTable _ name action => name.plain && action.plain fns
  | .dropTable names _ _ _ _ => names.all ObjectName.plain
  | .createIndex _ name _ indexName methodName cols _ selection =>
    name.plain && optIdentPlain indexName && optIdentPlain methodName && !cols.isEmpty && identsPlain cols &&
    Expr.plainO fns selection
  | .dropIndex _ names => identsPlain names
  | .explain s _ => s.plain fns

end Verif
