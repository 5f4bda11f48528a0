import Verif.Model.Ast
import Verif.Model.Kw
import Verif.Model.Dialect
import Verif.Model.Tokenizer
/-
Which syntax trees survive printing and parsing: the operator levels, and conditions on each node type.
Nothing here refers to the parser or the printer.

`lp` and `rp` are the levels of the weakest operator on the left and right edge of an expression that is not
shut off by a bracket or keyword: an operator of level `q` may stand to the right of `e` only if `q ≤ rp e`,
and `e` may be the right operand of an operator of level `q` only if `q < lp e`.
-/
namespace Verif

/-- The keywords that cannot serve as names: those with which an expression, an element of a table definition, a table in FROM or a
subquery can begin, and DISTINCT, ON and WHEN, for which the parser looks where a name may stand too. -/
def KW.hard : KW → Bool
  | .TRUE | .FALSE | .NULL | .CASE | .CAST | .EXISTS | .NOT | .DISTINCT | .CONSTRAINT | .PRIMARY | .CHECK | .FOREIGN
  | .UNIQUE | .LATERAL | .SELECT | .WITH | .ON | .WHEN => true
  | _ => false
/-- The others may. -/
def KW.soft (k : KW) : Bool := !k.hard

/-- The text of an identifier: quoted, or made of identifier characters; and no keyword, whatever the case, but for
those that may serve as names (quoted words that spell a keyword are taken for the keyword, see C12). -/
def identOK (d : Dialect) (v : Str) : Bool :=
  match v with
  | [] => false
  | q :: rest =>
    if q = '"' ∨ q = '[' ∨ q = '`' then
      d.isDelimStart q && rest.getLast? == some (matchingEndQuote q) && !rest.dropLast.contains (matchingEndQuote q)
        && noKeyword rest.dropLast
    else (q == 'N' || d.isIdentStart q) && rest.all d.isIdentPart && noKeyword v
where
  noKeyword (w : Str) : Bool :=
    match kwOf (upper w) with
    | some k => k.soft && equalFold w k.str
    | none => KW.all.all fun k => !equalFold w k.str

/-- The keywords that are the name of a type or begin one. -/
def KW.beginsType : KW → Bool
  | .BOOLEAN | .FLOAT | .REAL | .DOUBLE | .SMALLINT | .INTEGER | .INT | .BIGINT | .VARCHAR | .CHAR | .CHARACTER
  | .UUID | .DATE | .TIMESTAMP | .TIME | .REGCLASS | .TEXT | .BYTEA | .NUMERIC => true
  | _ => false

/-- The keyword that the text of an identifier spells. -/
def identKW (v : Str) : Option KW :=
  match v with
  | [] => none
  | q :: rest => kwOf (upper (if q = '"' ∨ q = '[' ∨ q = '`' then rest.dropLast else v))

/-- The first word of the name is not that of a built-in type. -/
def ObjectName.noType (o : ObjectName) : Bool :=
  match o.idents with
  | i :: _ => (identKW i.value).all fun k => !k.beginsType
  | [] => true

/-- A number that `strconv.Atoi` reads back. -/
def sizeOK (n : Nat) : Bool := n < 2 ^ 63
def sizeOptOK : Option Nat → Bool
  | some n => sizeOK n
  | none => true

def longOK (v : LongValue) : Bool := 0 ≤ v.long && v.long < 2 ^ 63

/-- The text of a floating point number is a number with a decimal point and is read back as the number. -/
def floatOK (fns : FloatFns) (v : F64) : Bool :=
  match fns.format v with
  | [] => false
  | c :: w => isDigit c && w.all (fun x => isDigit x || x == '.') && w.contains '.' &&
    fns.parse (c :: w) == some v

def identsOK (d : Dialect) (is : List Ident) : Bool := !is.isEmpty && is.all fun i => identOK d i.value
def ObjectName.wf (d : Dialect) (o : ObjectName) : Bool := identsOK d o.idents
def optIdentOK (d : Dialect) : Option Ident → Bool
  | some i => identOK d i.value
  | none => true

/-- The types the parser can produce and reads back. -/
def DataType.wf (d : Dialect) : DataType → Bool
  | .char size _ _ _ => sizeOptOK size
  | .varchar size _ _ _ => sizeOptOK size
  | .decimal precision scale _ _ _ _ => precision.isSome && sizeOptOK precision && sizeOptOK scale
  | .float size _ _ _ _ _ => sizeOptOK size
  | .array ty _ => match ty with
    | .text _ _ => true
    | _ => false
  | .custom ty => ty.wf d && ty.noType
  | .clob _ _ _ => false
  | .binary _ _ _ => false
  | .varbinary _ _ _ => false
  | .blob _ _ _ => false
  | _ => true

/-- The level of a binary operator; 0 for those that are not binary. -/
def OpType.level : OpType → Nat
  | .Or => 5
  | .And => 10
  | .NotLike => 15
  | .Like | .Eq | .NotEq | .Gt | .GtEq | .Lt | .LtEq => 20
  | .Plus | .Minus => 30
  | .Multiply | .Divide | .Modulus => 40
  | .Not | .None => 0

/-- The level of IN and BETWEEN: that of NOT when negated. -/
def inLevel (negated : Bool) : Nat := if negated then 15 else 20

/-- The level of the weakest operator on the left edge. -/
def Expr.lp : Expr → Nat
  | .binary l op _ => min op.type.level l.lp
  | .isNull x => min 17 x.lp
  | .isNotNull x => min 17 x.lp
  | .inList x _ neg _ => min (inLevel neg) x.lp
  | .inSubQuery x _ neg _ => min (inLevel neg) x.lp
  | .between x neg _ _ => min (inLevel neg) x.lp
  | _ => 100

/-- The level of a prefix operator: NOT, or a sign. -/
def OpType.prefixLevel : OpType → Nat
  | .Not => 15
  | _ => 30

/-- The level of the weakest operator on the right edge. -/
def Expr.rp : Expr → Nat
  | .binary _ op r => min op.type.level r.rp
  | .unary _ op x => min op.type.prefixLevel x.rp
  | .between _ _ _ high => high.rp
  | _ => 100

/-- Not an infix or postfix operator at the top. -/
def Expr.isPrefix : Expr → Bool
  | .binary _ _ _ => false
  | .isNull _ => false
  | .isNotNull _ => false
  | .inList _ _ _ _ => false
  | .inSubQuery _ _ _ _ => false
  | .between _ _ _ _ => false
  | _ => true

/-- The expression starts with the keyword EXISTS. -/
def Expr.startsExists : Expr → Bool
  | .binary l _ _ => l.startsExists
  | .isNull x => x.startsExists
  | .isNotNull x => x.startsExists
  | .inList x _ _ _ => x.startsExists
  | .inSubQuery x _ _ _ => x.startsExists
  | .between x _ _ _ => x.startsExists
  | .exists_ neg _ _ _ _ => !neg
  | _ => false

/-- What a query, a select or a table reference ends with: a table without alias (`tab`), a select item
without alias (`col`), or something that no alias can follow. -/
inductive Edge where
  | closed | tab | col
  deriving DecidableEq

def SelectItem.edge : SelectItem → Edge
  | .unnamed _ => .col
  | _ => .closed

def TableFactor.edge : TableFactor → Edge
  | .table _ none _ _ [] _ => .tab
  | .derived _ _ _ _ _ none => .tab
  | _ => .closed

def TableRef.edge : TableRef → Edge
  | .factor f => f.edge
  | .cross _ f => f.edge
  | .natural _ _ r => r.edge
  | _ => .closed

/-- The right edge of the select list and FROM clause. -/
def fromEdge (projection : List SelectItem) (from_ : List TableRef) : Edge :=
  match from_.getLast? with
  | some r => r.edge
  | none =>
    match projection.getLast? with
    | some i => i.edge
    | none => .closed

def SQLSelect.edge : SQLSelect → Edge
  | .mk _ projection from_ where_ groupBy having _ =>
    if where_.isSome || !groupBy.isEmpty || having.isSome then .closed else fromEdge projection from_

def SetExpr.edge : SetExpr → Edge
  | .select s => s.edge
  | .setOp _ _ _ r => r.edge
  | _ => .closed

def QueryStmt.edge : QueryStmt → Edge
  | .mk _ _ body orderBy limit => if orderBy.isEmpty && limit.isNone then body.edge else .closed

/-- The set expression begins with SELECT, not with a parenthesis. -/
def SetExpr.startsSelect : SetExpr → Bool
  | .select _ => true
  | .setOp _ _ l _ => l.startsSelect
  | _ => false

/-- The query begins with SELECT or WITH. -/
def QueryStmt.startsSelect : QueryStmt → Bool
  | .mk _ ctes body _ _ => !ctes.isEmpty || body.startsSelect

def SetOp.level : SetOp → Nat
  | .intersect _ _ => 20
  | _ => 10

def SetExpr.lp : SetExpr → Nat
  | .setOp op _ l _ => min op.level l.lp
  | _ => 100
def SetExpr.rp : SetExpr → Nat
  | .setOp op _ _ r => min op.level r.rp
  | _ => 100

def LimitExpr.wf (l : LimitExpr) : Bool :=
  match l.count with
  | none => l.offset.isNone
  | some v => longOK v && match l.offset with
    | some o => longOK o
    | none => true

def FrameBound.wf : FrameBound → Bool
  | .preceding n _ _ => sizeOK n
  | .following n _ _ => sizeOK n
  | _ => true

def WindowFrame.wf (f : WindowFrame) : Bool :=
  f.startBound.wf && match f.endBound with
    | some e => e.wf
    | none => true

/-- A join can follow: everything but a natural join, whose right side takes all joins that follow. -/
def TableRef.open_ : TableRef → Bool
  | .natural _ _ _ => false
  | _ => true

mutual

def Expr.wf (d : Dialect) (fns : FloatFns) : Expr → Bool
  | .ident i => identOK d i.value
  | .wildcard _ => true
  | .qualifiedWildcard is => identsOK d is
  | .compoundIdent is => identsOK d is && 2 ≤ is.length
  | .isNull x => x.wf d fns && 17 ≤ x.rp
  | .isNotNull x => x.wf d fns && 17 ≤ x.rp
  | .inList x l neg _ => x.wf d fns && inLevel neg ≤ x.rp && !l.isEmpty && Expr.wfs d fns l
  | .inSubQuery x q neg _ => x.wf d fns && inLevel neg ≤ x.rp && q.wf d fns && q.startsSelect
  | .between x neg low high => x.wf d fns && inLevel neg ≤ x.rp && low.wf d fns && low.isPrefix && 10 ≤ low.rp &&
    high.wf d fns && high.isPrefix
  | .binary l op r => l.wf d fns && r.wf d fns && 0 < op.type.level && op.type.level ≤ l.rp && op.type.level < r.lp
  | .cast e ty _ _ => e.wf d fns && ty.wf d
  | .nested e _ _ => e.wf d fns
  | .unary _ op e => e.wf d fns && (match op.type with
    | .Plus => 30 < e.lp
    | .Minus => 30 < e.lp
    | .Not => 15 < e.lp && !e.startsExists
    | _ => false)
  | .function name args _ over _ => name.wf d && Expr.wfs d fns args && WindowSpec.wfO d fns over
  | .caseExpr _ _ operand conds results else_ => Expr.wfO d fns operand && !conds.isEmpty &&
    conds.length == results.length && Expr.wfs d fns conds && Expr.wfs d fns results && Expr.wfO d fns else_
  | .exists_ _ q _ _ _ => q.wf d fns
  | .subQuery _ _ q => q.wf d fns && q.startsSelect
  | .long v => longOK v
  | .double _ _ v => floatOK fns v
  | .singleQuoted _ _ s => !s.contains '\''
  | .national _ _ s => !s.contains '\''
  | .boolean _ _ _ => true
  | .null _ _ => true
  | .timeValue _ _ _ _ => false

def Expr.wfO (d : Dialect) (fns : FloatFns) : Option Expr → Bool
  | some e => e.wf d fns
  | none => true

def Expr.wfs (d : Dialect) (fns : FloatFns) : List Expr → Bool
  | [] => true
  | e :: es => e.wf d fns && Expr.wfs d fns es

def WindowSpec.wfO (d : Dialect) (fns : FloatFns) : Option WindowSpec → Bool
  | some w => w.wf d fns
  | none => true

def WindowSpec.wf (d : Dialect) (fns : FloatFns) : WindowSpec → Bool
  | .mk partitionBy orderBy frame _ _ =>
    Expr.wfs d fns partitionBy && OrderByExpr.wfs d fns orderBy && (match frame with
      | some f => f.wf
      | none => true)

def OrderByExpr.wf (d : Dialect) (fns : FloatFns) : OrderByExpr → Bool
  | .mk e _ _ => e.wf d fns

def OrderByExpr.wfs (d : Dialect) (fns : FloatFns) : List OrderByExpr → Bool
  | [] => true
  | e :: es => e.wf d fns && OrderByExpr.wfs d fns es

def QueryStmt.wf (d : Dialect) (fns : FloatFns) : QueryStmt → Bool
  | .mk _ ctes body orderBy limit =>
    CTE.wfs d fns ctes && body.wf d fns && OrderByExpr.wfs d fns orderBy && (match limit with
      | some l => l.wf && (!orderBy.isEmpty || body.edge == .closed)
      | none => true)

def CTE.wf (d : Dialect) (fns : FloatFns) : CTE → Bool
  | .mk alias q _ => identOK d alias.value && q.wf d fns

def CTE.wfs (d : Dialect) (fns : FloatFns) : List CTE → Bool
  | [] => true
  | e :: es => e.wf d fns && CTE.wfs d fns es

def SetExpr.wf (d : Dialect) (fns : FloatFns) : SetExpr → Bool
  | .selectExpr _ => false
  | .select s => s.wf d fns
  | .query _ _ q => q.wf d fns
  | .setOp op _ l r => l.wf d fns && r.wf d fns && op.level ≤ l.rp && op.level < r.lp

def SQLSelect.wf (d : Dialect) (fns : FloatFns) : SQLSelect → Bool
  | .mk _ projection from_ where_ groupBy having _ =>
    !projection.isEmpty && SelectItem.wfs d fns projection && TableRef.wfs d fns from_ && Expr.wfO d fns where_ &&
    Expr.wfs d fns groupBy && Expr.wfO d fns having &&
    (having.isNone || where_.isSome || !groupBy.isEmpty || fromEdge projection from_ == .closed)

def SelectItem.wf (d : Dialect) (fns : FloatFns) : SelectItem → Bool
  | .unnamed e => e.wf d fns && (match e with
    | .qualifiedWildcard _ => false
    | _ => true)
  | .alias e a => e.wf d fns && identOK d a.value && (match e with
    | .qualifiedWildcard _ => false
    | _ => true)
  | .qualifiedWildcard p => p.wf d
  | .wildcard _ _ => false

def SelectItem.wfs (d : Dialect) (fns : FloatFns) : List SelectItem → Bool
  | [] => true
  | e :: es => e.wf d fns && SelectItem.wfs d fns es

def TableFactor.wf (d : Dialect) (fns : FloatFns) : TableFactor → Bool
  | .table name alias args _ hints _ => name.wf d && optIdentOK d alias && args.isEmpty && Expr.wfs d fns hints
  | .derived _ _ _ _ q alias => q.wf d fns && optIdentOK d alias

def TableRef.wf (d : Dialect) (fns : FloatFns) : TableRef → Bool
  | .factor f => f.wf d fns
  | .cross l f => l.wf d fns && (match l with
    | .factor _ => true
    | _ => false) && f.wf d fns
  | .partitioned _ _ _ => false
  | .qualified l _ r spec => l.wf d fns && l.open_ && r.wf d fns && spec.wf d fns
  | .natural l _ r => l.wf d fns && l.open_ && r.wf d fns

def TableRef.wfs (d : Dialect) (fns : FloatFns) : List TableRef → Bool
  | [] => true
  | e :: es => e.wf d fns && TableRef.wfs d fns es

def JoinSpec.wf (d : Dialect) (fns : FloatFns) : JoinSpec → Bool
  | .namedColumns cols _ _ => identsOK d cols
  | .condition e _ => e.wf d fns

end

/-- The expression can be read by the loop that reads DEFAULT values, which stops at NOT. -/
def Expr.defaultOK : Expr → Bool
  | .binary l op _ => l.defaultOK && op.type != .NotLike
  | .isNull x => x.defaultOK
  | .isNotNull x => x.defaultOK
  | .inList x _ neg _ => x.defaultOK && !neg
  | .inSubQuery x _ neg _ => x.defaultOK && !neg
  | .between x neg _ _ => x.defaultOK && !neg
  | _ => true

def RowValueExpr.wf (d : Dialect) (fns : FloatFns) (r : RowValueExpr) : Bool :=
  !r.values.isEmpty && Expr.wfs d fns r.values

def InsertSource.wf (d : Dialect) (fns : FloatFns) : InsertSource → Bool
  | .subQuery q => q.wf d fns
  | .constructor _ rows => !rows.isEmpty && rows.all (RowValueExpr.wf d fns)

def Assignment.wf (d : Dialect) (fns : FloatFns) (a : Assignment) : Bool := identOK d a.id.value && a.value.wf d fns

def TableConstraintSpec.wf (d : Dialect) (fns : FloatFns) : TableConstraintSpec → Bool
  | .unique _ _ _ _ cols => identsOK d cols
  | .referential _ cols key => identsOK d cols && identOK d key.tableName.value && identsOK d key.columns
  | .check _ _ e => e.wf d fns

def TableConstraint.wf (d : Dialect) (fns : FloatFns) (t : TableConstraint) : Bool :=
  optIdentOK d t.name && t.spec.wf d fns

def ColumnSpec.wf (d : Dialect) (fns : FloatFns) : ColumnSpec → Bool
  | .references _ _ name cols => name.wf d && identsOK d cols
  | .check e _ _ => e.wf d fns
  | _ => true

def ColumnConstraint.wf (d : Dialect) (fns : FloatFns) (c : ColumnConstraint) : Bool :=
  optIdentOK d c.name && c.spec.wf d fns

/-- The constraints begin with NOT. -/
def startsNot : List ColumnConstraint → Bool
  | ⟨none, _, .notNull _ _⟩ :: _ => true
  | _ => false

def ColumnDef.wf (d : Dialect) (fns : FloatFns) (c : ColumnDef) : Bool :=
  identOK d c.name.value && c.dataType.wf d && c.constraints.all (ColumnConstraint.wf d fns) &&
  (match c.default_ with
    | some e => e.wf d fns && e.defaultOK && (!startsNot c.constraints || !c.decorations.isEmpty || 15 ≤ e.rp)
    | none => true)

def TableElement.wf (d : Dialect) (fns : FloatFns) : TableElement → Bool
  | .constraint c => c.wf d fns
  | .column c => c.wf d fns

def TableOption.wf (d : Dialect) : TableOption → Bool
  | .engine _ _ name => identOK d name.value
  | .charset _ _ _ _ name => identOK d name.value

def AlterColumnAction.wf (d : Dialect) (fns : FloatFns) : AlterColumnAction → Bool
  | .setDefault _ e => e.wf d fns && e.defaultOK
  | .pgAlterDataType _ ty => ty.wf d
  | _ => true

def AlterTableAction.wf (d : Dialect) (fns : FloatFns) : AlterTableAction → Bool
  | .addColumn _ c => c.wf d fns
  | .alterColumn name _ action => identOK d name.value && action.wf d fns
  | .removeColumn name _ _ _ => identOK d name.value
  | .addConstraint _ c => c.wf d fns
  | .dropConstraint name _ _ _ => identOK d name.value

def Stmt.wf (d : Dialect) (fns : FloatFns) : Stmt → Bool
  | .query q => q.wf d fns && q.startsSelect
  | .insert _ name cols source assigns =>
    name.wf d && (cols.isEmpty || identsOK d cols) && source.wf d fns && assigns.all (Assignment.wf d fns) &&
    (match source with
      | .subQuery q => (!cols.isEmpty || q.startsSelect) && (assigns.isEmpty || q.edge != .col)
      | .constructor _ _ => true)
  | .copy _ _ _ _ => false
  | .update _ name assigns selection =>
    name.wf d && !assigns.isEmpty && assigns.all (Assignment.wf d fns) && Expr.wfO d fns selection
  | .delete _ name selection => name.wf d && Expr.wfO d fns selection
  | .createView _ name q materialized => name.wf d && q.wf d fns && !materialized
  | .createTable _ name elements _ options =>
    name.wf d && !elements.isEmpty && elements.all (TableElement.wf d fns) && options.length ≤ 1 &&
    options.all (TableOption.wf d)
  | .alterTable _ name action => name.wf d && action.wf d fns
  | .dropTable names _ _ _ _ => names.length == 1 && names.all (ObjectName.wf d)
  | .createIndex _ name _ indexName methodName cols _ selection =>
    name.wf d && optIdentOK d indexName && optIdentOK d methodName && identsOK d cols && Expr.wfO d fns selection
  | .dropIndex _ names => identsOK d names
  | .explain s _ => s.wf d fns

end Verif
