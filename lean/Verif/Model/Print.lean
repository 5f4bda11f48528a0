import Verif.Model.Ast
import Verif.Model.Writer
/-
The `WriteTo` and `ToSQLString` methods of package sqlast, one per node type.
-/
namespace Verif

/-- ast.go:93-95, `Ident.WriteTo`. -/
def Ident.wt (i : Ident) : Wt := .singleString i.value

/-- `Idents` on a slice of identifiers. -/
def Step.idents' (is : List Ident) (sep : Str) : Step := .idents (is.map (·.value)) sep

/-- ast.go:557-559, `ObjectName.WriteTo`. -/
def ObjectName.wt (o : ObjectName) : Wt := .sw [.idents' o.idents (str% ".")]

/-- writer.go:130-136, `TypeWithOptionalLength`. -/
def Step.typeWithOptionalLength (ty : Str) (size : Option Nat) : List Step :=
  .bytes ty :: match size with
    | some n => [.bytes (str% "("), .uint n, .bytes (str% ")")]
    | none => []

def unsignedBytes : Str := str% " unsigned"

/-- type.go, the `WriteTo` methods of the types (lines of the methods in the order of the cases: 33, 57, 77,
98, 119, 140, 161, 190, 231, 258, 285, 312, 339, 361, 381, 401, 421, 450, 472, 492, 512, 533, 553). -/
def DataType.wt : DataType → Wt
  | .char size _ _ _ => .sw (Step.typeWithOptionalLength (str% "char") size)
  | .varchar size _ _ _ => .sw (Step.typeWithOptionalLength (str% "character varying") size)
  | .uuid _ _ => .single (str% "uuid")
  | .clob size _ _ => .sw (Step.typeWithOptionalLength (str% "clob") (some size))
  | .binary size _ _ => .sw (Step.typeWithOptionalLength (str% "binary") (some size))
  | .varbinary size _ _ => .sw (Step.typeWithOptionalLength (str% "varbinary") (some size))
  | .blob size _ _ => .sw (Step.typeWithOptionalLength (str% "blob") (some size))
  | .decimal precision scale _ _ isUnsigned _ =>
    .sw ([.bytes (str% "numeric")] ++
      (match precision with
        | some p => [.bytes (str% "("), .uint p] ++
          (match scale with
            | some s => [.bytes (str% ","), .uint s]
            | none => []) ++ [.bytes (str% ")")]
        | none => []) ++
      Step.if_ isUnsigned unsignedBytes)
  | .float size _ _ _ isUnsigned _ =>
    .sw (Step.typeWithOptionalLength (str% "float") size ++ Step.if_ isUnsigned unsignedBytes)
  | .smallInt _ _ isUnsigned _ => .sw (.bytes (str% "smallint") :: Step.if_ isUnsigned unsignedBytes)
  | .int _ _ isUnsigned _ => .sw (.bytes (str% "int") :: Step.if_ isUnsigned unsignedBytes)
  | .bigInt _ _ isUnsigned _ => .sw (.bytes (str% "bigint") :: Step.if_ isUnsigned unsignedBytes)
  | .real _ _ isUnsigned _ => .sw (.bytes (str% "real") :: Step.if_ isUnsigned unsignedBytes)
  | .double _ _ => .single (str% "double precision")
  | .boolean _ _ => .single (str% "boolean")
  | .date _ _ => .single (str% "date")
  | .time _ _ => .single (str% "time")
  | .timestamp withTimeZone _ _ =>
    .sw (.bytes (str% "timestamp") :: Step.if_ withTimeZone (str% " with time zone"))
  | .regclass _ _ => .single (str% "regclass")
  | .text _ _ => .single (str% "text")
  | .bytea _ _ => .single (str% "bytea")
  | .array ty _ => .sw [.node ty.wt, .bytes (str% "[]")]
  | .custom ty => ty.wt

/-- operator.go:82-118, `Operator.WriteTo`. -/
def Operator.wt (o : Operator) : Wt :=
  match o.type with
  | .Plus => .single (str% "+")
  | .Minus => .single (str% "-")
  | .Multiply => .single (str% "*")
  | .Divide => .single (str% "/")
  | .Modulus => .single (str% "%")
  | .Gt => .single (str% ">")
  | .Lt => .single (str% "<")
  | .GtEq => .single (str% ">=")
  | .LtEq => .single (str% "<=")
  | .Eq => .single (str% "=")
  | .NotEq => .single (str% "!=")
  | .And => .single (str% "AND")
  | .Or => .single (str% "OR")
  | .Not => .single (str% "NOT")
  | .Like => .single (str% "LIKE")
  | .NotLike => .single (str% "NOT LIKE")
  | .None => .nothing

/-- value.go:44-47, `LongValue.WriteTo`. -/
def LongValue.wt (l : LongValue) : Wt := .singleString (intStr l.long)

/-- ast.go:688-698, `WindowFrameUnit.WriteTo`. -/
def WindowFrameUnit.wt (u : WindowFrameUnit) : Wt :=
  match u.type with
  | .Rows => .single (str% "ROWS")
  | .Range => .single (str% "RANGE")
  | .Groups => .single (str% "GROUPS")

/-- ast.go:737-739, 759-761, 781-783, 805-807, 829-831. -/
def FrameBound.wt : FrameBound → Wt
  | .currentRow _ _ => .single (str% "CURRENT ROW")
  | .unboundedPreceding _ _ => .single (str% "UNBOUNDED PRECEDING")
  | .unboundedFollowing _ _ => .single (str% "UNBOUNDED FOLLOWING")
  | .preceding b _ _ => .sw [.uint b, .bytes (str% " PRECEDING")]
  | .following b _ _ => .sw [.uint b, .bytes (str% " FOLLOWING")]

/-- ast.go:644-653, `WindowFrame.WriteTo`. -/
def WindowFrame.wt (f : WindowFrame) : Wt :=
  match f.endBound with
  | some e => .sw [.node f.units.wt, .bytes (str% " BETWEEN "), .node f.startBound.wt, .bytes (str% " AND "),
      .node e.wt]
  | none => .sw [.node f.units.wt, .bytes (str% " "), .node f.startBound.wt]

/-- query.go:691-713, `JoinType.ToSQLString` (the panic for an unknown number is not modelled: there is none). -/
def JoinType.text (j : JoinType) : Str :=
  match j.cond with
  | .INNER => str% "INNER "
  | .LEFT => str% "LEFT "
  | .RIGHT => str% "RIGHT "
  | .FULL => str% "FULL "
  | .LEFTOUTER => str% "LEFT OUTER "
  | .RIGHTOUTER => str% "RIGHT OUTER "
  | .FULLOUTER => str% "FULL OUTER "
  | .IMPLICIT => []

/-- query.go:715-717, `JoinType.WriteTo`. -/
def JoinType.wt (j : JoinType) : Wt := .single j.text

/-- query.go:185-187, 206-208, 227-229. -/
def SetOp.wt : SetOp → Wt
  | .union _ _ => .single (str% "UNION")
  | .except _ _ => .single (str% "EXCEPT")
  | .intersect _ _ => .single (str% "INTERSECT")

/-- query.go:783-795, `LimitExpr.WriteTo`. -/
def LimitExpr.wt (l : LimitExpr) : Wt :=
  .sw ([.bytes (str% "LIMIT "),
      match l.count with
      | none => .bytes (str% "ALL")
      | some v => .node v.wt] ++
    match l.offset with
    | some v => [.bytes (str% " OFFSET "), .node v.wt]
    | none => [])

/-- value.go:219-224, 253-258, 287-292 and 319-324: the four date and time literals. -/
def timeWt (text : Str) : Wt := .single text

def negated (b : Bool) : List Step := Step.if_ b (str% "NOT ")

/-- The optional alias of a table factor, query.go:346-348 and 389-391. -/
def aliasSteps : Option Ident → List Step
  | some a => [.bytes (str% " AS "), .node a.wt]
  | none => []

mutual

/-- The `WriteTo` methods of the expressions (ast.go and value.go; lines of the methods at each case).
`fns.format` stands for `strconv.AppendFloat`. -/
def Expr.wt (fns : FloatFns) : Expr → Wt
  | .ident i => i.wt
  /- ast.go:122 -/
  | .wildcard _ => .single (str% "*")
  /- ast.go:143 -/
  | .qualifiedWildcard is => .sw [.idents' is (str% "."), .bytes (str% ".*")]
  /- ast.go:164 -/
  | .compoundIdent is => .sw [.idents' is (str% ".")]
  /- ast.go:188 -/
  | .isNull x => .sw [.node (x.wt fns), .bytes (str% " IS NULL")]
  /- ast.go:212 -/
  | .isNotNull x => .sw [.node (x.wt fns), .bytes (str% " IS NOT NULL")]
  /- ast.go:236 -/
  | .inList e l neg _ =>
    .sw ([.node (e.wt fns), .bytes (str% " ")] ++ negated neg ++ [.bytes (str% "IN "), .bytes (str% "(")] ++
      Step.join (str% ", ") (Expr.wts fns l) ++ [.bytes (str% ")")])
  /- ast.go:263 -/
  | .inSubQuery e q neg _ =>
    .sw ([.node (e.wt fns), .bytes (str% " ")] ++ negated neg ++ [.bytes (str% "IN "), .bytes (str% "("),
      .node (q.wt fns), .bytes (str% ")")])
  /- ast.go:290 -/
  | .between e neg low high =>
    .sw ([.node (e.wt fns), .bytes (str% " ")] ++ negated neg ++ [.bytes (str% "BETWEEN "),
      .node (low.wt fns), .bytes (str% " AND "), .node (high.wt fns)])
  /- ast.go:316; the first `Direct` is not guarded -/
  | .binary l op r =>
    .sw [.direct (l.wt fns), .bytes (str% " "), .node op.wt, .bytes (str% " "), .node (r.wt fns)]
  /- ast.go:350 -/
  | .cast e ty _ _ =>
    .sw [.bytes (str% "CAST"), .bytes (str% "("), .node (e.wt fns), .bytes (str% " AS "), .node ty.wt,
      .bytes (str% ")")]
  /- ast.go:377 -/
  | .nested e _ _ => .sw [.bytes (str% "("), .node (e.wt fns), .bytes (str% ")")]
  /- ast.go:400 -/
  | .unary _ op e => .sw [.node op.wt, .bytes (str% " "), .node (e.wt fns)]
  /- ast.go:428 -/
  | .function name args _ over _ =>
    .sw ([.node name.wt, .bytes (str% "(")] ++ Step.join (str% ", ") (Expr.wts fns args) ++ [.bytes (str% ")")] ++
      overSteps fns over)
  /- ast.go:459; the loop reads `Results[i]`, which panics if there are fewer results than conditions; the
  parser builds them in pairs -/
  | .caseExpr _ _ operand conds results else_ =>
    .sw ([.bytes (str% "CASE")] ++
      optSteps fns (str% " ") operand ++
      caseSteps fns conds (Expr.wts fns results) ++
      optSteps fns (str% " ELSE ") else_ ++ [.bytes (str% " END")])
  /- ast.go:500 -/
  | .exists_ neg q _ _ _ =>
    .sw (negated neg ++ [.bytes (str% "EXISTS "), .bytes (str% "("), .node (q.wt fns), .bytes (str% ")")])
  /- ast.go:524 -/
  | .subQuery _ _ q => .sw [.bytes (str% "("), .node (q.wt fns), .bytes (str% ")")]
  | .long v => v.wt
  /- value.go:76 -/
  | .double _ _ v => .single (fns.format v)
  /- value.go:110 -/
  | .singleQuoted _ _ s => .quoted (str% "'") s (str% "'")
  /- value.go:150 -/
  | .national _ _ s => .quoted (str% "N'") s (str% "'")
  /- value.go:190 -/
  | .boolean _ _ b => .single (if b then str% "true" else str% "false")
  /- value.go:350 -/
  | .null _ _ => .single (str% "NULL")
  | .timeValue _ _ _ text => timeWt text

/-- An optional expression after a keyword: ast.go:462-464, 469-471, query.go:285-290, 294-296. -/
def optSteps (fns : FloatFns) (pre : Str) : Option Expr → List Step
  | some e => [.bytes pre, .node (e.wt fns)]
  | none => []

/-- ast.go:431-433. -/
def overSteps (fns : FloatFns) : Option WindowSpec → List Step
  | some w => [.bytes (str% " OVER "), .bytes (str% "("), .node (w.wt fns), .bytes (str% ")")]
  | none => []

/-- `WriteTo` of each expression of a slice. -/
def Expr.wts (fns : FloatFns) : List Expr → List Wt
  | [] => []
  | e :: es => e.wt fns :: Expr.wts fns es

/-- ast.go:465-468. -/
def caseSteps (fns : FloatFns) : List Expr → List Wt → List Step
  | [], _ => []
  | _ :: _, [] => []
  | c :: cs, r :: rs =>
    .bytes (str% " WHEN ") :: .node (c.wt fns) :: .bytes (str% " THEN ") :: .node r :: caseSteps fns cs rs

/-- ast.go:595-620, `WindowSpec.WriteTo`. -/
def WindowSpec.wt (fns : FloatFns) : WindowSpec → Wt
  | .mk partitionBy orderBy frame _ _ =>
    .sw ((if partitionBy.isEmpty then []
        else .bytes (str% "PARTITION BY ") :: Step.join (str% ", ") (Expr.wts fns partitionBy)) ++
      (if orderBy.isEmpty then []
        else Step.if_ (!partitionBy.isEmpty) (str% " ") ++
          .bytes (str% "ORDER BY ") :: Step.join (str% ", ") (OrderByExpr.wts fns orderBy)) ++
      match frame with
      | some f => Step.if_ (!partitionBy.isEmpty || !orderBy.isEmpty) (str% " ") ++ [.node f.wt]
      | none => [])

/-- query.go:742-753, `OrderByExpr.WriteTo`. -/
def OrderByExpr.wt (fns : FloatFns) : OrderByExpr → Wt
  | .mk e _ asc =>
    .sw (.node (e.wt fns) :: match asc with
      | some true => [.bytes (str% " ASC")]
      | some false => [.bytes (str% " DESC")]
      | none => [])

def OrderByExpr.wts (fns : FloatFns) : List OrderByExpr → List Wt
  | [] => []
  | e :: es => e.wt fns :: OrderByExpr.wts fns es

/-- query.go:44-66, `QueryStmt.WriteTo`. -/
def QueryStmt.wt (fns : FloatFns) : QueryStmt → Wt
  | .mk _ ctes body orderBy limit =>
    .sw ((if ctes.isEmpty then []
        else .bytes (str% "WITH ") :: Step.join (str% ", ") (CTE.wts fns ctes) ++ [.bytes (str% " ")]) ++
      [.node (body.wt fns)] ++
      (if orderBy.isEmpty then []
        else .bytes (str% " ORDER BY ") :: Step.join (str% ", ") (OrderByExpr.wts fns orderBy)) ++
      match limit with
      | some l => [.bytes (str% " "), .node l.wt]
      | none => [])

/-- query.go:87-91, `CTE.WriteTo`. -/
def CTE.wt (fns : FloatFns) : CTE → Wt
  | .mk alias q _ =>
    .sw [.node alias.wt, .bytes (str% " AS "), .bytes (str% "("), .node (q.wt fns), .bytes (str% ")")]

def CTE.wts (fns : FloatFns) : List CTE → List Wt
  | [] => []
  | e :: es => e.wt fns :: CTE.wts fns es

/-- query.go:113-115 (`SelectExpr`), 136-138 (`QueryExpr`), 160-164 (`SetOperationExpr`). -/
def SetExpr.wt (fns : FloatFns) : SetExpr → Wt
  | .selectExpr s => s.wt fns
  | .select s => s.wt fns
  | .query _ _ q => .sw [.bytes (str% "("), .node (q.wt fns), .bytes (str% ")")]
  | .setOp op all l r =>
    .sw ([.node (l.wt fns), .bytes (str% " "), .node op.wt] ++ Step.if_ all (str% " ALL") ++
      [.bytes (str% " "), .node (r.wt fns)])

/-- query.go:270-298. -/
def SQLSelect.wt (fns : FloatFns) : SQLSelect → Wt
  | .mk distinct projection from_ where_ groupBy having _ =>
    .sw ([.bytes (str% "SELECT ")] ++ Step.if_ distinct (str% "DISTINCT ") ++
      Step.join (str% ", ") (SelectItem.wts fns projection) ++
      (if from_.isEmpty then []
        else .bytes (str% " FROM ") :: Step.join (str% ", ") (TableRef.wts fns from_)) ++
      optSteps fns (str% " WHERE ") where_ ++
      (if groupBy.isEmpty then []
        else .bytes (str% " GROUP BY ") :: Step.join (str% ", ") (Expr.wts fns groupBy)) ++
      optSteps fns (str% " HAVING ") having)

/-- query.go:414-416, 436-438, 461-463, 482-484. -/
def SelectItem.wt (fns : FloatFns) : SelectItem → Wt
  | .unnamed e => e.wt fns
  | .alias e a => .sw [.node (e.wt fns), .bytes (str% " AS "), .node a.wt]
  | .qualifiedWildcard p => .sw [.node p.wt, .bytes (str% ".*")]
  | .wildcard _ _ => .single (str% "*")

def SelectItem.wts (fns : FloatFns) : List SelectItem → List Wt
  | [] => []
  | e :: es => e.wt fns :: SelectItem.wts fns es

/-- query.go:340-353 (`Table`), 385-393 (`Derived`). -/
def TableFactor.wt (fns : FloatFns) : TableFactor → Wt
  | .table name alias args _ withHints _ =>
    .sw ([.node name.wt] ++
      (if args.isEmpty then []
        else .bytes (str% "(") :: Step.join (str% ", ") (Expr.wts fns args) ++ [.bytes (str% ")")]) ++
      aliasSteps alias ++
      (if withHints.isEmpty then []
        else [.bytes (str% " WITH "), .bytes (str% "(")] ++ Step.join (str% ", ") (Expr.wts fns withHints) ++
          [.bytes (str% ")")]))
  | .derived lateral _ _ _ q alias =>
    .sw (Step.if_ lateral (str% "LATERAL ") ++ [.bytes (str% "("), .node (q.wt fns), .bytes (str% ")")] ++
      aliasSteps alias)

/-- query.go:504-508, 553-558, 580-586, 607-613. -/
def TableRef.wt (fns : FloatFns) : TableRef → Wt
  | .factor f => f.wt fns
  | .cross l f => .sw [.node (l.wt fns), .bytes (str% " CROSS JOIN "), .node (f.wt fns)]
  | .partitioned f cols _ =>
    .sw [.node (f.wt fns), .bytes (str% " PARTITION BY "), .bytes (str% "("), .idents' cols (str% ", "),
      .bytes (str% ")")]
  | .qualified l ty r spec =>
    .sw [.node (l.wt fns), .bytes (str% " "), .node ty.wt, .bytes (str% "JOIN "), .node (r.wt fns),
      .bytes (str% " "), .node (spec.wt fns)]
  | .natural l ty r =>
    .sw [.node (l.wt fns), .bytes (str% " NATURAL "), .node ty.wt, .bytes (str% "JOIN "), .node (r.wt fns)]

def TableRef.wts (fns : FloatFns) : List TableRef → List Wt
  | [] => []
  | e :: es => e.wt fns :: TableRef.wts fns es

/-- query.go:636-641, 661-663. -/
def JoinSpec.wt (fns : FloatFns) : JoinSpec → Wt
  | .namedColumns cols _ _ =>
    .sw [.bytes (str% "USING "), .bytes (str% "("), .idents' cols (str% ", "), .bytes (str% ")")]
  | .condition e _ => .sw [.bytes (str% "ON "), .node (e.wt fns)]

end

/-- stmt.go:122-130, `RowValueExpr.WriteTo`. -/
def RowValueExpr.wt (fns : FloatFns) (r : RowValueExpr) : Wt :=
  .sw (.bytes (str% "(") :: Step.join (str% ", ") (r.values.map (Expr.wt fns)) ++ [.bytes (str% ")")])

/-- stmt.go:74-76, 96-103. -/
def InsertSource.wt (fns : FloatFns) : InsertSource → Wt
  | .subQuery q => q.wt fns
  | .constructor _ rows => .sw (.bytes (str% "VALUES ") :: Step.join (str% ", ") (rows.map (RowValueExpr.wt fns)))

/-- stmt.go:332-334, `Assignment.WriteTo`. -/
def Assignment.wt (fns : FloatFns) (a : Assignment) : Wt :=
  .sw [.node a.id.wt, .bytes (str% " = "), .node (a.value.wt fns)]

/-- stmt.go:450-454, `ReferenceKeyExpr.WriteTo`. -/
def ReferenceKeyExpr.wt (r : ReferenceKeyExpr) : Wt :=
  .sw [.node r.tableName.wt, .bytes (str% "("), .idents' r.columns (str% ", "), .bytes (str% ")")]

/-- stmt.go:394-403, 424-430, 475-479. -/
def TableConstraintSpec.wt (fns : FloatFns) : TableConstraintSpec → Wt
  | .unique isPrimary _ _ _ cols =>
    .sw [.bytes (if isPrimary then str% "PRIMARY KEY" else str% "UNIQUE"), .bytes (str% "("),
      .idents' cols (str% ", "), .bytes (str% ")")]
  | .referential _ cols key =>
    .sw [.bytes (str% "FOREIGN KEY"), .bytes (str% "("), .idents' cols (str% ", "), .bytes (str% ")"),
      .bytes (str% " REFERENCES "), .node key.wt]
  | .check _ _ e => .sw [.bytes (str% "CHECK"), .bytes (str% "("), .node (e.wt fns), .bytes (str% ")")]

/-- The optional name of a constraint, stmt.go:362-364 and 565-567. -/
def constraintName : Option Ident → List Step
  | some n => [.bytes (str% "CONSTRAINT "), .node n.wt, .bytes (str% " ")]
  | none => []

/-- stmt.go:360-367, `TableConstraint.WriteTo`. -/
def TableConstraint.wt (fns : FloatFns) (t : TableConstraint) : Wt :=
  .sw (constraintName t.name ++ [.node (t.spec.wt fns)])

/-- stmt.go:593-595, 628-634, 655-660, 680-684. -/
def ColumnSpec.wt (fns : FloatFns) : ColumnSpec → Wt
  | .notNull _ _ => .single (str% "NOT NULL")
  | .unique isPrimaryKey _ _ _ => .single (if isPrimaryKey then str% "PRIMARY KEY" else str% "UNIQUE")
  | .references _ _ name cols =>
    .sw [.bytes (str% "REFERENCES "), .node name.wt, .bytes (str% "("), .idents' cols (str% ", "),
      .bytes (str% ")")]
  | .check e _ _ => .sw [.bytes (str% "CHECK"), .bytes (str% "("), .node (e.wt fns), .bytes (str% ")")]

/-- stmt.go:562-570, `ColumnConstraint.WriteTo`. -/
def ColumnConstraint.wt (fns : FloatFns) (c : ColumnConstraint) : Wt :=
  .sw (.bytes (str% " ") :: constraintName c.name ++ [.node (c.spec.wt fns)])

/-- stmt.go:529-531, `AutoIncrement.WriteTo`. -/
def AutoIncrement.wt (_ : AutoIncrement) : Wt := .single (str% "AUTO_INCREMENT")

/-- stmt.go:502-515, `ColumnDef.WriteTo`. -/
def ColumnDef.wt (fns : FloatFns) (c : ColumnDef) : Wt :=
  .sw ([.node c.name.wt, .bytes (str% " "), .node c.dataType.wt] ++
    (match c.default_ with
      | some e => [.bytes (str% " DEFAULT "), .node (e.wt fns)]
      | none => []) ++
    (c.decorations.flatMap fun m => [.bytes (str% " "), .node m.wt]) ++
    (c.constraints.map fun x => .node (x.wt fns)))

def TableElement.wt (fns : FloatFns) : TableElement → Wt
  | .constraint c => c.wt fns
  | .column c => c.wt fns

/-- table_option.go:23-27, 50-55. -/
def TableOption.wt : TableOption → Wt
  | .engine _ equal name => .sw (.bytes (str% "ENGINE ") :: Step.if_ equal (str% "= ") ++ [.node name.wt])
  | .charset isDefault _ _ equal name =>
    .sw (Step.if_ isDefault (str% "DEFAULT ") ++ [.bytes (str% "CHARSET ")] ++ Step.if_ equal (str% "= ") ++
      [.node name.wt])

/-- stmt.go:839-841, 860-862, 883-885, 904-906, 925-927. -/
def AlterColumnAction.wt (fns : FloatFns) : AlterColumnAction → Wt
  | .setDefault _ e => .sw [.bytes (str% "SET DEFAULT "), .node (e.wt fns)]
  | .dropDefault _ _ => .single (str% "DROP DEFAULT")
  | .pgAlterDataType _ ty => .sw [.bytes (str% "TYPE "), .node ty.wt]
  | .pgSetNotNull _ _ => .single (str% "SET NOT NULL")
  | .pgDropNotNull _ _ => .single (str% "DROP NOT NULL")

/-- stmt.go:785-789, 810-814, 952-956, 976-978, 1004-1008. -/
def AlterTableAction.wt (fns : FloatFns) : AlterTableAction → Wt
  | .addColumn _ c => .sw [.bytes (str% "ADD COLUMN "), .node (c.wt fns)]
  | .alterColumn name _ action =>
    .sw [.bytes (str% "ALTER COLUMN "), .node name.wt, .bytes (str% " "), .node (action.wt fns)]
  | .removeColumn name cascade _ _ =>
    .sw ([.bytes (str% "DROP COLUMN "), .node name.wt] ++ Step.if_ cascade (str% " CASCADE"))
  | .addConstraint _ c => .sw [.bytes (str% "ADD "), .node (c.wt fns)]
  | .dropConstraint name _ cascade _ =>
    .sw ([.bytes (str% "DROP CONSTRAINT "), .node name.wt] ++ Step.if_ cascade (str% " CASCADE"))

/-- stmt.go:163-172, the values of `CopyStmt`. -/
def copyValues : Bool → List (Option Str) → List Step
  | _, [] => []
  | first, v :: vs =>
    Step.if_ (!first) (str% "\t") ++ .bytes (v.getD (str% "\\N")) :: copyValues false vs

/-- The `WriteTo` methods of the statements (stmt.go; lines at each case). -/
def Stmt.wt (fns : FloatFns) : Stmt → Wt
  | .query q => q.wt fns
  /- stmt.go:38 -/
  | .insert _ name cols source assignments =>
    .sw ([.bytes (str% "INSERT INTO "), .node name.wt, .bytes (str% " ")] ++
      (if cols.isEmpty then []
        else [.bytes (str% "("), .idents' cols (str% ", "), .bytes (str% ")"), .bytes (str% " ")]) ++
      [.node (source.wt fns)] ++
      (if assignments.isEmpty then []
        else .bytes (str% " ON DUPLICATE KEY UPDATE ") ::
          Step.join (str% ", ") (assignments.map (Assignment.wt fns))))
  /- stmt.go:154 -/
  | .copy _ name cols values =>
    .sw ([.bytes (str% "COPY "), .node name.wt] ++
      (if cols.isEmpty then []
        else [.bytes (str% " "), .bytes (str% "("), .idents' cols (str% ", "), .bytes (str% ")")]) ++
      [.bytes (str% " FROM stdin; ")] ++
      (if values.isEmpty then [] else .bytes (str% "\n") :: copyValues true values) ++
      [.bytes (str% "\n\\.")])
  /- stmt.go:202 -/
  | .update _ name assignments selection =>
    .sw ([.bytes (str% "UPDATE "), .node name.wt, .bytes (str% " SET ")] ++
      Step.join (str% ", ") (assignments.map (Assignment.wt fns)) ++
      match selection with
      | some e => [.bytes (str% " WHERE "), .node (e.wt fns)]
      | none => [])
  /- stmt.go:239 -/
  | .delete _ name selection =>
    .sw ([.bytes (str% "DELETE FROM "), .node name.wt] ++
      match selection with
      | some e => [.bytes (str% " WHERE "), .node (e.wt fns)]
      | none => [])
  /- stmt.go:268 -/
  | .createView _ name q materialized =>
    .sw ([.bytes (str% "CREATE")] ++ Step.if_ materialized (str% " MATERIALIZED") ++
      [.bytes (str% " VIEW "), .node name.wt, .bytes (str% " AS "), .node (q.wt fns)])
  /- stmt.go:298 -/
  | .createTable _ name elements notExists options =>
    .sw ([.bytes (str% "CREATE TABLE ")] ++ Step.if_ notExists (str% "IF NOT EXISTS ") ++
      [.node name.wt, .bytes (str% " "), .bytes (str% "(")] ++
      Step.join (str% ", ") (elements.map (TableElement.wt fns)) ++ [.bytes (str% ")")] ++
      Step.join (str% ", ") (options.map TableOption.wt))
  /- stmt.go:759 -/
  | .alterTable _ name action =>
    .sw [.bytes (str% "ALTER TABLE "), .node name.wt, .bytes (str% " "), .node (action.wt fns)]
  /- stmt.go:1035 -/
  | .dropTable names cascade _ ifExists _ =>
    .sw ([.bytes (str% "DROP TABLE ")] ++ Step.if_ ifExists (str% "IF EXISTS ") ++
      Step.join (str% ", ") (names.map ObjectName.wt) ++ Step.if_ cascade (str% " CASCADE"))
  /- stmt.go:1074 -/
  | .createIndex _ name isUnique indexName methodName cols _ selection =>
    .sw ([.bytes (str% "CREATE ")] ++ Step.if_ isUnique (str% "UNIQUE ") ++ [.bytes (str% "INDEX")] ++
      (match indexName with
        | some i => [.bytes (str% " "), .node i.wt]
        | none => []) ++
      [.bytes (str% " ON "), .node name.wt] ++
      (match methodName with
        | some i => [.bytes (str% " USING "), .node i.wt]
        | none => []) ++
      [.bytes (str% " "), .bytes (str% "("), .idents' cols (str% ", "), .bytes (str% ")")] ++
      match selection with
      | some e => [.bytes (str% " WHERE "), .node (e.wt fns)]
      | none => [])
  /- stmt.go:1109 -/
  | .dropIndex _ names => .sw [.bytes (str% "DROP INDEX "), .idents' names (str% ", ")]
  /- stmt.go:1133 -/
  | .explain s _ => .sw [.bytes (str% "EXPLAIN "), .node (s.wt fns)]

/-- comment.go:42-44, `Comment.WriteTo`. -/
def Comment.wt (c : Comment) : Wt := .singleString c.text

/-- comment.go:17-23, `CommentGroup.WriteTo`. -/
def CommentGroup.wt (g : CommentGroup) : Wt := .sw (Step.join (str% "\n") (g.list.map Comment.wt))

/-- ast.go:55-61, `File.WriteTo`. -/
def File.wt (fns : FloatFns) (f : File) : Wt := .sw (Step.join (str% "\n") (f.stmts.map (Stmt.wt fns)))

/-- The Go interface `Node` (ast.go:16-22): a value of any node type. -/
inductive Node where
  | file (x : File)
  | ident (x : Ident)
  | objectName (x : ObjectName)
  | dataType (x : DataType)
  | operator (x : Operator)
  | long (x : LongValue)
  | expr (x : Expr)
  | windowSpec (x : WindowSpec)
  | windowFrame (x : WindowFrame)
  | frameUnit (x : WindowFrameUnit)
  | frameBound (x : FrameBound)
  | orderBy (x : OrderByExpr)
  | query (x : QueryStmt)
  | cte (x : CTE)
  | setExpr (x : SetExpr)
  | sqlSelect (x : SQLSelect)
  | setOp (x : SetOp)
  | selectItem (x : SelectItem)
  | tableFactor (x : TableFactor)
  | tableRef (x : TableRef)
  | joinSpec (x : JoinSpec)
  | joinType (x : JoinType)
  | limit (x : LimitExpr)
  | rowValue (x : RowValueExpr)
  | insertSource (x : InsertSource)
  | assignment (x : Assignment)
  | refKey (x : ReferenceKeyExpr)
  | tableConstraintSpec (x : TableConstraintSpec)
  | tableConstraint (x : TableConstraint)
  | columnSpec (x : ColumnSpec)
  | columnConstraint (x : ColumnConstraint)
  | autoIncrement (x : AutoIncrement)
  | columnDef (x : ColumnDef)
  | tableElement (x : TableElement)
  | tableOption (x : TableOption)
  | alterColumnAction (x : AlterColumnAction)
  | alterTableAction (x : AlterTableAction)
  | stmt (x : Stmt)
  | comment (x : Comment)
  | commentGroup (x : CommentGroup)

/-- `x.WriteTo`. -/
def Node.wt (fns : FloatFns) : Node → Wt
  | .file x => x.wt fns
  | .ident x => x.wt
  | .objectName x => x.wt
  | .dataType x => x.wt
  | .operator x => x.wt
  | .long x => x.wt
  | .expr x => x.wt fns
  | .windowSpec x => x.wt fns
  | .windowFrame x => x.wt
  | .frameUnit x => x.wt
  | .frameBound x => x.wt
  | .orderBy x => x.wt fns
  | .query x => x.wt fns
  | .cte x => x.wt fns
  | .setExpr x => x.wt fns
  | .sqlSelect x => x.wt fns
  | .setOp x => x.wt
  | .selectItem x => x.wt fns
  | .tableFactor x => x.wt fns
  | .tableRef x => x.wt fns
  | .joinSpec x => x.wt fns
  | .joinType x => x.wt
  | .limit x => x.wt
  | .rowValue x => x.wt fns
  | .insertSource x => x.wt fns
  | .assignment x => x.wt fns
  | .refKey x => x.wt
  | .tableConstraintSpec x => x.wt fns
  | .tableConstraint x => x.wt fns
  | .columnSpec x => x.wt fns
  | .columnConstraint x => x.wt fns
  | .autoIncrement x => x.wt
  | .columnDef x => x.wt fns
  | .tableElement x => x.wt fns
  | .tableOption x => x.wt
  | .alterColumnAction x => x.wt fns
  | .alterTableAction x => x.wt fns
  | .stmt x => x.wt fns
  | .comment x => x.wt
  | .commentGroup x => x.wt

/-- operator.go:44-80, `Operator.ToSQLString`. -/
def Operator.sqlString (o : Operator) : Str :=
  match o.type with
  | .Plus => str% "+"
  | .Minus => str% "-"
  | .Multiply => str% "*"
  | .Divide => str% "/"
  | .Modulus => str% "%"
  | .Gt => str% ">"
  | .Lt => str% "<"
  | .GtEq => str% ">="
  | .LtEq => str% "<="
  | .Eq => str% "="
  | .NotEq => str% "!="
  | .And => str% "AND"
  | .Or => str% "OR"
  | .Not => str% "NOT"
  | .Like => str% "LIKE"
  | .NotLike => str% "NOT LIKE"
  | .None => []

/-- `ToSQLString` of the types: those that do not call `toSQLString` are type.go:73, 357, 377, 397, 417, 468,
488, 508 and 549 (`Custom`, which delegates to `ObjectName.ToSQLString`). -/
def DataType.sqlString : DataType → Str
  | .uuid _ _ => str% "uuid"
  | .double _ _ => str% "double precision"
  | .boolean _ _ => str% "boolean"
  | .date _ _ => str% "date"
  | .time _ _ => str% "time"
  | .regclass _ _ => str% "regclass"
  | .text _ _ => str% "text"
  | .bytea _ _ => str% "bytea"
  | .custom ty => ty.wt.builderString
  | ty => ty.wt.builderString

/-- `ToSQLString` of the expressions: those that do not call `toSQLString` are ast.go:81 (`Ident`), ast.go:118
(`Wildcard`), value.go:146 (`NationalStringLiteral`), value.go:283 (`DateTimeValue`), value.go:346
(`NullValue`). -/
def Expr.sqlString (fns : FloatFns) : Expr → Str
  | .ident i => i.value
  | .wildcard _ => str% "*"
  | .national _ _ s => str% "N'" ++ s ++ str% "'"
  | .timeValue .DateTime _ _ text => text
  | .null _ _ => str% "NULL"
  | e => (e.wt fns).builderString

/-- `x.ToSQLString()`. -/
def Node.toSQLString (fns : FloatFns) : Node → Str
  | .ident x => x.value
  | .dataType x => x.sqlString
  | .operator x => x.sqlString
  | .expr x => x.sqlString fns
  /- ast.go:676-686 -/
  | .frameUnit x =>
    match x.type with
    | .Rows => str% "ROWS"
    | .Range => str% "RANGE"
    | .Groups => str% "GROUPS"
  /- ast.go:733, 755, 777 -/
  | .frameBound x =>
    match x with
    | .currentRow _ _ => str% "CURRENT ROW"
    | .unboundedPreceding _ _ => str% "UNBOUNDED PRECEDING"
    | .unboundedFollowing _ _ => str% "UNBOUNDED FOLLOWING"
    | x => x.wt.builderString
  /- query.go:181, 202, 223 -/
  | .setOp x =>
    match x with
    | .union _ _ => str% "UNION"
    | .except _ _ => str% "EXCEPT"
    | .intersect _ _ => str% "INTERSECT"
  /- query.go:478 -/
  | .selectItem x =>
    match x with
    | .wildcard _ _ => str% "*"
    | x => (x.wt fns).builderString
  | .joinType x => x.text
  /- stmt.go:525 -/
  | .autoIncrement _ => str% "AUTO_INCREMENT"
  /- stmt.go:589, 620 -/
  | .columnSpec x =>
    match x with
    | .notNull _ _ => str% "NOT NULL"
    | .unique isPrimaryKey _ _ _ => if isPrimaryKey then str% "PRIMARY KEY" else str% "UNIQUE"
    | x => (x.wt fns).builderString
  /- stmt.go:856, 900, 921 -/
  | .alterColumnAction x =>
    match x with
    | .dropDefault _ _ => str% "DROP DEFAULT"
    | .pgSetNotNull _ _ => str% "SET NOT NULL"
    | .pgDropNotNull _ _ => str% "DROP NOT NULL"
    | x => (x.wt fns).builderString
  /- comment.go:38 -/
  | .comment x => x.text
  | x => (x.wt fns).builderString

end Verif
