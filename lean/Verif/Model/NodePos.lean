/-
The `Pos` and `End` methods of all nodes (sqlast/ast.go, value.go, type.go, query.go, stmt.go, table_option.go,
comment.go).  `none` is a panic: an index out of range, the nil frame of a window, or `CopyStmt.End`.
-/
import Verif.Model.Ast

namespace Verif

/-- sqlast/ast.go:131-133, 152-154, 545-547: `Idents[0].Pos()`. -/
def identsPos (ids : List Ident) : Option Pos := ids.head?.map (·.from_)
/-- sqlast/ast.go:135-137, 156-158, 549-551: `Idents[len(Idents)-1].End()`. -/
def identsEnd (ids : List Ident) : Option Pos := ids.getLast?.map (·.to_)

/-- `Pos`: sqlast/ast.go:85, 107, 131, 152, 173, 197, 224, 251, 278, 304, 338, 365, 388, 413, 447, 485, 512;
sqlast/value.go:28, 60, 94, 134, 174, 203, 237, 271, 303, 334. -/
def Expr.pos : Expr → Option Pos
  | .ident i => some i.from_
  | .wildcard p => some p
  | .qualifiedWildcard ids => identsPos ids
  | .compoundIdent ids => identsPos ids
  | .isNull x => x.pos
  | .isNotNull x => x.pos
  | .inList e _ _ _ => e.pos
  | .inSubQuery e _ _ _ => e.pos
  | .between e _ _ _ => e.pos
  | .binary l _ _ => l.pos
  | .cast _ _ c _ => some c
  | .nested _ l _ => some l
  | .unary f _ _ => some f
  | .function n _ _ _ _ => identsPos n.idents
  | .caseExpr c _ _ _ _ _ => some c
  | .exists_ negated _ n e _ => some (if negated then n else e)
  | .subQuery rparen _ _ => some rparen
  | .long v => some v.from_
  | .double f _ _ => some f
  | .singleQuoted f _ _ => some f
  | .national f _ _ => some f
  | .boolean f _ _ => some f
  | .null f _ => some f
  | .timeValue _ f _ _ => some f

/-- `End`: sqlast/ast.go:89, 111, 135, 156, 177, 201, 228, 255, 282, 308, 342, 369, 392, 417, 451, 492, 516;
sqlast/value.go:32, 64, 98, 138, 178, 207, 241, 275, 307, 338. -/
def Expr.end_ : Expr → Option Pos
  | .ident i => some i.to_
  | .wildcard p => some ⟨p.line, p.col + 1⟩
  | .qualifiedWildcard ids => identsEnd ids
  | .compoundIdent ids => identsEnd ids
  | .isNull x => x.end_.map fun p => ⟨p.line, p.col + 8⟩
  | .isNotNull x => x.end_.map fun p => ⟨p.line, p.col + 12⟩
  | .inList _ _ _ rp => some rp
  | .inSubQuery _ _ _ rp => some rp
  | .between _ _ _ h => h.end_
  | .binary _ _ r => r.end_
  | .cast _ _ _ rp => some rp
  | .nested _ _ rp => some rp
  | .unary _ _ e => e.end_
  | .function _ _ rp over orp => some (match over with | none => rp | some _ => orp)
  | .caseExpr _ ce _ _ _ _ => some ce
  | .exists_ _ _ _ _ rp => some rp
  | .subQuery _ lparen _ => some lparen
  | .long v => some v.to_
  | .double _ t _ => some t
  | .singleQuoted _ t _ => some t
  | .national _ t _ => some t
  | .boolean _ t _ => some t
  | .null _ t => some t
  | .timeValue _ _ t _ => some t

/-! ### Types, sqlast/type.go -/

/-- `Pos`: sqlast/type.go:18, 42, 65, 86, 107, 128, 149, 175, 213, 243, 270, 297, 324, 349, 369, 389, 409, 431, 460,
480, 500, 521, 541. -/
def DataType.pos : DataType → Option Pos
  | .char _ f _ _ => some f
  | .varchar _ c _ _ => some c
  | .uuid f _ => some f
  | .clob _ c _ => some c
  | .binary _ b _ => some b
  | .varbinary _ v _ => some v
  | .blob _ b _ => some b
  | .decimal _ _ n _ _ _ => some n
  | .float _ f _ _ _ _ => some f
  | .smallInt f _ _ _ => some f
  | .int f _ _ _ => some f
  | .bigInt f _ _ _ => some f
  | .real f _ _ _ => some f
  | .double f _ => some f
  | .boolean f _ => some f
  | .date f _ => some f
  | .time f _ => some f
  | .timestamp _ t _ => some t
  | .regclass f _ => some f
  | .text f _ => some f
  | .bytea f _ => some f
  | .array ty _ => ty.pos
  | .custom n => identsPos n.idents

/-- `End`: sqlast/type.go:22-27, 46-51, 69, 90, 111, 132, 153, 179-184, 217-225, 247-252, 274-279, 301-306, 328-333,
353, 373, 393, 413, 435-444, 464, 484, 504, 525, 545. -/
def DataType.end_ : DataType → Option Pos
  | .char size _ t rp => some (if size.isSome then rp else t)
  | .varchar size _ v rp => some (if size.isSome then rp else v)
  | .uuid _ t => some t
  | .clob _ _ rp => some rp
  | .binary _ _ rp => some rp
  | .varbinary _ _ rp => some rp
  | .blob _ _ rp => some rp
  | .decimal _ _ _ rp u up => some (if u then up else rp)
  | .float size _ t rp u up => some (if u then up else if size.isSome then rp else t)
  | .smallInt _ t u up => some (if u then up else t)
  | .int _ t u up => some (if u then up else t)
  | .bigInt _ t u up => some (if u then up else t)
  | .real _ t u up => some (if u then up else t)
  | .double _ t => some t
  | .boolean _ t => some t
  | .date _ t => some t
  | .time _ t => some t
  | .timestamp tz t zone => some (if tz then zone else ⟨t.line, t.col + 9⟩)
  | .regclass _ t => some t
  | .text _ t => some t
  | .bytea _ t => some t
  | .array _ rp => some rp
  | .custom n => identsEnd n.idents

/-! ### Windows, sqlast/ast.go:561-831 -/

/-- `Pos`: ast.go:725, 747, 769, 793, 817. -/
def FrameBound.pos : FrameBound → Pos
  | .currentRow c _ => c
  | .unboundedPreceding u _ => u
  | .unboundedFollowing u _ => u
  | .preceding _ f _ => f
  | .following _ f _ => f

/-- `End`: ast.go:729, 751, 773, 797, 821. -/
def FrameBound.end_ : FrameBound → Pos
  | .currentRow _ r => r
  | .unboundedPreceding _ p => p
  | .unboundedFollowing _ f => f
  | .preceding _ _ p => p
  | .following _ _ f => f

/-- ast.go:628-630. -/
def WindowFrame.pos (w : WindowFrame) : Pos := w.units.from_
/-- ast.go:632-638. -/
def WindowFrame.end_ (w : WindowFrame) : Pos := (w.endBound.getD w.startBound).end_

/-! ### Queries, sqlast/query.go -/

/-- query.go:726-728. -/
def OrderByExpr.pos : OrderByExpr → Option Pos
  | .mk e _ _ => e.pos
/-- query.go:730-736. -/
def OrderByExpr.end_ : OrderByExpr → Option Pos
  | .mk e p asc => if asc.isSome then some p else e.end_

/-- ast.go:568-577; `WindowsFrame.Pos()` of a nil frame is a nil dereference. -/
def WindowSpec.pos : WindowSpec → Option Pos
  | .mk partitionBy orderBy frame p o =>
    if partitionBy ≠ [] then some p else if orderBy ≠ [] then some o else frame.map WindowFrame.pos
/-- ast.go:579-589. -/
def WindowSpec.end_ : WindowSpec → Option Pos
  | .mk partitionBy orderBy frame _ _ =>
    match frame with
    | some f => some f.end_
    | none =>
      match orderBy.getLast? with
      | some o => o.end_
      | none => partitionBy.getLast?.bind Expr.end_

/-- query.go:764-766. -/
def LimitExpr.pos (l : LimitExpr) : Pos := l.limitPos
/-- query.go:768-777. -/
def LimitExpr.end_ (l : LimitExpr) : Pos :=
  match l.count with
  | none => l.allPos
  | some v =>
    match l.offset with
    | some o => o.to_
    | none => v.to_

/-- query.go:402, 424, 446, 470. -/
def SelectItem.pos : SelectItem → Option Pos
  | .unnamed e => e.pos
  | .alias e _ => e.pos
  | .qualifiedWildcard n => identsPos n.idents
  | .wildcard f _ => some f
/-- query.go:406, 428, 450-455, 474. -/
def SelectItem.end_ : SelectItem → Option Pos
  | .unnamed e => e.end_
  | .alias _ a => some a.to_
  | .qualifiedWildcard n => (identsEnd n.idents).map fun p => ⟨p.line, p.col + 2⟩
  | .wildcard _ t => some t

/-- query.go:316-318, 366-371. -/
def TableFactor.pos : TableFactor → Option Pos
  | .table n _ _ _ _ _ => identsPos n.idents
  | .derived lateral lateralPos lparen _ _ _ => some (if lateral then lateralPos else lparen)
/-- query.go:320-334, 373-379 (which returns the left parenthesis). -/
def TableFactor.end_ : TableFactor → Option Pos
  | .table n alias args argsRParen hints hintsRParen =>
    if hints ≠ [] then some hintsRParen
    else match alias with
      | some a => some a.to_
      | none => if args ≠ [] then some argsRParen else identsEnd n.idents
  | .derived _ _ lparen _ _ alias =>
    match alias with
    | some a => some a.to_
    | none => some lparen

/-- query.go:624, 649. -/
def JoinSpec.pos : JoinSpec → Pos
  | .namedColumns _ u _ => u
  | .condition _ on => on
/-- query.go:628, 653. -/
def JoinSpec.end_ : JoinSpec → Option Pos
  | .namedColumns _ _ rp => some rp
  | .condition e _ => e.end_

/-- query.go:492, 517, 541, 568, 595. -/
def TableRef.pos : TableRef → Option Pos
  | .factor f => f.pos
  | .cross r _ => r.pos
  | .partitioned f _ _ => f.pos
  | .qualified l _ _ _ => l.pos
  | .natural l _ _ => l.pos
/-- query.go:496, 521, 545, 572, 599. -/
def TableRef.end_ : TableRef → Option Pos
  | .factor f => f.end_
  | .cross _ f => f.end_
  | .partitioned _ _ rp => some rp
  | .qualified _ _ _ s => s.end_
  | .natural _ _ r => r.end_

/-- query.go:242-244. -/
def SQLSelect.pos : SQLSelect → Option Pos
  | .mk _ _ _ _ _ _ p => some p
/-- query.go:246-264. -/
def SQLSelect.end_ : SQLSelect → Option Pos
  | .mk _ projection from_ where_ groupBy having _ =>
    match having with
    | some e => e.end_
    | none =>
      match groupBy.getLast? with
      | some e => e.end_
      | none =>
        match where_ with
        | some e => e.end_
        | none =>
          match from_.getLast? with
          | some r => r.end_
          | none => projection.getLast?.bind SelectItem.end_

/-- query.go:101, 124, 148, 242. -/
def SetExpr.pos : SetExpr → Option Pos
  | .selectExpr s => s.pos
  | .select s => s.pos
  | .query lp _ _ => some lp
  | .setOp _ _ l _ => l.pos
/-- query.go:105, 128, 152, 246. -/
def SetExpr.end_ : SetExpr → Option Pos
  | .selectExpr s => s.end_
  | .select s => s.end_
  | .query _ rp _ => some rp
  | .setOp _ _ _ r => r.end_

/-- query.go:20-26. -/
def QueryStmt.pos : QueryStmt → Option Pos
  | .mk w ctes body _ _ => if ctes ≠ [] then some w else body.pos
/-- query.go:28-38. -/
def QueryStmt.end_ : QueryStmt → Option Pos
  | .mk _ _ body orderBy limit =>
    match limit with
    | some l => some l.end_
    | none =>
      match orderBy.getLast? with
      | some o => o.end_
      | none => body.end_

/-- query.go:75-77. -/
def CTE.pos : CTE → Pos
  | .mk a _ _ => a.from_
/-- query.go:79-81. -/
def CTE.end_ : CTE → Pos
  | .mk _ _ rp => rp

/-! ### Statements, sqlast/stmt.go and table_option.go -/

/-- stmt.go:62, 84. -/
def InsertSource.pos : InsertSource → Option Pos
  | .subQuery q => q.pos
  | .constructor v _ => some v
/-- stmt.go:66, 88-90. -/
def InsertSource.end_ : InsertSource → Option Pos
  | .subQuery q => q.end_
  | .constructor _ rows => rows.getLast?.map (·.rparen)

/-- stmt.go:320. -/
def Assignment.pos (a : Assignment) : Pos := a.id.from_
/-- stmt.go:324. -/
def Assignment.end_ (a : Assignment) : Option Pos := a.value.end_

/-- stmt.go:438. -/
def ReferenceKeyExpr.pos (k : ReferenceKeyExpr) : Pos := k.tableName.from_
/-- stmt.go:442. -/
def ReferenceKeyExpr.end_ (k : ReferenceKeyExpr) : Pos := k.rparen

/-- stmt.go:379-384, 412, 463. -/
def TableConstraintSpec.pos : TableConstraintSpec → Pos
  | .unique isPrimary p u _ _ => if isPrimary then p else u
  | .referential f _ _ => f
  | .check c _ _ => c
/-- stmt.go:386, 416, 467. -/
def TableConstraintSpec.end_ : TableConstraintSpec → Pos
  | .unique _ _ _ rp _ => rp
  | .referential _ _ k => k.end_
  | .check _ rp _ => rp

/-- stmt.go:345-350. -/
def TableConstraint.pos (c : TableConstraint) : Pos := if c.name.isSome then c.constraint else c.spec.pos
/-- stmt.go:352-354. -/
def TableConstraint.end_ (c : TableConstraint) : Pos := c.spec.end_

/-- stmt.go:581, 603-608, 643, 668. -/
def ColumnSpec.pos : ColumnSpec → Pos
  | .notNull n _ => n
  | .unique isPrimary p _ u => if isPrimary then p else u
  | .references r _ _ _ => r
  | .check _ c _ => c
/-- stmt.go:585, 610-618, 647, 672. -/
def ColumnSpec.end_ : ColumnSpec → Pos
  | .notNull _ n => n
  | .unique isPrimary _ k u => if isPrimary then k else ⟨u.line, u.col + 6⟩
  | .references _ rp _ _ => rp
  | .check _ _ rp => rp

/-- stmt.go:547-552. -/
def ColumnConstraint.pos (c : ColumnConstraint) : Pos :=
  match c.name with
  | none => c.constraint
  | some n => n.from_
/-- stmt.go:554-556. -/
def ColumnConstraint.end_ (c : ColumnConstraint) : Pos := c.spec.end_

/-- stmt.go:490-492. -/
def ColumnDef.pos (c : ColumnDef) : Pos := c.name.from_
/-- stmt.go:494-496, which panics for a column without constraints. -/
def ColumnDef.end_ (c : ColumnDef) : Option Pos := c.constraints.getLast?.map ColumnConstraint.end_

def TableElement.pos : TableElement → Pos
  | .constraint c => c.pos
  | .column c => c.pos
def TableElement.end_ : TableElement → Option Pos
  | .constraint c => some c.end_
  | .column c => c.end_

/-- table_option.go:29, 57-62. -/
def TableOption.pos : TableOption → Pos
  | .engine e _ _ => e
  | .charset isDefault d c _ _ => if isDefault then d else c
/-- table_option.go:33, 64. -/
def TableOption.end_ : TableOption → Pos
  | .engine _ _ n => n.to_
  | .charset _ _ _ _ n => n.to_

/-- stmt.go:827, 848, 871, 892, 913. -/
def AlterColumnAction.pos : AlterColumnAction → Pos
  | .setDefault s _ => s
  | .dropDefault d _ => d
  | .pgAlterDataType t _ => t
  | .pgSetNotNull s _ => s
  | .pgDropNotNull d _ => d
/-- stmt.go:831, 852, 875, 896, 917. -/
def AlterColumnAction.end_ : AlterColumnAction → Option Pos
  | .setDefault _ e => e.end_
  | .dropDefault _ d => some d
  | .pgAlterDataType _ d => d.end_
  | .pgSetNotNull _ n => some n
  | .pgDropNotNull _ n => some n

/-- stmt.go:773, 798, 937, 964, 988. -/
def AlterTableAction.pos : AlterTableAction → Pos
  | .addColumn a _ => a
  | .alterColumn _ a _ => a
  | .removeColumn _ _ _ d => d
  | .addConstraint a _ => a
  | .dropConstraint _ d _ _ => d
/-- stmt.go:777, 802, 941-946, 968, 992-998. -/
def AlterTableAction.end_ : AlterTableAction → Option Pos
  | .addColumn _ c => c.end_
  | .alterColumn _ _ a => a.end_
  | .removeColumn n cascade cp _ => some (if cascade then cp else n.to_)
  | .addConstraint _ c => some c.end_
  | .dropConstraint n _ cascade cp => some (if cascade then cp else n.to_)

/-- stmt.go:22, 141, 186, 223, 256, 286, 747, 1019, 1058, 1097, 1121. -/
def Stmt.pos : Stmt → Option Pos
  | .query q => q.pos
  | .insert i _ _ _ _ => some i
  | .copy c _ _ _ => some c
  | .update u _ _ _ => some u
  | .delete d _ _ => some d
  | .createView c _ _ _ => some c
  | .createTable c _ _ _ _ => some c
  | .alterTable a _ _ => some a
  | .dropTable _ _ _ _ d => some d
  | .createIndex c _ _ _ _ _ _ _ => some c
  | .dropIndex d _ => some d
  | .explain _ e => some e
/-- stmt.go:26-32, 146-148, 190-196, 227-233, 260, 290, 751, 1023-1029, 1062-1068, 1101, 1125. -/
def Stmt.end_ : Stmt → Option Pos
  | .query q => q.end_
  | .insert _ _ _ source assigns =>
    match assigns.getLast? with
    | some a => a.end_
    | none => source.end_
  | .copy _ _ _ _ => none
  | .update _ _ assigns selection =>
    match selection with
    | some e => e.end_
    | none => assigns.getLast?.bind Assignment.end_
  | .delete _ n selection =>
    match selection with
    | some e => e.end_
    | none => identsEnd n.idents
  | .createView _ _ q _ => q.end_
  | .createTable _ _ elements _ _ => elements.getLast?.bind TableElement.end_
  | .alterTable _ _ a => a.end_
  | .dropTable names cascade cp _ _ =>
    if cascade then some cp else names.getLast?.bind fun n => identsEnd n.idents
  | .createIndex _ _ _ _ _ _ rp selection =>
    match selection with
    | some e => e.end_
    | none => some rp
  | .dropIndex _ is => identsEnd is
  | .explain s _ => s.end_

/-- comment.go:25-27, `CommentGroup.Pos`; `none` is the index panic for an empty group. -/
def CommentGroup.pos? (g : CommentGroup) : Option Pos := g.list.head?.map Comment.from_

/-- comment.go:29-31, `CommentGroup.End`. -/
def CommentGroup.end? (g : CommentGroup) : Option Pos := g.list.getLast?.map Comment.to_

/-- ast.go:41-49, `File.Pos`; the position of the first statement is computed in any case. -/
def File.pos (f : File) : Option Pos :=
  (f.stmts.head?.bind Stmt.pos).bind fun s =>
    match f.comments.head? with
    | none => some s
    | some g => g.pos?.map fun c => if comparePos s c = 1 then c else s

/-- ast.go:30-39, `File.End`. -/
def File.end_ (f : File) : Option Pos :=
  (f.stmts.getLast?.bind Stmt.end_).bind fun s =>
    match f.comments.getLast? with
    | none => some s
    | some g => g.end?.map fun c => if comparePos c s = 1 then c else s

end Verif
