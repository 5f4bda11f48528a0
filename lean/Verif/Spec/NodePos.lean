/-
The tokens of a node, and the expressions whose `Pos` and `End` are computed correctly.
-/
import Verif.Model.NodePos
import Verif.Model.ParserMonad

namespace Verif

/-- The significant tokens read between two states of a parser. -/
def readBetween (s s' : PState) : List Token := ((s.toks.take s'.idx).drop s.idx).filter Token.sig

/-- `Pos` is right: the first thing in the expression is neither a subquery in parentheses nor a `::` cast. -/
def Expr.leftOk : Expr → Bool
  | .subQuery _ _ _ => false
  | .cast _ _ c _ => c ≠ Pos.zero
  | .isNull x => x.leftOk
  | .isNotNull x => x.leftOk
  | .inList e _ _ _ => e.leftOk
  | .inSubQuery e _ _ _ => e.leftOk
  | .between e _ _ _ => e.leftOk
  | .binary l _ _ => l.leftOk
  | _ => true

/-- `End` is right: the last thing in the expression is neither a subquery in parentheses, nor a `::` cast, nor
`IS [NOT] NULL`, nor `a.*`, nor a function with OVER. -/
def Expr.rightOk : Expr → Bool
  | .subQuery _ _ _ => false
  | .cast _ _ _ rp => rp ≠ Pos.zero
  | .isNull _ => false
  | .isNotNull _ => false
  | .qualifiedWildcard _ => false
  | .function _ _ _ over _ => over.isNone
  | .between _ _ _ h => h.rightOk
  | .binary _ _ r => r.rightOk
  | .unary _ _ e => e.rightOk
  | _ => true

/-! ### Types, queries and statements

`leftOk`: `Pos` is right.  `rightOk`: `End` is right, except after a dangling `(` or AS (below). -/

/-- `Pos` is stored by the parser. -/
def DataType.leftOk : DataType → Bool
  | .date _ _ | .time _ _ | .regclass _ _ | .text _ _ | .bytea _ _ | .array _ _ => false
  | _ => true

/-- `End` is stored by the parser; the end of `VARCHAR` without a size, of TIMESTAMP and of the types above is not. -/
def DataType.rightOk : DataType → Bool
  | .varchar size _ varying _ => size.isSome || varying ≠ Pos.zero
  | .date _ _ | .time _ _ | .timestamp _ _ _ | .regclass _ _ | .text _ _ | .bytea _ _ | .array _ _ => false
  | _ => true

/-- The positions of ASC and DESC are not stored. -/
def OrderByExpr.rightOk : OrderByExpr → Bool
  | .mk e _ asc => asc.isNone && e.rightOk

/-- LIMIT ALL has no position, and `End` of `LIMIT 1 OFFSET 2` is the end of the word OFFSET. -/
def LimitExpr.rightOk (l : LimitExpr) : Bool := l.count.isSome && l.offset.isNone

/-- `End` of `a.*` is two columns after the end of `a`, which is right only for `a.*` without blanks. -/
def SelectItem.rightOk : SelectItem → Bool
  | .unnamed e => e.rightOk
  | .qualifiedWildcard _ => false
  | _ => true

/-- Parentheses and LATERAL of a derived table have no position. -/
def TableFactor.leftOk : TableFactor → Bool
  | .table _ _ _ _ _ _ => true
  | .derived _ _ _ _ _ _ => false

/-- Only names and aliases have positions; the parentheses of arguments and hints do not. -/
def TableFactor.rightOk : TableFactor → Bool
  | .table _ alias args _ hints _ => hints.isEmpty && (alias.isSome || args.isEmpty)
  | .derived _ _ _ _ _ alias => alias.isSome

/-- USING has no position. -/
def JoinSpec.rightOk : JoinSpec → Bool
  | .namedColumns _ _ _ => false
  | .condition e _ => e.rightOk

def TableRef.leftOk : TableRef → Bool
  | .factor f => f.leftOk
  | .cross l _ => l.leftOk
  | .partitioned f _ _ => f.leftOk
  | .qualified l _ _ _ => l.leftOk
  | .natural l _ _ => l.leftOk

def TableRef.rightOk : TableRef → Bool
  | .factor f => f.rightOk
  | .cross _ f => f.rightOk
  | .partitioned _ _ _ => false
  | .qualified _ _ _ s => s.rightOk
  | .natural _ _ r => r.rightOk

/-- The last clause of the query. -/
def SQLSelect.rightOk : SQLSelect → Bool
  | .mk _ projection from_ where_ groupBy having _ =>
    match having, groupBy.getLast?, where_, from_.getLast?, projection.getLast? with
    | some e, _, _, _, _ => e.rightOk
    | none, some e, _, _, _ => e.rightOk
    | none, none, some e, _, _ => e.rightOk
    | none, none, none, some t, _ => t.rightOk
    | none, none, none, none, some i => i.rightOk
    | none, none, none, none, none => false

/-- The parentheses of a query have no position. -/
def SetExpr.leftOk : SetExpr → Bool
  | .query _ _ _ => false
  | .setOp _ _ l _ => l.leftOk
  | _ => true

def SetExpr.rightOk : SetExpr → Bool
  | .selectExpr s => s.rightOk
  | .select s => s.rightOk
  | .query _ _ _ => false
  | .setOp _ _ _ r => r.rightOk

/-- WITH has no position. -/
def QueryStmt.leftOk : QueryStmt → Bool
  | .mk _ ctes body _ _ => ctes.isEmpty && body.leftOk

def QueryStmt.rightOk : QueryStmt → Bool
  | .mk _ _ body orderBy limit =>
    match limit, orderBy.getLast? with
    | some l, _ => l.rightOk
    | none, some o => o.rightOk
    | none, none => body.rightOk

def InsertSource.rightOk : InsertSource → Bool
  | .subQuery q => q.rightOk
  | .constructor _ _ => true

def AlterColumnAction.rightOk : AlterColumnAction → Bool
  | .setDefault _ e => e.rightOk
  | .pgAlterDataType _ d => d.rightOk
  | _ => true

/-- `End` of a column is the end of its last constraint, and panics if there is none. -/
def AlterTableAction.rightOk : AlterTableAction → Bool
  | .addColumn _ _ => false
  | .alterColumn _ _ a => a.rightOk
  | _ => true

/-- CREATE of an index, and EXPLAIN, have no position. -/
def Stmt.leftOk : Stmt → Bool
  | .query q => q.leftOk
  | .createIndex _ _ _ _ _ _ _ _ => false
  | .explain _ _ => false
  | _ => true

/-- `End` of CREATE TABLE is that of the last element, and CREATE INDEX has no position of the right parenthesis. -/
def Stmt.rightOk : Stmt → Bool
  | .query q => q.rightOk
  | .insert _ _ _ source assigns =>
    match assigns.getLast? with
    | some a => a.value.rightOk
    | none => source.rightOk
  | .copy _ _ _ _ => false
  | .update _ _ assigns selection =>
    match selection, assigns.getLast? with
    | some e, _ => e.rightOk
    | none, some a => a.value.rightOk
    | none, none => false
  | .delete _ _ selection =>
    match selection with
    | some e => e.rightOk
    | none => true
  | .createView _ _ q _ => q.rightOk
  | .createTable _ _ _ _ _ => false
  | .alterTable _ _ a => a.rightOk
  | .dropTable _ _ _ _ _ => true
  | .createIndex _ _ _ _ _ _ _ selection =>
    match selection with
    | some e => e.rightOk
    | none => false
  | .dropIndex _ _ => true
  | .explain s _ => s.rightOk

/-- A token that can be the last one read although the node does not have it: the `(` of a table function without
arguments, whose `)` is not read, and an AS at the end of the input. -/
def Token.dangling (t : Token) : Bool := t.matchesKw (str% "AS") || t.isSym .LParen

/-- Each `*` takes one column. -/
def StarsOk (toks : List Token) : Prop :=
  ∀ t ∈ toks, t.isSym .Mult = true → t.to_ = ⟨t.from_.line, t.from_.col + 1⟩

end Verif
