import Verif.Spec.WellFormed
import Verif.Proofs.KernelRfl
/-
Sample trees for the non-vacuity examples of the round-trip theorems.
-/
set_option maxRecDepth 100000
namespace Verif.Sample

def p : Pos := Pos.zero
def id (s : Str) : Ident := ⟨s, p, p⟩
def v (s : Str) : Expr := .ident (id s)
def nm (s : Str) : ObjectName := ⟨[id s]⟩
def n (k : Int) : Expr := .long ⟨p, p, k⟩
def op (o : OpType) : Operator := ⟨o, p, p⟩
def bin (o : OpType) (l r : Expr) : Expr := .binary l (op o) r

/-- `SELECT x AS y, count(*) FROM t AS u LEFT JOIN s ON u.id = s.id WHERE x IS NOT NULL GROUP BY x HAVING (x) > 1` -/
def select : SQLSelect :=
  .mk false [.alias (v (str% "x")) (id (str% "y")), .unnamed (.function (nm (str% "cnt")) [.wildcard p] p none p)]
    [.qualified (.factor (.table (nm (str% "t")) (some (id (str% "u"))) [] p [] p)) ⟨.LEFT, p, p⟩
      (.factor (.table (nm (str% "s")) none [] p [] p))
      (.condition (bin .Eq (.compoundIdent [id (str% "u"), id (str% "id")])
        (.compoundIdent [id (str% "s"), id (str% "id")])) p)]
    (some (.isNotNull (v (str% "x")))) [v (str% "x")] (some (bin .Gt (.nested (v (str% "x")) p p) (n 1))) p

/-- A query with a common table expression, a set operation, an ordering and a limit. -/
def query : QueryStmt :=
  .mk p [.mk (id (str% "c")) (.mk p [] (.select select) [] none) p]
    (.setOp (.union p p) true (.select select) (.select (.mk true [.unnamed (.wildcard p)] [] none [] none p)))
    [.mk (v (str% "x")) p (some false)] (some ⟨some ⟨p, p, 10⟩, p, p, some ⟨p, p, 5⟩⟩)

/-- `NOT a + 1 * b < 2 AND x NOT IN (1, 2) OR y BETWEEN 1 AND c AND CASE WHEN a THEN 'q' ELSE (SELECT ...) END` -/
def expr : Expr :=
  bin .Or
    (bin .And (.unary p (op .Not) (bin .Lt (bin .Plus (v (str% "a")) (bin .Multiply (n 1) (v (str% "b")))) (n 2)))
      (.inList (v (str% "x")) [n 1, n 2] true p))
    (bin .And (.between (v (str% "y")) false (n 1) (v (str% "c")))
      (.caseExpr p p none [v (str% "a")] [.singleQuoted p p (str% "q")] (some (.subQuery p p query))))

/-- A table with constraints of all kinds. -/
def createTable : Stmt :=
  .createTable p (nm (str% "t"))
    [.column ⟨id (str% "a"), .varchar (some 20) p p p, some (n 1), [],
      [⟨none, p, .notNull p p⟩, ⟨some (id (str% "k")), p, .check expr p p⟩]⟩,
     .column ⟨id (str% "b"), .decimal (some 10) (some 2) p p false p, none, [], [⟨none, p, .unique true p p p⟩]⟩,
     .constraint ⟨p, none, .referential p [id (str% "a")] ⟨id (str% "s"), [id (str% "a")], p⟩⟩]
    true []

def insert : Stmt :=
  .insert p (nm (str% "t")) [id (str% "a"), id (str% "b")] (.constructor p [⟨[n 1, expr], p, p⟩, ⟨[n 2, n 3], p, p⟩]) []

def update : Stmt := .update p (nm (str% "t")) [⟨id (str% "a"), expr⟩] (some expr)

def statements : List Stmt := [createTable, insert, update, .query query, .explain (.query query) p]

theorem expr_wf (fns : FloatFns) : expr.wf genericDialect fns = true := by kernel_rfl
theorem query_wf (fns : FloatFns) : query.wf genericDialect fns = true := by kernel_rfl
theorem createTable_wf (fns : FloatFns) : createTable.wf genericDialect fns = true := by kernel_rfl
theorem insert_wf (fns : FloatFns) : insert.wf genericDialect fns = true := by kernel_rfl
theorem update_wf (fns : FloatFns) : update.wf genericDialect fns = true := by kernel_rfl
theorem statements_wf (fns : FloatFns) : ∀ s ∈ statements, s.wf genericDialect fns = true := by
  have h : (statements.all fun s => s.wf genericDialect fns) = true := by kernel_rfl
  simpa using h

end Verif.Sample
