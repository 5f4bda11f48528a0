import Verif.Proofs.Order
import Verif.Props.Atoms
import Verif.Props.Walk
/-
Property theorems C63: `Inspect` passes the nodes of a parsed tree in the order of the text.

`InOrder ts ps` (Verif/Spec/Order.lean) says that the positions `ps` are those where tokens of `ts` begin, in the order of
`ts`.  `Tree.reordered` lists the six cases in which it is not so.
-/
set_option maxRecDepth 100000
namespace Verif
open Spec

theorem tidy_of_occurs {t : Tree} (h : ∀ u, Occurs t u → u.reordered = false) : Tidy t := fun u hu => h u hu.occurs

/-! ### The order -/

/-- C63 for `ParseExpr` and `Inspect` with any function. -/
theorem C63_expr {σ : Type} (fns : FloatFns) (n : Nat) (mode : Bool) (toks : List Token) (hk : KwOK toks) (e : Expr)
    (h : runExpr fns n mode toks = .ok e ()) (hr : ∀ u, Occurs e.tree u → u.reordered = false) :
    ∃ read rest, significant toks = read ++ rest ∧
      ∀ (f : Option Tree → σ → Bool × σ) (s s' : σ) (l : List (Option Tree × Bool)),
        inspect (loggedFn f) e.tree (s, []) = .ok (s', l) → InOrder read (visitedPos l) := by
  obtain ⟨read, rest, h1, h2⟩ := C50_expr_grammar fns n mode toks hk e h
  exact ⟨read, rest, h1, fun f s s' l hl =>
    (placed_expr e (tidy_of_occurs hr)).ord read h2 l (C36_nesting f _ s s' l hl)⟩

/-- C63 for `ParseDataType`: there are no exceptions. -/
theorem C63_dataType {σ : Type} (fns : FloatFns) (n : Nat) (mode : Bool) (toks : List Token) (hk : KwOK toks) (t : DataType)
    (h : runDataType fns n mode toks = .ok t ()) :
    ∃ read rest, significant toks = read ++ rest ∧
      ∀ (f : Option Tree → σ → Bool × σ) (s s' : σ) (l : List (Option Tree × Bool)),
        inspect (loggedFn f) t.tree (s, []) = .ok (s', l) → InOrder read (visitedPos l) := by
  obtain ⟨read, rest, h1, h2⟩ := C50_dataType_grammar fns n mode toks hk t h
  exact ⟨read, rest, h1, fun f s s' l hl => (placed_dataType t).ord read h2 l (C36_nesting f _ s s' l hl)⟩

/-- C63 for `ParseStatement`. -/
theorem C63_statement {σ : Type} (fns : FloatFns) (n : Nat) (mode : Bool) (toks : List Token) (hk : KwOK toks) (x : Stmt)
    (h : runStatement fns n mode toks = .ok x ()) (hr : ∀ u, Occurs x.tree u → u.reordered = false) :
    ∃ read rest, significant toks = read ++ rest ∧
      ∀ (f : Option Tree → σ → Bool × σ) (s s' : σ) (l : List (Option Tree × Bool)),
        inspect (loggedFn f) x.tree (s, []) = .ok (s', l) → InOrder read (visitedPos l) := by
  obtain ⟨read, rest, h1, h2⟩ := C50_statement_grammar fns n mode toks hk x h
  exact ⟨read, rest, h1, fun f s s' l hl =>
    (placed_stmt x (tidy_of_occurs hr)).ord read h2 l (C36_nesting f _ s s' l hl)⟩

/-- C63 for `ParseFile`: the calls of `Inspect` after the one for the file itself. -/
theorem C63_file {σ : Type} (fns : FloatFns) (n fuel : Nat) (mode : Bool) (d : Dialect) (src : Str) (toks : List Token)
    (ht : tokenize d true fuel src = .ok toks) (x : File) (ps : PState)
    (h : parseFile fns n mode (newParser toks) = .ok x ps) (hr : ∀ u, Occurs x.tree u → u.reordered = false)
    (f : Option Tree → σ → Bool × σ) (s s' : σ) (l : List (Option Tree × Bool))
    (hl : inspect (loggedFn f) x.tree (s, []) = .ok (s', l)) : InOrder (significant toks) (visitedPos l.tail) := by
  have hg := C50_file_grammar fns n fuel mode d src toks ht x ps h
  have hk : x.tree.walkKids = some ((x.stmts.map Stmt.tree).map some ++ []) := by kernel_rfl
  have hT := tidy_of_occurs hr
  have ho := ord_script (fns := fns) x.stmts (fun y hy => hT.kid hk (by
    rw [List.append_nil, mem_mapKids]; exact ⟨y, hy, rfl⟩)) _ hg
  have ht := C36_nesting f _ s s' l hl
  cases ht with
  | pruned h => cases h; exact .nil _
  | visited hk' hc h =>
    cases h
    rw [hk, List.append_nil] at hk'
    cases hk'
    rw [List.tail_cons, visitedPos_append, visitedPos_none]
    simpa [visitedPos] using ho _ hc

/-! ### What this shows -/

theorem inOrder_sorted {ts : List Token} {ps : List Pos} (h : InOrder ts ps)
    (hp : ts.Pairwise (fun a b => comparePos a.from_ b.from_ = -1)) :
    ps.Pairwise (fun p q => comparePos p q ≠ 1) ∧ ∀ p ∈ ps, ∃ t ∈ ts, t.from_ = p := by
  induction h with
  | nil => simp
  | skip t _ ih =>
    obtain ⟨h1, h2⟩ := ih hp.of_cons
    exact ⟨h1, fun p hp => by obtain ⟨u, hu, e⟩ := h2 p hp; exact ⟨u, List.mem_cons_of_mem _ hu, e⟩⟩
  | here t _ ih =>
    obtain ⟨h1, h2⟩ := ih hp
    refine ⟨List.pairwise_cons.2 ⟨fun q hq => ?_, h1⟩, fun p hp => ?_⟩
    · obtain ⟨u, hu, rfl⟩ := h2 q hq
      rcases List.mem_cons.1 hu with rfl | hu
      · simp [comparePos]
      · rw [(List.pairwise_cons.1 hp).1 u hu]; decide
    · rcases List.mem_cons.1 hp with rfl | hp
      · exact ⟨t, List.mem_cons_self, rfl⟩
      · exact h2 p hp

/-- C63: in the calls of `Inspect` for a parsed file, after the one for the file itself, no position comes after a
greater one, and at each of them a token of the text begins. -/
theorem C63_sorted {σ : Type} (fns : FloatFns) (n fuel : Nat) (mode : Bool) (d : Dialect) (src : Str) (toks : List Token)
    (ht : tokenize d true fuel src = .ok toks) (x : File) (ps : PState)
    (h : parseFile fns n mode (newParser toks) = .ok x ps) (hr : ∀ u, Occurs x.tree u → u.reordered = false)
    (f : Option Tree → σ → Bool × σ) (s s' : σ) (l : List (Option Tree × Bool))
    (hl : inspect (loggedFn f) x.tree (s, []) = .ok (s', l)) :
    (visitedPos l.tail).Pairwise (fun p q => comparePos p q ≠ 1) ∧ ∀ p ∈ visitedPos l.tail, ∃ t ∈ toks, t.from_ = p := by
  have hp : (significant toks).Pairwise (fun a b => comparePos a.from_ b.from_ = -1) :=
    (C03_positions_increase ht).2.sublist List.filter_sublist
  obtain ⟨h1, h2⟩ := inOrder_sorted (C63_file fns n fuel mode d src toks ht x ps h hr f s s' l hl) hp
  exact ⟨h1, fun p hp => by obtain ⟨t, ht, e⟩ := h2 p hp; exact ⟨t, (List.mem_filter.1 ht).1, e⟩⟩

/-! ### The exceptions -/

/-- The calls of `Inspect` with a function that always wants to go on. -/
def allCalls (t : Tree) : List (Option Tree × Bool) :=
  match inspect (loggedFn always) t ((), []) with
  | .ok s => s.2
  | .panic _ => []

/-- The kinds of the nodes that are exceptions, and whether some position comes right after a greater one. -/
def orderOf (t : Tree) : List Kind × Bool :=
  ((t.nodes.filter Tree.reordered).map Tree.kind,
    let ps := visitedPos (allCalls t)
    (ps.zip ps.tail).any fun p => comparePos p.1 p.2 = 1)

/-- Each of the six exceptions is one: for each there is a text in which it is the only one, and the positions go back. -/
theorem C63_exceptions_false (fns : FloatFns) :
    (stmtTrees fns (str% "SELECT 1 FROM t WHERE (SELECT 2) > 3;")).map orderOf = [([.SubQuery], true)] ∧
    (stmtTrees fns (str% "WITH x AS (SELECT 1) SELECT 2;")).map orderOf = [([.CTE], true)] ∧
    (stmtTrees fns (str% "SELECT 1 FROM a CROSS JOIN b;")).map orderOf = [([.CrossJoin], true)] ∧
    (stmtTrees fns (str% "SELECT 1 FROM f(2 AS x;")).map orderOf = [([.Table], true)] ∧
    (stmtTrees fns (str% "CREATE INDEX i ON t (a);")).map orderOf = [([.CreateIndexStmt], true)] ∧
    (stmtTrees fns (str% "CREATE TABLE t (a int NOT NULL DEFAULT 1);")).map orderOf = [([.ColumnDef], true)] := by
  refine ⟨?_, ?_, ?_, ?_, ?_, ?_⟩ <;> kernel_rfl

/-! ### Hypotheses met -/

/-- No node is an exception, `Inspect` returns, and at least `k` of its calls have a position. -/
def orderSample (k : Nat) (t : Tree) : Bool :=
  (t.nodes.all fun u => !u.reordered) && returns t && decide (k ≤ (visitedPos (allCalls t)).length)

theorem orderSample_spec {k : Nat} {t : Tree} (h : orderSample k t = true) :
    (∀ u, Occurs t u → u.reordered = false) ∧
      ∃ s' l, inspect (loggedFn always) t ((), []) = .ok (s', l) ∧ k ≤ (visitedPos l).length := by
  simp only [orderSample, Bool.and_eq_true, List.all_eq_true, decide_eq_true_eq] at h
  obtain ⟨⟨h1, h2⟩, h3⟩ := h
  refine ⟨fun u hu => by simpa using h1 u ((mem_nodes_iff t u).2 hu), ?_⟩
  have hm := C36_record always t () []
  unfold returns at h2
  unfold allCalls at h3
  cases hi : inspect (loggedFn always) t ((), []) with
  | ok s => rw [hi] at h3; exact ⟨s.1, s.2, rfl, h3⟩
  | panic s =>
    rw [hi] at hm
    rw [← hm] at h2
    cases h2

/-- A file with joins, a derived table, a function, CASE, an update and a column definition, and with comments. -/
def orderText : Str := str% "SELECT a.b, f(c) FROM t AS a LEFT JOIN u ON a.x = u.x, (SELECT 1 FROM v) AS w
WHERE c IN (1, 2) AND CASE d WHEN 1 THEN -e ELSE f END > 0 ORDER BY g DESC; -- one
/* two */ UPDATE t SET a = 1, b = 'x' WHERE NOT c; CREATE TABLE s.t (a int UNIQUE, CONSTRAINT k PRIMARY KEY (a));"

def orderFile (fns : FloatFns) : Bool :=
  match tokenize genericDialect true (orderText.length + 1) orderText with
  | .ok toks =>
    match parseFile fns (3 * toks.length + 3) true (newParser toks) with
    | .ok x _ => orderSample 50 x.tree
    | _ => false
  | _ => false

example (fns : FloatFns) : ∃ toks x ps s' l, tokenize genericDialect true (orderText.length + 1) orderText = .ok toks ∧
    parseFile fns (3 * toks.length + 3) true (newParser toks) = .ok x ps ∧
    (∀ u, Occurs x.tree u → u.reordered = false) ∧
    inspect (loggedFn always) x.tree ((), []) = .ok (s', l) ∧ 50 ≤ (visitedPos l).length := by
  have h : orderFile fns = true := by kernel_rfl
  unfold orderFile at h
  split at h
  · rename_i toks ht
    split at h
    · rename_i x ps hx
      obtain ⟨h1, s', l, h2, h3⟩ := orderSample_spec h
      exact ⟨toks, x, ps, s', l, ht, hx, h1, h2, h3⟩
    · cases h
  · cases h

/-- An expression, a type and a statement. -/
example (fns : FloatFns) : (∃ toks e, KwOK toks ∧ runExpr fns (3 * toks.length + 3) false toks = .ok e () ∧
      orderSample 6 e.tree = true) ∧
    (∃ toks t, KwOK toks ∧ runDataType fns (3 * toks.length + 3) false toks = .ok t () ∧ orderSample 1 t.tree = true) ∧
    (∃ toks s, KwOK toks ∧ runStatement fns (3 * toks.length + 3) false toks = .ok s () ∧
      orderSample 8 s.tree = true) := by
  refine ⟨?_, ?_, ?_⟩
  · have h : ((readAs (fun n => runExpr fns n false) (str% "a + f(b, 'x') * 3")).map
        fun x => orderSample 6 x.2.tree) = some true := by kernel_rfl
    obtain ⟨toks, x, h1, h2, h3⟩ := readAs_some (p := fun x : Expr => orderSample 6 x.tree) h
    exact ⟨toks, x, tokenizeFrom_kwOK h1, h2, h3⟩
  · have h : ((readAs (fun n => runDataType fns n false) (str% "numeric(10, 2)")).map
        fun x => orderSample 1 x.2.tree) = some true := by kernel_rfl
    obtain ⟨toks, x, h1, h2, h3⟩ := readAs_some (p := fun x : DataType => orderSample 1 x.tree) h
    exact ⟨toks, x, tokenizeFrom_kwOK h1, h2, h3⟩
  · have h : ((readAs (fun n => runStatement fns n false) (str% "DELETE FROM s.t WHERE a = 'x';")).map
        fun x => orderSample 8 x.2.tree) = some true := by kernel_rfl
    obtain ⟨toks, x, h1, h2, h3⟩ := readAs_some (p := fun x : Stmt => orderSample 8 x.tree) h
    exact ⟨toks, x, tokenizeFrom_kwOK h1, h2, h3⟩

/-- `ROWS CURRENT ROW` with the positions that the parser does not set: the frame and a window with only a frame begin
at ROWS and end where the bound says. -/
example : let w : WindowFrame := ⟨⟨⟨1, 5⟩, ⟨1, 9⟩, .Rows⟩, .currentRow ⟨1, 10⟩ ⟨1, 21⟩, none⟩
    (w.tree.pos?, w.tree.end?) = (some ⟨1, 5⟩, some ⟨1, 21⟩) ∧
    ((WindowSpec.mk [] [] (some w) Pos.zero Pos.zero).tree.pos?,
      (WindowSpec.mk [] [] (some w) Pos.zero Pos.zero).tree.end?) = (some ⟨1, 5⟩, some ⟨1, 21⟩) := ⟨rfl, rfl⟩

/-- The other bounds, a frame with two of them, and a comment. -/
example : ([FrameBound.unboundedPreceding ⟨1, 1⟩ ⟨1, 2⟩, .unboundedFollowing ⟨2, 1⟩ ⟨2, 2⟩, .preceding 3 ⟨3, 1⟩ ⟨3, 2⟩,
      .following 4 ⟨4, 1⟩ ⟨4, 2⟩].map fun b => (b.tree.pos?, b.tree.end?)) =
      [(some ⟨1, 1⟩, some ⟨1, 2⟩), (some ⟨2, 1⟩, some ⟨2, 2⟩), (some ⟨3, 1⟩, some ⟨3, 2⟩), (some ⟨4, 1⟩, some ⟨4, 2⟩)] ∧
    (WindowFrame.mk ⟨⟨1, 5⟩, ⟨1, 9⟩, .Rows⟩ (.currentRow ⟨1, 10⟩ ⟨1, 21⟩) (some (.currentRow ⟨1, 30⟩ ⟨1, 41⟩))).tree.end? =
      some ⟨1, 41⟩ ∧
    ((Comment.mk (str% "c") ⟨5, 1⟩ ⟨5, 4⟩).tree.pos?, (Comment.mk (str% "c") ⟨5, 1⟩ ⟨5, 4⟩).tree.end?) =
      (some ⟨5, 1⟩, some ⟨5, 4⟩) := ⟨rfl, rfl, rfl⟩

/-- The options of a table, which Walk does not visit. -/
example : let n : Ident := ⟨str% "x", ⟨1, 20⟩, ⟨1, 21⟩⟩
    ([TableOption.engine ⟨1, 1⟩ true n, .charset true ⟨1, 2⟩ ⟨1, 9⟩ true n, .charset false ⟨1, 2⟩ ⟨1, 9⟩ true n].map
      fun o => (o.tree.pos?, o.tree.end?)) =
      [(some ⟨1, 1⟩, some ⟨1, 21⟩), (some ⟨1, 2⟩, some ⟨1, 21⟩), (some ⟨1, 9⟩, some ⟨1, 21⟩)] := rfl

end Verif
