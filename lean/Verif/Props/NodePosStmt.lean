/-
C45 for types, queries and statements.
-/
import Verif.Proofs.NodePosStmt2
import Verif.Props.NodePos
set_option maxRecDepth 100000

namespace Verif

/-- From the index semantics to the parser. -/
theorem node_spanned {p q : P α} {left right : α → Bool} {pos end_ : α → Option Pos} {mode : Bool} {s s' : PState} {x : α}
    (hs : s.idx ≤ s.toks.length) (hle : P.Le p q)
    (hq : ∀ i, i ≤ (s.toks.filter Token.sig).length → wp (s.toks.filter Token.sig) q i
      fun _ j => i + 1 ≤ j ∧ j ≤ (s.toks.filter Token.sig).length)
    (hp : ∀ i, pc (s.toks.filter Token.sig) p i fun x j =>
      StartIf (s.toks.filter Token.sig) (left x) (pos x) i ∧ EndIf (s.toks.filter Token.sig) (right x) (end_ x) j)
    (h : p.run mode s = .ok x s') :
    ∃ f l, (readBetween s s').head? = some f ∧ (readBetween s s').getLast? = some l ∧
      (left x = true → pos x = some f.from_) ∧ (left x = false → pos x = some Pos.zero) ∧
      (right x = true → l.dangling = false → end_ x = some l.to_) := by
  obtain ⟨h1, h2, h3⟩ := run_runI hs h
  have hi : s.before.length ≤ (s.toks.filter Token.sig).length := by
    rw [PState.before, List.length_reverse]
    exact ((List.take_sublist _ _).filter _).length_le
  have h3' := runI_le hle _ _ hi h3
  have hprog := hq _ hi
  unfold wp at hprog
  rw [h3'] at hprog
  obtain ⟨hlt', hle⟩ := hprog
  have hlt : s.before.length < s'.before.length := hlt'
  obtain ⟨hsp, hse⟩ := hp _ _ _ h3
  rw [readBetween_eq h1 hlt]
  generalize hT : s.toks.filter Token.sig = T at *
  generalize s.before.length = i at *
  generalize s'.before.length = j at *
  have hf : ((T.take j).drop i).head? = T[i]? := by
    rw [List.head?_drop, List.getElem?_take, if_pos hlt]
  have hl : ((T.take j).drop i).getLast? = T[j - 1]? := by
    rw [List.getLast?_drop, if_neg (by rw [List.length_take]; omega), List.getLast?_eq_getElem?, List.length_take,
      List.getElem?_take, if_pos (by omega), Nat.min_eq_left hle]
  rw [hf, hl]
  have h4 : i < T.length := by omega
  have h5 : j - 1 < T.length := by omega
  refine ⟨T[i], T[j - 1], List.getElem?_eq_getElem h4, List.getElem?_eq_getElem h5, ?_, hsp.2, ?_⟩
  · intro ho
    obtain ⟨f, h6, h7⟩ := hsp.1 ho
    rw [List.getElem?_eq_getElem h4, Option.some.injEq] at h6
    rw [h7, h6]
  · intro ho hd
    obtain ⟨k, l, rfl, h6, h7⟩ := hse ho
    rw [List.getElem?_eq_getElem (by omega : k < T.length), Option.some.injEq] at h6
    simp only [Nat.add_sub_cancel] at hd ⊢
    rw [h6] at hd ⊢
    exact h7 hd

/-- C45, part, for statements: `Pos` is the start of the first token, or (0, 0) if the statement begins with WITH,
with a query in parentheses, with EXPLAIN or is a CREATE INDEX; `End` is the end of the last token read, except in the
cases that `Stmt.rightOk` lists and after a dangling `(` or AS.  Missing: `End` in the exceptional cases. -/
theorem C45_statement_partial {fns : FloatFns} {n : Nat} {mode : Bool} {s s' : PState} {x : Stmt}
    (hs : s.idx ≤ s.toks.length) (hk : KwOK s.toks) (hst : StarsOk s.toks)
    (h : (Parsers.at fns n).statement.run mode s = .ok x s') :
    ∃ f l, (readBetween s s').head? = some f ∧ (readBetween s s').getLast? = some l ∧
      (x.leftOk = true → x.pos = some f.from_) ∧ (x.leftOk = false → x.pos = some Pos.zero) ∧
      (x.rightOk = true → l.dangling = false → x.end_ = some l.to_) := by
  have hle : n ≤ n + (3 * (s.toks.filter Token.sig).length + 3) := by omega
  exact node_spanned hs (at_mono fns hle).statement
    (fun i hi => (term_at fns hk.filter _).statement i hi (by omega))
    (fun i => (sq_at fns (fun t ht => hst t (List.mem_filter.1 ht).1) n).statement i) h

/-- C45, part, for queries. -/
theorem C45_query_partial {fns : FloatFns} {n : Nat} {mode : Bool} {s s' : PState} {x : QueryStmt}
    (hs : s.idx ≤ s.toks.length) (hk : KwOK s.toks) (hst : StarsOk s.toks)
    (h : (Parsers.at fns n).query.run mode s = .ok x s') :
    ∃ f l, (readBetween s s').head? = some f ∧ (readBetween s s').getLast? = some l ∧
      (x.leftOk = true → x.pos = some f.from_) ∧ (x.leftOk = false → x.pos = some Pos.zero) ∧
      (x.rightOk = true → l.dangling = false → x.end_ = some l.to_) := by
  have hle : n ≤ n + (3 * (s.toks.filter Token.sig).length + 3) := by omega
  exact node_spanned hs (at_mono fns hle).query
    (fun i hi => (term_at fns hk.filter _).query i hi (by omega))
    (fun i => (sq_at fns (fun t ht => hst t (List.mem_filter.1 ht).1) n).query i) h

/-- C45, part, for table references. -/
theorem C45_table_ref_partial {fns : FloatFns} {n : Nat} {mode : Bool} {s s' : PState} {x : TableRef}
    (hs : s.idx ≤ s.toks.length) (hk : KwOK s.toks) (hst : StarsOk s.toks)
    (h : (Parsers.at fns n).tableRef.run mode s = .ok x s') :
    ∃ f l, (readBetween s s').head? = some f ∧ (readBetween s s').getLast? = some l ∧
      (x.leftOk = true → x.pos = some f.from_) ∧ (x.leftOk = false → x.pos = some Pos.zero) ∧
      (x.rightOk = true → l.dangling = false → x.end_ = some l.to_) := by
  have hle : n ≤ n + (3 * (s.toks.filter Token.sig).length + 3) := by omega
  exact node_spanned hs (at_mono fns hle).tableRef
    (fun i hi => (term_at fns hk.filter _).tableRef i hi (by omega))
    (fun i => (sq_at fns (fun t ht => hst t (List.mem_filter.1 ht).1) n).tableRef i) h

/-- C45, part, for types. -/
theorem C45_data_type_partial {fns : FloatFns} {n : Nat} {mode : Bool} {s s' : PState} {x : DataType}
    (hs : s.idx ≤ s.toks.length) (hk : KwOK s.toks) (hst : StarsOk s.toks)
    (h : (parseDataType (Parsers.at fns n)).run mode s = .ok x s') :
    ∃ f l, (readBetween s s').head? = some f ∧ (readBetween s s').getLast? = some l ∧
      (x.leftOk = true → x.pos = some f.from_) ∧ (x.leftOk = false → x.pos = some Pos.zero) ∧
      (x.rightOk = true → l.dangling = false → x.end_ = some l.to_) := by
  have hle : n ≤ n + (3 * (s.toks.filter Token.sig).length + 3) := by omega
  exact node_spanned hs (mono_parseDataType (r := fun r => r) (fun _ _ h => h) _ _ (at_mono fns hle))
    (fun i hi => term_parseDataType (term_at fns hk.filter _) hi (by omega))
    (fun i => sq_parseDataType (sq_at fns (fun t ht => hst t (List.mem_filter.1 ht).1) n)) h

/-- No token of a text starts at (0, 0). -/
theorem source_from_ne {d : Dialect} {keep : Bool} {fuel : Nat} {src : Str} {toks : List Token}
    (ht : tokenize d keep fuel src = .ok toks) : ∀ t ∈ toks, t.from_ ≠ Pos.zero := by
  obtain ⟨all, s', h1, -, rfl⟩ := tokenize_ok_inv ht
  obtain ⟨-, -, -, i4, -⟩ := h1.pos
  intro t h hz
  have hm : t ∈ all := by
    cases keep with
    | true => exact h
    | false => exact (List.mem_filter.1 h).1
  rcases i4 t hm with h | h
  · rw [hz] at h
    cases h
  · rw [hz] at h
    simp [Pos.lt, Pos.zero, TState.pos] at h

/-- C45, exact for `Pos` of statements in a text: it is the start of the first token if and only if the statement
begins with a keyword whose position is stored. -/
theorem C45_statement_pos {d : Dialect} {keep : Bool} {fuel : Nat} {src : Str} {fns : FloatFns} {n : Nat} {mode : Bool}
    {s s' : PState} {x : Stmt} (ht : tokenize d keep fuel src = .ok s.toks) (hs : s.idx ≤ s.toks.length)
    (h : (Parsers.at fns n).statement.run mode s = .ok x s') :
    ∃ f, (readBetween s s').head? = some f ∧ (x.pos = some f.from_ ↔ x.leftOk = true) := by
  obtain ⟨h1, h2⟩ := C45_source ht
  obtain ⟨f, l, h3, -, h4, h5, -⟩ := C45_statement_partial hs h1 h2 h
  refine ⟨f, h3, fun hp => ?_, h4⟩
  cases hx : x.leftOk with
  | true => rfl
  | false =>
    rw [h5 hx, Option.some.injEq] at hp
    refine absurd hp.symm (source_from_ne ht f ?_)
    have := List.mem_of_mem_head? h3
    exact List.mem_of_mem_take (List.mem_of_mem_drop (List.mem_filter.1 this).1)

/-- `Pos` and `End` of the statement in a text, and the first and last position of its tokens. -/
def stmtSpan (fns : FloatFns) (src : Str) : Option ((Option Pos × Option Pos) × (Option Pos × Option Pos)) :=
  match tokenize genericDialect true (src.length + 1) src with
  | .ok toks =>
    match (Parsers.at fns (3 * toks.length + 3)).statement.run false (newParser toks) with
    | .ok e s => some ((e.pos, e.end_),
        ((readBetween (newParser toks) s).head?.map (·.from_), (readBetween (newParser toks) s).getLast?.map (·.to_)))
    | _ => none
  | _ => none

/-- The same for types. -/
def typeSpan (fns : FloatFns) (src : Str) : Option ((Option Pos × Option Pos) × (Option Pos × Option Pos)) :=
  match tokenize genericDialect true (src.length + 1) src with
  | .ok toks =>
    match (parseDataType (Parsers.at fns (3 * toks.length + 3))).run false (newParser toks) with
    | .ok e s => some ((e.pos, e.end_),
        ((readBetween (newParser toks) s).head?.map (·.from_), (readBetween (newParser toks) s).getLast?.map (·.to_)))
    | _ => none
  | _ => none

/-- Right ones. -/
example (fns : FloatFns) : stmtSpan fns (str% " SELECT a FROM t\nJOIN u ON a = b ;") =
    some ((some ⟨1, 2⟩, some ⟨2, 16⟩), (some ⟨1, 2⟩, some ⟨2, 16⟩)) := by kernel_rfl
example (fns : FloatFns) : stmtSpan fns (str% "ALTER TABLE t DROP COLUMN c CASCADE;") =
    some ((some ⟨1, 1⟩, some ⟨1, 36⟩), (some ⟨1, 1⟩, some ⟨1, 36⟩)) := by kernel_rfl
example (fns : FloatFns) : stmtSpan fns (str% "INSERT INTO t VALUES (1), (2);") =
    some ((some ⟨1, 1⟩, some ⟨1, 30⟩), (some ⟨1, 1⟩, some ⟨1, 30⟩)) := by kernel_rfl
example (fns : FloatFns) : typeSpan fns (str% "CHARACTER VARYING (3) ") =
    some ((some ⟨1, 1⟩, some ⟨1, 22⟩), (some ⟨1, 1⟩, some ⟨1, 22⟩)) := by kernel_rfl

/-- Each exception of the theorems above is needed; `none` is a panic. -/
theorem C45_statement_exceptions (fns : FloatFns) :
    stmtSpan fns (str% "WITH a AS (SELECT 1) SELECT 2;") = some ((some ⟨0, 0⟩, some ⟨1, 30⟩), (some ⟨1, 1⟩, some ⟨1, 30⟩)) ∧
    stmtSpan fns (str% "EXPLAIN SELECT 1;") = some ((some ⟨0, 0⟩, some ⟨1, 17⟩), (some ⟨1, 1⟩, some ⟨1, 17⟩)) ∧
    stmtSpan fns (str% "CREATE INDEX i ON t (a);") = some ((some ⟨0, 0⟩, some ⟨0, 0⟩), (some ⟨1, 1⟩, some ⟨1, 24⟩)) ∧
    stmtSpan fns (str% "SELECT 1 ORDER BY a ASC;") = some ((some ⟨1, 1⟩, some ⟨0, 0⟩), (some ⟨1, 1⟩, some ⟨1, 24⟩)) ∧
    stmtSpan fns (str% "SELECT a . * ;") = some ((some ⟨1, 1⟩, some ⟨1, 11⟩), (some ⟨1, 1⟩, some ⟨1, 13⟩)) ∧
    stmtSpan fns (str% "SELECT 1 FROM (SELECT 2);") = some ((some ⟨1, 1⟩, some ⟨0, 0⟩), (some ⟨1, 1⟩, some ⟨1, 25⟩)) ∧
    stmtSpan fns (str% "SELECT 1 FROM f(1);") = some ((some ⟨1, 1⟩, some ⟨0, 0⟩), (some ⟨1, 1⟩, some ⟨1, 18⟩)) ∧
    stmtSpan fns (str% "SELECT 1 FROM f();") = some ((some ⟨1, 1⟩, some ⟨1, 16⟩), (some ⟨1, 1⟩, some ⟨1, 17⟩)) ∧
    stmtSpan fns (str% "SELECT 1 FROM t AS") = some ((some ⟨1, 1⟩, some ⟨1, 16⟩), (some ⟨1, 1⟩, some ⟨1, 19⟩)) ∧
    stmtSpan fns (str% "SELECT 1 FROM t WITH (a);") = some ((some ⟨1, 1⟩, some ⟨0, 0⟩), (some ⟨1, 1⟩, some ⟨1, 25⟩)) ∧
    stmtSpan fns (str% "SELECT 1 FROM t JOIN u USING (a);") = some ((some ⟨1, 1⟩, some ⟨0, 0⟩), (some ⟨1, 1⟩, some ⟨1, 33⟩)) ∧
    stmtSpan fns (str% "SELECT 1 UNION (SELECT 2);") = some ((some ⟨1, 1⟩, some ⟨0, 0⟩), (some ⟨1, 1⟩, some ⟨1, 26⟩)) ∧
    stmtSpan fns (str% "SELECT 1 WHERE a LIMIT ALL;") = some ((some ⟨1, 1⟩, some ⟨0, 0⟩), (some ⟨1, 1⟩, some ⟨1, 27⟩)) ∧
    stmtSpan fns (str% "SELECT 1 WHERE a LIMIT 1 OFFSET 2;") = some ((some ⟨1, 1⟩, some ⟨1, 32⟩), (some ⟨1, 1⟩, some ⟨1, 34⟩)) ∧
    stmtSpan fns (str% "CREATE TABLE t (a int NOT NULL);") = some ((some ⟨1, 1⟩, some ⟨1, 31⟩), (some ⟨1, 1⟩, some ⟨1, 32⟩)) ∧
    stmtSpan fns (str% "CREATE TABLE t (a int);") = some ((some ⟨1, 1⟩, none), (some ⟨1, 1⟩, some ⟨1, 23⟩)) ∧
    stmtSpan fns (str% "CREATE TABLE t;") = some ((some ⟨1, 1⟩, none), (some ⟨1, 1⟩, some ⟨1, 15⟩)) ∧
    stmtSpan fns (str% "ALTER TABLE t ADD COLUMN a int;") = some ((some ⟨1, 1⟩, none), (some ⟨1, 1⟩, some ⟨1, 31⟩)) ∧
    stmtSpan fns (str% "ALTER TABLE t ADD COLUMN a int NOT NULL DEFAULT 1;") = some ((some ⟨1, 1⟩, some ⟨1, 40⟩), (some ⟨1, 1⟩, some ⟨1, 50⟩)) ∧
    typeSpan fns (str% "date") = some ((some ⟨0, 0⟩, some ⟨0, 0⟩), (some ⟨1, 1⟩, some ⟨1, 5⟩)) ∧
    typeSpan fns (str% "time") = some ((some ⟨0, 0⟩, some ⟨0, 0⟩), (some ⟨1, 1⟩, some ⟨1, 5⟩)) ∧
    typeSpan fns (str% "regclass") = some ((some ⟨0, 0⟩, some ⟨0, 0⟩), (some ⟨1, 1⟩, some ⟨1, 9⟩)) ∧
    typeSpan fns (str% "text") = some ((some ⟨0, 0⟩, some ⟨0, 0⟩), (some ⟨1, 1⟩, some ⟨1, 5⟩)) ∧
    typeSpan fns (str% "text[]") = some ((some ⟨0, 0⟩, some ⟨0, 0⟩), (some ⟨1, 1⟩, some ⟨1, 7⟩)) ∧
    typeSpan fns (str% "bytea") = some ((some ⟨0, 0⟩, some ⟨0, 0⟩), (some ⟨1, 1⟩, some ⟨1, 6⟩)) ∧
    typeSpan fns (str% "timestamp with time zone") = some ((some ⟨1, 1⟩, some ⟨0, 0⟩), (some ⟨1, 1⟩, some ⟨1, 25⟩)) ∧
    typeSpan fns (str% "timestamp without time zone") = some ((some ⟨1, 1⟩, some ⟨1, 10⟩), (some ⟨1, 1⟩, some ⟨1, 28⟩)) ∧
    typeSpan fns (str% "varchar") = some ((some ⟨1, 1⟩, some ⟨0, 0⟩), (some ⟨1, 1⟩, some ⟨1, 8⟩)) := by
  refine ⟨?_, ?_, ?_, ?_, ?_, ?_, ?_, ?_, ?_, ?_, ?_, ?_, ?_, ?_, ?_, ?_, ?_, ?_, ?_, ?_, ?_, ?_, ?_, ?_, ?_, ?_, ?_, ?_⟩ <;> kernel_rfl

end Verif
