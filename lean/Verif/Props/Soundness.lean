import Verif.Proofs.ShapeStmt
import Verif.Proofs.ShapeWf
import Verif.Props.RoundTrip
import Verif.Spec.Precedence
/-
Property theorems C22 (second part), C27 and C49: what can be said about every tree that the parser returns,
whatever the input.

`shape` (Verif/Spec/Shape.lean) is the part of well-formedness that relates parts of a tree to each other:
operators respect the levels, lists that may not be empty are not, the parts of a query are those that the
tokens after it allow.  `plain` is the rest: conditions on single names, literals and clauses.
-/
set_option maxRecDepth 100000
namespace Verif
open Spec

/-- The words of a tokenized text are spelled as the dialect spells words. -/
theorem spelled_words {d : Dialect} (hd : BuiltIn d) {fuel : Nat} {src : Str} {toks : List Token}
    (h : tokenize d true fuel src = .ok toks) : WordsOK toks (spelled d) := by
  obtain ⟨tps, rfl, -, h3⟩ := C01_tokenize_lossless h
  intro t ht w hw
  obtain ⟨x, hx, rfl⟩ := List.mem_map.1 ht
  have hs := h3 x hx
  rw [hw] at hs
  have hq : ∀ q, d.isDelimStart q = true → q = '"' ∨ q = '[' ∨ q = '`' := by
    rcases hd with rfl | rfl | rfl <;> intro q hq <;>
      simp [genericDialect, mysqlDialect, postgresDialect] at hq <;> grind
  have hn : ∀ q, (q = '"' ∨ q = '[' ∨ q = '`') → ¬(q = 'N' ∨ d.isIdentStart q = true) := by
    rcases hd with rfl | rfl | rfl <;> rintro q (rfl | rfl | rfl) <;> decide
  generalize x.2 = text at hs
  cases hs with
  | word c w h1 h2 =>
    have h0 : ¬(c = '"' ∨ c = '[' ∨ c = '`') := fun h => hn c h h1
    simp only [SQLWord.string, spelled, if_neg h0, Bool.and_eq_true, Bool.or_eq_true, beq_iff_eq, List.all_eq_true]
    exact ⟨h1, h2⟩
  | delim q w h1 h2 =>
    have h0 := hq q h1
    simp only [SQLWord.string, if_pos h0, spelled, List.cons_append, List.nil_append, Bool.and_eq_true, beq_iff_eq,
      h1, List.getLast?_append, List.dropLast_concat, Bool.not_eq_true', List.contains_eq_mem, h2]
    simp

/-! ### The result of a run -/

theorem sh_parseSQLLoop {T : List Token} {I : Str → Bool} {r : Parsers} (H : Sh T I r) (mode : Bool) :
    ∀ (n : Nat) (b : Bool) (i : Nat), pc T (parseSQLLoop mode r n b) i fun ss _ => ∀ s ∈ ss, s.shape I = true
  | 0, _, _ => fun _ _ h => by cases h
  | n + 1, b, i => by
    unfold parseSQLLoop
    have key : ∀ k, pc T (do
        let s ← r.statement
        let ss ← parseSQLLoop mode r n true
        pure (s :: ss)) k fun ss _ => ∀ s ∈ ss, s.shape I = true := fun k =>
      pc_seq (H.statement _) fun s _ hs => pc_seq (sh_parseSQLLoop H mode n true _) fun ss _ hss =>
        pc_pure (by simpa [hs] using hss)
    refine pc_skip fun ok k => pc_ite (fun _ => pc_err) fun _ => ?_
    cases mode
    · simp only [Bool.false_eq_true, if_false]
      refine pc_skip fun t k => ?_
      split
      · exact pc_pure (by simp)
      · exact key _
    · simp only [if_true]
      refine pc_skip fun t k => ?_
      split
      · exact pc_pure (by simp)
      · exact pc_skip fun _ _ => key _

/-- A postcondition holds for the outcome of a run. -/
theorem outcome_pc {p : P α} {mode : Bool} {toks : List Token} {x : α} {Q : α → Nat → Prop}
    (h : (p.run mode (newParser toks)).outcome = .ok x ()) (hp : ∀ i, pc (toks.filter Token.sig) p i Q) :
    ∃ j, Q x j := by
  obtain ⟨s, hs⟩ := outcome_ok h
  exact ⟨_, hp _ _ _ (run_runI (s := newParser toks) (Nat.zero_le _) hs).2.2⟩

theorem WordsOK.filter {T : List Token} {I : Str → Bool} (h : WordsOK T I) (f : Token → Bool) : WordsOK (T.filter f) I :=
  fun t ht => h t (List.mem_filter.1 ht).1

/-! ### C49 -/

/-- C49: every statement that `ParseStatement` returns has the right shape, whatever the tokens (and whatever
is known about the words among them). -/
theorem C49_statement_shape (fns : FloatFns) (n : Nat) (mode : Bool) (I : Str → Bool) (toks : List Token)
    (hk : KwOK toks) (hw : WordsOK toks I) (s : Stmt) (h : runStatement fns n mode toks = .ok s ()) :
    s.shape I = true :=
  (outcome_pc h fun i => (sh_at fns hk.filter (hw.filter _) n).statement i).choose_spec

/-- C49 for `ParseExpr`. -/
theorem C49_expr_shape (fns : FloatFns) (n : Nat) (mode : Bool) (I : Str → Bool) (toks : List Token)
    (hk : KwOK toks) (hw : WordsOK toks I) (e : Expr) (h : runExpr fns n mode toks = .ok e ()) :
    e.shape I = true :=
  (outcome_pc (p := (Parsers.at fns n).subexpr 0) (Q := fun e _ => e.shape I = true) h
    fun i => pc_mono ((sh_at fns hk.filter (hw.filter _) n).subexpr 0 i (by omega)) fun e _ h => h.1.shape).choose_spec

/-- C49 for `ParseSQL`. -/
theorem C49_statements_shape (fns : FloatFns) (n : Nat) (mode : Bool) (I : Str → Bool) (toks : List Token)
    (hk : KwOK toks) (hw : WordsOK toks I) (ss : List Stmt) (h : runSQL fns n mode toks = .ok ss ()) :
    ∀ s ∈ ss, s.shape I = true :=
  (outcome_pc h fun i => sh_parseSQLLoop (sh_at fns hk.filter (hw.filter _) n) mode n false i).choose_spec

/-- What a text is read to by a parser function, in the generic dialect. -/
def readAs (run : Nat → List Token → Res Unit α) (src : Str) : Option (List Token × α) :=
  match tokenize genericDialect true (src.length + 1) src with
  | .ok toks =>
    match run (3 * toks.length + 3) toks with
    | .ok x _ => some (toks, x)
    | _ => none
  | _ => none

theorem readAs_some {run : Nat → List Token → Res Unit α} {src : Str} {p : α → Bool}
    (h : ((readAs run src).map fun x => p x.2) = some true) : ∃ toks x, tokenize genericDialect true
      (src.length + 1) src = .ok toks ∧ run (3 * toks.length + 3) toks = .ok x () ∧ p x = true := by
  unfold readAs at h
  split at h
  · rename_i toks ht
    split at h
    · rename_i x _ hx
      exact ⟨toks, x, ht, hx, by simpa using h⟩
    · cases h
  · cases h

def soundExpr : Str := str% "a OR b + 1 * -c = 2 AND NOT d NOT IN (1, e) OR \"f\" BETWEEN 1 AND (2 - 3 - 4)"
def soundStmt : Str := str% "SELECT a OR b + 1 x1, c FROM t AS u NATURAL JOIN v WHERE a NOT IN (1) ORDER BY b LIMIT 3;"
def soundList : Str := str% ";SELECT a;CREATE TABLE t (a INT NOT NULL DEFAULT 1 + 1, b CHAR(3));DELETE FROM t WHERE a = 1;"

/-- Accepted texts, whose trees moreover are plain. -/
theorem soundExpr_ok (fns : FloatFns) : ∃ toks e, tokenize genericDialect true (soundExpr.length + 1) soundExpr =
    .ok toks ∧ runExpr fns (3 * toks.length + 3) false toks = .ok e () ∧ e.plain fns = true :=
  readAs_some (run := fun n => runExpr fns n false) (by kernel_rfl)
theorem soundStmt_ok (fns : FloatFns) : ∃ toks s, tokenize genericDialect true (soundStmt.length + 1) soundStmt =
    .ok toks ∧ runStatement fns (3 * toks.length + 3) false toks = .ok s () ∧ s.plain fns = true :=
  readAs_some (run := fun n => runStatement fns n false) (by kernel_rfl)
theorem soundList_ok (fns : FloatFns) : ∃ toks ss, tokenize genericDialect true (soundList.length + 1) soundList =
    .ok toks ∧ runSQL fns (3 * toks.length + 3) false toks = .ok ss () ∧ (ss.all fun s => s.plain fns) = true :=
  readAs_some (run := fun n => runSQL fns n false) (p := fun ss => ss.all fun s => s.plain fns) (by kernel_rfl)

/-- Hypotheses met. -/
example (fns : FloatFns) : ∃ toks s, KwOK toks ∧ WordsOK toks (spelled genericDialect) ∧
    runStatement fns (3 * toks.length + 3) false toks = .ok s () := by
  obtain ⟨toks, s, h1, h2, -⟩ := soundStmt_ok fns
  exact ⟨toks, s, tokenizeFrom_kwOK h1, spelled_words (.inl rfl) h1, h2⟩

example (fns : FloatFns) : ∃ toks e, KwOK toks ∧ WordsOK toks (spelled genericDialect) ∧
    runExpr fns (3 * toks.length + 3) false toks = .ok e () := by
  obtain ⟨toks, s, h1, h2, -⟩ := soundExpr_ok fns
  exact ⟨toks, s, tokenizeFrom_kwOK h1, spelled_words (.inl rfl) h1, h2⟩

example (fns : FloatFns) : ∃ toks ss, KwOK toks ∧ WordsOK toks (spelled genericDialect) ∧
    runSQL fns (3 * toks.length + 3) false toks = .ok ss () := by
  obtain ⟨toks, s, h1, h2, -⟩ := soundList_ok fns
  exact ⟨toks, s, tokenizeFrom_kwOK h1, spelled_words (.inl rfl) h1, h2⟩

/-! ### C22 -/

theorem Expr.rp_le : ∀ e : Expr, e.topLevel (e.rp ≤ ·)
  | .binary l op r => by simp only [Expr.topLevel, Expr.rp]; omega
  | e => by cases e <;> first | trivial | (simp only [Expr.topLevel, Expr.rp]; omega)

theorem Expr.lp_le : ∀ e : Expr, e.topLevel (e.lp ≤ ·)
  | .binary l op r => by simp only [Expr.topLevel, Expr.lp]; omega
  | e => by cases e <;> first | trivial | (simp only [Expr.topLevel, Expr.lp]; omega)

theorem Expr.topLevel_mono {p q : Nat → Prop} (h : ∀ n, p n → q n) : ∀ {e : Expr}, e.topLevel p → e.topLevel q
  | .binary _ _ _, hp => h _ hp
  | e, hp => by cases e <;> first | trivial | exact h _ hp

theorem Expr.shape_respects {I : Str → Bool} : ∀ {e : Expr}, e.shape I = true → e.Respects
  | .binary l op r, h => by
    simp only [Expr.shape, Bool.and_eq_true, decide_eq_true_eq] at h
    obtain ⟨⟨⟨⟨h1, h2⟩, -⟩, h4⟩, h5⟩ := h
    exact ⟨shape_respects h1, shape_respects h2, Expr.topLevel_mono (fun n hn => Nat.le_trans h4 hn) l.rp_le,
      Expr.topLevel_mono (fun n hn => Nat.lt_of_lt_of_le h5 hn) r.lp_le⟩
  | .ident _, _ | .wildcard _, _ | .qualifiedWildcard _, _ | .compoundIdent _, _ | .isNull _, _ | .isNotNull _, _
  | .inList .., _ | .inSubQuery .., _ | .between .., _ | .cast .., _ | .nested .., _ | .unary .., _
  | .function .., _ | .caseExpr .., _ | .exists_ .., _ | .subQuery .., _ | .long _, _ | .double .., _
  | .singleQuoted .., _ | .national .., _ | .boolean .., _ | .null .., _ | .timeValue .., _ => trivial

/-- C22 for all inputs: whatever the tokens, the operators of an expression that `ParseExpr` returns are grouped
by their levels and to the left within a level. -/
theorem C22_levels (fns : FloatFns) (n : Nat) (mode : Bool) (toks : List Token) (hk : KwOK toks) (e : Expr)
    (h : runExpr fns n mode toks = .ok e ()) : e.Respects :=
  Expr.shape_respects (C49_expr_shape fns n mode (fun _ => true) toks hk (fun _ _ _ _ => rfl) e h)

/-- Hypotheses met, by an expression with operators of all levels. -/
example (fns : FloatFns) : ∃ toks e, KwOK toks ∧ runExpr fns (3 * toks.length + 3) false toks = .ok e () := by
  obtain ⟨toks, s, h1, h2, -⟩ := soundExpr_ok fns
  exact ⟨toks, s, tokenizeFrom_kwOK h1, h2⟩

/-! ### C27 -/

/-- C27, in part: if `ParseStatement` accepts the tokens of a text and the tree is plain, the printed tree,
followed by a semicolon, is read back to the same tree up to positions.  Missing are the trees that are not
plain: `C27_string_quote_false` and `C27_options_false` show that some condition is needed. -/
theorem C27_reparse_partial {d : Dialect} (hd : BuiltIn d) (fns : FloatFns) (mode mode' : Bool) {fuel n : Nat}
    {src : Str} {toks : List Token} (ht : tokenize d true fuel src = .ok toks) {s : Stmt}
    (h : runStatement fns n mode toks = .ok s ()) (hp : s.plain fns = true) :
    Reads d (Node.toSQLString fns (.stmt s) ++ str% ";") (fun n => runStatement fns n mode')
      fun s' => s'.erase = s.erase :=
  stmt_reads hd fns mode' (s.wf_of (C49_statement_shape fns n mode _ toks (tokenizeFrom_kwOK ht)
    (spelled_words hd ht) s h) hp)

/-- C27 for `ParseExpr`. -/
theorem C27_expr_reparse_partial {d : Dialect} (hd : BuiltIn d) (fns : FloatFns) (mode mode' : Bool) {fuel n : Nat}
    {src : Str} {toks : List Token} (ht : tokenize d true fuel src = .ok toks) {e : Expr}
    (h : runExpr fns n mode toks = .ok e ()) (hp : e.plain fns = true) :
    Reads d (Node.toSQLString fns (.expr e)) (fun n => runExpr fns n mode') fun e' => e'.erase = e.erase :=
  C23_expr_roundtrip_partial hd fns mode' (e.wf_of (C49_expr_shape fns n mode _ toks (tokenizeFrom_kwOK ht)
    (spelled_words hd ht) e h) hp)

/-- C27 for `ParseSQL`. -/
theorem C27_statements_reparse_partial {d : Dialect} (hd : BuiltIn d) (fns : FloatFns) (mode mode' : Bool)
    {fuel n : Nat} {src : Str} {toks : List Token} (ht : tokenize d true fuel src = .ok toks) {ss : List Stmt}
    (h : runSQL fns n mode toks = .ok ss ()) (hp : ∀ s ∈ ss, s.plain fns = true) :
    Reads d (statementsText fns ss) (fun n => runSQL fns n mode') fun ss' =>
      ss'.map Stmt.erase = ss.map Stmt.erase :=
  C26_statements_roundtrip hd fns mode' fun s hs => s.wf_of (C49_statements_shape fns n mode _ toks
    (tokenizeFrom_kwOK ht) (spelled_words hd ht) ss h s hs) (hp s hs)

/-- Hypotheses met: `soundStmt_ok`, `soundExpr_ok`, `soundList_ok`. -/
example (fns : FloatFns) : ∃ toks s, tokenize genericDialect true (soundStmt.length + 1) soundStmt = .ok toks ∧
    runStatement fns (3 * toks.length + 3) false toks = .ok s () ∧ s.plain fns = true := soundStmt_ok fns
example (fns : FloatFns) : ∃ toks e, tokenize genericDialect true (soundExpr.length + 1) soundExpr =
    .ok toks ∧ runExpr fns (3 * toks.length + 3) false toks = .ok e () ∧ e.plain fns = true := soundExpr_ok fns
example (fns : FloatFns) : ∃ toks ss, tokenize genericDialect true (soundList.length + 1) soundList =
    .ok toks ∧ runSQL fns (3 * toks.length + 3) false toks = .ok ss () ∧ (ss.all fun s => s.plain fns) = true :=
  soundList_ok fns

end Verif
