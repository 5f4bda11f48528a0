import Verif.Proofs.Decimal
import Verif.Proofs.Post
import Verif.Proofs.KernelRfl
import Verif.Props.Termination
import Verif.Model.Print
/-
Properties that the code does not have: C12, C21, C27, C28, C29, C30, C31.  For each there is a theorem with
a concrete source text on which the property fails (`…_false`), in most cases a general description of what
the code does instead, and a `…_partial` theorem with the part of the property that does hold.

`fns` are the two floating point functions of package strconv, about which nothing is assumed.
-/
set_option maxRecDepth 100000
namespace Verif
open Spec

/-- What tokenizing a text (generic dialect) and `ParseSQL` give, with the statements printed by
`ToSQLString`; `none` if the tokenizer reports an error.  The budget is that of `C20_source`. -/
def reprint (fns : FloatFns) (src : Str) : Option (Res Unit (List Str)) :=
  match tokenize genericDialect true (src.length + 1) src with
  | .ok toks =>
    match runSQL fns (3 * toks.length + 3) false toks with
    | .ok ss _ => some (.ok (ss.map fun s => Node.toSQLString fns (.stmt s)) ())
    | .err => some .err
    | .panic => some .panic
    | .oof => some .oof
  | _ => none

/-! ### C12 -/

/-- C12 is false: the quoted identifier `"from"` is read as the keyword FROM. -/
theorem C12_quoted_keyword_false (fns : FloatFns) :
    reprint fns (str% "SELECT a \"from\" t x;") = some (.ok [str% "SELECT a FROM t AS x"] ()) := by kernel_rfl

/-- The tests by which the parser recognises the keyword `k` in a word token: `switch word.Keyword`, and
`parseKeyword`. -/
def ReadsAs (t : Token) (k : KW) : Prop := t.kw? = some k ∨ t.matchesKw k.str = true

/-- What the code does instead: the quotes make no difference to any keyword test. -/
theorem C12_quotes_ignored (w : Str) (q : Option Char) (f t : Pos) (k : KW) :
    ReadsAs ⟨.word (makeKeyword w q), f, t⟩ k ↔ ReadsAs ⟨.word (makeKeyword w none), f, t⟩ k := by
  simp [ReadsAs, Token.kw?, Token.word?, Token.matchesKw, makeKeyword_eq]

/-- The part of C12 that holds: a quoted word that is no keyword in any capitalisation is never taken for one,
and where the parser expects an identifier a quoted word is accepted whatever it is, quotes included. -/
theorem C12_quoted_partial (w : Str) (q : Char) (f t : Pos) (b a : List Token)
    (hq : q = '"' ∨ q = '[' ∨ q = '`') :
    ((∀ k : KW, upper w ≠ k.str ∧ equalFold w k.str = false) →
      ∀ k, ¬ ReadsAs ⟨.word (makeKeyword w (some q)), f, t⟩ k) ∧
    parseIdentifier.runZ b (⟨.word (makeKeyword w (some q)), f, t⟩ :: a) =
      .ok ⟨q :: (w ++ [matchingEndQuote q]), f, t⟩ (⟨.word (makeKeyword w (some q)), f, t⟩ :: b, a) := by
  constructor
  · intro h k hk
    rcases hk with hk | hk
    · simp only [Token.kw?, Token.word?, makeKeyword_eq, Option.bind_some, kwOf_eq_some] at hk
      exact (h k).1 hk
    · simp only [Token.matchesKw, makeKeyword_eq] at hk
      rw [(h k).2] at hk
      cases hk
  · simp only [parseIdentifier, runZ_bindM, runZ_nextOrErr_cons, Res.bind_ok, Token.word?, makeKeyword_eq,
      runZ_pure, SQLWord.string]
    rw [if_pos hq]
    rfl

example : ∀ k : KW, upper (str% "user name") ≠ k.str ∧ equalFold (str% "user name") k.str = false := by
  intro k; cases k <;> decide

/-! ### C21 -/

/-- C21 is false: a missing semicolon, a misplaced comma and an unknown CREATE statement crash the parser. -/
theorem C21_panic_false (fns : FloatFns) :
    reprint fns (str% "SELECT 1") = some .panic ∧
    reprint fns (str% "SELECT , a;") = some .panic ∧
    reprint fns (str% "CREATE x;") = some .panic := by
  refine ⟨?_, ?_, ?_⟩ <;> kernel_rfl

/-- The words that begin a statement. -/
def statementWords : List KW := [.SELECT, .WITH, .CREATE, .DELETE, .INSERT, .ALTER, .UPDATE, .DROP, .EXPLAIN]

/-- The part of C21 that holds: input that does not begin like a statement is reported as an error by
`ParseStatement` and, unless it begins with a semicolon, by `ParseSQL`; empty input is an error for the first
and an empty list for the second. -/
theorem C21_unknown_partial (fns : FloatFns) (mode : Bool) (n : Nat) (toks : List Token) :
    (∀ t rest, toks.filter Token.sig = t :: rest → (∀ k ∈ statementWords, t.kw? ≠ some k) →
      runStatement fns (n + 1) mode toks = .err ∧
      (t.isSym .Semicolon = false → runSQL fns (n + 1) mode toks = .err)) ∧
    (toks.filter Token.sig = [] →
      runStatement fns (n + 1) mode toks = .err ∧ runSQL fns (n + 1) mode toks = .ok [] ()) := by
  constructor
  · intro t rest ht hk
    have hs : ∀ b, (statementF (Parsers.at fns n)).runZ b (t :: rest) = .err := by
      intro b
      simp only [statementF, runZ_bindM, runZ_nextOrErr_cons, Res.bind_ok]
      simp only [Token.kw?] at hk
      cases hw : t.word? with
      | none => rfl
      | some w =>
        simp only [hw, Option.bind_some] at hk ⊢
        simp only [statementWords, List.mem_cons, List.not_mem_nil, or_false, forall_eq_or_imp, forall_eq] at hk
        obtain ⟨h1, h2, h3, h4, h5, h6, h7, h8, h9⟩ := hk
        split <;> simp_all [runZ_err]
    refine ⟨?_, fun hsemi => ?_⟩
    · unfold runStatement
      rw [outcome_runZ, ht]
      show ((statementF (Parsers.at fns n)).runZ [] _).outcome = _
      rw [hs]; rfl
    · unfold runSQL
      rw [outcome_runZ, ht]
      have hno : NotSym .Semicolon (t :: rest) := by intro x hx; cases hx; exact hsemi
      cases mode <;>
      simp only [parseSQL, parseSQLLoop, runZ_bindM, runZ_consumeToken_no hno, Res.bind_ok, Bool.and_false,
        Bool.false_eq_true, if_false, runZ_peekToken, List.head?_cons, if_true, runZ_nextToken_cons,
        runZ_prevToken_cons, runZ_pure, show (Parsers.at fns (n + 1)).statement = statementF (Parsers.at fns n) from rfl,
        hs, Res.bind_err] <;> rfl
  · intro ht
    unfold runStatement runSQL
    rw [outcome_runZ, outcome_runZ, ht]
    cases mode <;> exact ⟨rfl, rfl⟩

example : (str% "1") ≠ [] ∧ ∀ k ∈ statementWords, Token.kw? ⟨.number (str% "1"), ⟨1, 1⟩, ⟨1, 2⟩⟩ ≠ some k := by
  decide

/-! ### C27 -/

/-- C27 is false: a string literal with a quote in it is printed without doubling the quote, and the printed
statement cannot even be tokenized. -/
theorem C27_string_quote_false (fns : FloatFns) :
    reprint fns (str% "SELECT 'it''s';") = some (.ok [str% "SELECT 'it's'"] ()) ∧
    reprint fns (str% "SELECT 'it's';") = none := by
  constructor <;> kernel_rfl

/-- Another: table options are printed with commas between them, after which the parser expects nothing. -/
theorem C27_options_false (fns : FloatFns) :
    reprint fns (str% "CREATE TABLE t (a INT) ENGINE=x CHARSET=y;") =
      some (.ok [str% "CREATE TABLE t (a int)ENGINE = x, CHARSET = y"] ()) ∧
    reprint fns (str% "CREATE TABLE t (a int)ENGINE = x, CHARSET = y;") = some .err := by
  constructor <;> kernel_rfl

/-! ### C28 -/

/-- C28 is false: literals beyond the 64 bit range are silently replaced by the largest integer. -/
theorem C28_overflow_false (fns : FloatFns) :
    reprint fns (str% "SELECT 99999999999999999999;") = some (.ok [str% "SELECT 9223372036854775807"] ()) := by
  kernel_rfl

/-- What the code does with every digit string: the value, but at most 2^63 - 1. -/
theorem C28_clamped (fns : FloatFns) (s : Str) (n : Nat) (h : Denotes s n) (f t : Pos) (b a : List Token) :
    (parseValue fns).runZ b (⟨.number s, f, t⟩ :: a) =
      .ok (.long ⟨f, t, (min n (2 ^ 63 - 1) : Nat)⟩) (⟨.number s, f, t⟩ :: b, a) := by
  simp only [parseValue, runZ_bindM, runZ_nextOrErr_cons, Res.bind_ok, if_neg (denotes_nodot h), runZ_pure]
  unfold atoi
  rw [digitsVal_denotes h]
  show _ = Res.ok (Expr.long ⟨f, t, (min n maxInt : Nat)⟩) _
  dsimp only
  by_cases hn : n ≤ maxInt
  · rw [if_pos hn, Nat.min_eq_left hn]
  · rw [if_neg hn, Nat.min_eq_right (by omega)]

/-- The part of C28 that holds: a literal that fits in 64 bits is parsed to the number it denotes, as a value
and as a whole expression before anything that does not continue an expression. -/
theorem C28_value_partial (fns : FloatFns) (s : Str) (n : Nat) (h : Denotes s n) (hn : n < 2 ^ 63) (f t : Pos)
    (b a : List Token) :
    (parseValue fns).runZ b (⟨.number s, f, t⟩ :: a) = .ok (.long ⟨f, t, n⟩) (⟨.number s, f, t⟩ :: b, a) ∧
    ((∀ x, a.head? = some x → getPrecedence x = 0) → ∀ k,
      (parseExpr (Parsers.at fns (k + 2))).runZ b (⟨.number s, f, t⟩ :: a) =
        .ok (.long ⟨f, t, n⟩) (⟨.number s, f, t⟩ :: b, a)) := by
  have h1 : ∀ b, (parseValue fns).runZ b (⟨.number s, f, t⟩ :: a) =
      .ok (.long ⟨f, t, n⟩) (⟨.number s, f, t⟩ :: b, a) := by
    intro b
    rw [C28_clamped fns s n h, Nat.min_eq_left (by omega)]
  refine ⟨h1 b, fun ha k => ?_⟩
  show (subexprF (Parsers.at fns (k + 1)) 0).runZ b _ = _
  have hp : (Parsers.at fns (k + 1)).prefix_ = prefixF fns (Parsers.at fns k) := rfl
  have hl : ∀ e, (Parsers.at fns (k + 1)).subexprLoop 0 e = subexprLoopF (Parsers.at fns k) 0 e := fun _ => rfl
  have hnp : ∀ b, getNextPrecedence.runZ b a = .ok 0 (b, a) := by
    intro b
    unfold getNextPrecedence
    cases a with
    | nil => rfl
    | cons x a => simp only [runZ_bindM, runZ_peekToken, Res.bind_ok, List.head?_cons, ha x rfl, runZ_pure]
  simp only [subexprF, hp, hl, prefixF, runZ_bindM, runZ_nextOrErr_cons, Res.bind_ok, runZ_prevToken_cons, h1,
    subexprLoopF, hnp, ge_iff_le, Nat.le_refl, if_true, runZ_pure]

/-- Every digit string denotes a number, so the two theorems speak about every integer literal. -/
theorem C28_denotes (s : Str) (hs : s ≠ []) (h : ∀ c ∈ s, isDigit c = true) : ∃ n, Denotes s n :=
  denotes_exists hs h

example : Denotes (str% "407") 407 :=
  .cons '4' 4 _ 7 rfl (.cons '0' 0 _ 7 rfl (.single '7' 7 rfl))

/-! ### C29 -/

/-- C29 is false: CROSS JOIN drops the joins before it. -/
theorem C29_cross_join_false (fns : FloatFns) :
    reprint fns (str% "SELECT a FROM t x JOIN u y ON b CROSS JOIN v z;") =
      some (.ok [str% "SELECT a FROM t AS x CROSS JOIN v AS z"] ()) := by kernel_rfl

/-! ### C30 -/

/-- C30 is false: the statement is parsed, but not marked as materialized. -/
theorem C30_materialized_false (fns : FloatFns) :
    reprint fns (str% "CREATE MATERIALIZED VIEW v AS SELECT 1;") = some (.ok [str% "CREATE VIEW v AS SELECT 1"] ()) := by
  kernel_rfl

/-- What the code does: no statement whatsoever is parsed to a materialized view. -/
theorem C30_never (fns : FloatFns) (n : Nat) (mode : Bool) (toks : List Token) (c : Pos) (name : ObjectName)
    (q : QueryStmt) (m : Bool) (h : runStatement fns n mode toks = .ok (.createView c name q m) ()) :
    m = false := by
  unfold runStatement at h
  rw [outcome_runZ] at h
  obtain ⟨s, hs⟩ := outcome_ok h
  cases n with
  | zero => cases hs
  | succ n => exact post_statement hs

/-- The part of C30 that holds: a statement that begins with CREATE MATERIALIZED is parsed to a view or not
at all. -/
theorem C30_view_partial (fns : FloatFns) (n : Nat) (mode : Bool) (toks : List Token) (t1 t2 : Token)
    (rest : List Token) (s : Stmt) (ht : toks.filter Token.sig = t1 :: t2 :: rest)
    (h1 : t1.kw? = some .CREATE) (h2 : t2.matchesKw KW.MATERIALIZED.str = true)
    (h : runStatement fns n mode toks = .ok s ()) : ∃ name q, s = .createView t1.from_ name q false := by
  unfold runStatement at h
  rw [outcome_runZ, ht] at h
  obtain ⟨s', hs⟩ := outcome_ok h
  cases n with
  | zero => cases hs
  | succ n =>
    obtain ⟨name, q, rfl⟩ := createMaterialized h1 h2 hs
    exact ⟨name, q, rfl⟩

/-! ### C31 -/

/-- What the code does: after a table name or a derived table, any word that is not one of the reserved ones
of dialect/keywords.go:357-374 becomes the alias; LIMIT and HAVING are not reserved. -/
theorem C31_alias_taken (t : Token) (k : KW) (hk : k = .LIMIT ∨ k = .HAVING) (w : SQLWord) (hw : t.word? = some w)
    (h : t.kw? = some k) (h' : t.matchesKw KW.AS.str = false) (b a : List Token) :
    (parseOptionalAlias reservedForTableAlias).runZ b (t :: a) =
      .ok (some ⟨w.string, t.from_, t.to_⟩) (t :: b, a) := by
  have hno : NotKw .AS (t :: a) := by intro x hx; cases hx; exact h'
  have hr : isReserved reservedForTableAlias w.keyword = false := by
    simp only [Token.kw?, hw, Option.bind_some] at h
    rcases hk with rfl | rfl <;> simp [isReserved, h, reservedForTableAlias]
  simp only [parseOptionalAlias, runZ_bindM, runZ_kw_no hno, Res.bind_ok, runZ_nextToken_cons, hw, hr,
    Bool.false_or, Bool.not_false, if_true, runZ_pure]

/-- C31 is false: LIMIT and HAVING after a table name are taken for its alias, and the rest is an error. -/
theorem C31_limit_false (fns : FloatFns) :
    reprint fns (str% "SELECT a FROM t LIMIT 10;") = some .err ∧
    reprint fns (str% "SELECT a FROM t HAVING b;") = some .err ∧
    reprint fns (str% "SELECT a FROM t LIMIT ORDER BY b LIMIT 10;") =
      some (.ok [str% "SELECT a FROM t AS LIMIT ORDER BY b LIMIT 10"] ()) := by
  refine ⟨?_, ?_, ?_⟩ <;> kernel_rfl

end Verif
