import Verif.Proofs.Alphabet
import Verif.Props.Grammar
import Verif.Props.Findings
import Verif.Props.Script
/-
Property theorem C67: which tokens occur in accepted scripts.

`inStatement` (Verif/Spec/Grammar.lean) lists them, apart from the semicolon: words, numbers, the two kinds of strings
and 18 of the 24 punctuation tokens.  `: \ & { }` and characters that begin no token do not occur.
-/
set_option maxRecDepth 100000
namespace Verif
open Spec

/-- The token may occur in a script. -/
def InScript (t : Token) : Prop := inStatement t.tok = true ∨ ∃ text, t.tok = .sym .Semicolon text

theorem sym_inScript {ts : List Token} (h : sym .Semicolon ts) : ∀ t ∈ ts, InScript t := by
  obtain ⟨t, s, rfl, hs⟩ := h
  intro u hu
  cases List.mem_singleton.1 hu
  exact .inr ⟨s, hs⟩

theorem statements_inScript (fns : FloatFns) (q : Quirks) : ∀ (ss : List Stmt) (ts : List Token),
    concat (ss.map fun s => s.lang fns q ⬝ sym .Semicolon) ts → ∀ t ∈ ts, InScript t
  | [], ts, h => by cases h; simp
  | s :: ss, ts, h => by
    obtain ⟨us, vs, rfl, ⟨xs, ys, rfl, hx, hy⟩, hv⟩ := h
    intro t ht
    rcases List.mem_append.1 ht with ht | ht
    · rcases List.mem_append.1 ht with ht | ht
      · exact .inl ((s.over fns q xs hx).1 t ht)
      · exact sym_inScript hy t ht
    · exact statements_inScript fns q ss vs hv t ht

theorem scriptLang_inScript {fns : FloatFns} {q : Quirks} {ss : List Stmt} {ts : List Token} (h : scriptLang fns q ss ts) :
    ∀ t ∈ ts, InScript t := by
  obtain ⟨us, vs, rfl, hu, hv⟩ := h
  intro t ht
  rcases List.mem_append.1 ht with ht | ht
  · rcases hu with hu | hu
    · cases hu; cases ht
    · exact sym_inScript hu t ht
  · exact statements_inScript fns q ss vs hv t ht

/-- C67 for `ParseSQL`: every token of an accepted script is a space, a comment, a semicolon or `inStatement`. -/
theorem C67_script (fns : FloatFns) (n : Nat) (mode : Bool) (toks : List Token) (hk : KwOK toks) (ss : List Stmt)
    (h : runSQL fns n mode toks = .ok ss ()) (t : Token) (ht : t ∈ toks) :
    t.tok.insignificant = true ∨ inStatement t.tok = true ∨ ∃ text, t.tok = .sym .Semicolon text := by
  cases hi : t.tok.insignificant with
  | true => exact .inl rfl
  | false =>
    right
    refine scriptLang_inScript (C50_script_grammar fns n mode toks hk ss h) t ?_
    exact List.mem_filter.2 ⟨ht, by simp [Token.sig, hi]⟩

/-- C67 for source texts: a text with another token is not accepted, whatever the rest of it is. -/
theorem C67_source (fns : FloatFns) (n fuel : Nat) (mode keep : Bool) (d : Dialect) (src : Str) (toks : List Token)
    (ht : tokenize d keep fuel src = .ok toks) (t : Token) (hm : t ∈ toks) (hi : t.tok.insignificant = false)
    (hs : inStatement t.tok = false) (hsemi : ∀ text, t.tok ≠ .sym .Semicolon text) (ss : List Stmt) :
    runSQL fns n mode toks ≠ .ok ss () := by
  intro h
  rcases C67_script fns n mode toks (tokenizeFrom_kwOK ht) ss h t hm with h1 | h1 | ⟨text, h1⟩
  · rw [hi] at h1; cases h1
  · rw [hs] at h1; cases h1
  · exact hsemi text h1

/-- C67 for `ParseStatement`: the tokens that it has read (it does not look at what follows) are `inStatement`. -/
theorem C67_statement (fns : FloatFns) (n : Nat) (mode : Bool) (toks : List Token) (hk : KwOK toks) (s : Stmt)
    (h : runStatement fns n mode toks = .ok s ()) :
    ∃ read rest, significant toks = read ++ rest ∧ s.lang fns ⟨true, true, true⟩ read ∧
      ∀ t ∈ read, inStatement t.tok = true := by
  obtain ⟨read, rest, h1, h2⟩ := C50_statement_grammar fns n mode toks hk s h
  exact ⟨read, rest, h1, h2, (s.over fns _ read h2).1⟩

/-- C67 for `ParseExpr`. -/
theorem C67_expr (fns : FloatFns) (n : Nat) (mode : Bool) (toks : List Token) (hk : KwOK toks) (e : Expr)
    (h : runExpr fns n mode toks = .ok e ()) :
    ∃ read rest, significant toks = read ++ rest ∧ e.lang fns ⟨true, true, true⟩ read ∧
      ∀ t ∈ read, inStatement t.tok = true := by
  obtain ⟨read, rest, h1, h2⟩ := C50_expr_grammar fns n mode toks hk e h
  exact ⟨read, rest, h1, h2, (e.over fns _ read h2).1⟩

/-- C67 for `ParseDataType`. -/
theorem C67_dataType (fns : FloatFns) (n : Nat) (mode : Bool) (toks : List Token) (hk : KwOK toks) (t : DataType)
    (h : runDataType fns n mode toks = .ok t ()) :
    ∃ read rest, significant toks = read ++ rest ∧ t.lang read ∧ ∀ t ∈ read, inStatement t.tok = true := by
  obtain ⟨read, rest, h1, h2⟩ := C50_dataType_grammar fns n mode toks hk t h
  exact ⟨read, rest, h1, h2, (t.over read h2).1⟩

/-! ### All of them occur -/

/-- A script with every token that may occur. -/
def alphabetText : Str :=
  str% "SELECT (t.a + 1 - 2 * 3 / 4 % 5)::text[], 'x', N'y' FROM t\nWHERE a = 1 AND a != 1 AND a <> 1 AND a < 1 AND a > 1 AND a <= 1 AND a >= 1;"

/-- The text is accepted, and one of its tokens passes the test. -/
def acceptedWith (fns : FloatFns) (src : Str) (p : Tok → Bool) : Bool :=
  match tokenize genericDialect true (src.length + 1) src with
  | .ok toks => (match runSQL fns (3 * toks.length + 3) false toks with
    | .ok _ _ => toks.any fun t => p t.tok
    | _ => false)
  | _ => false

theorem acceptedWith_iff {fns : FloatFns} {src : Str} {p : Tok → Bool} (h : acceptedWith fns src p = true) :
    ∃ toks ss, tokenize genericDialect true (src.length + 1) src = .ok toks ∧
      runSQL fns (3 * toks.length + 3) false toks = .ok ss () ∧ ∃ t ∈ toks, p t.tok = true := by
  unfold acceptedWith at h
  split at h
  · rename_i toks ht
    split at h
    · rename_i ss u hs
      exact ⟨toks, ss, ht, hs, List.any_eq_true.1 h⟩
    · cases h
  · cases h

/-- The 18 punctuation tokens and the semicolon, with all spellings. -/
def scriptSyms : List (Sym × Str) :=
  ([Sym.Comma, .Eq, .Neq, .Lt, .Gt, .LtEq, .GtEq, .Plus, .Minus, .Mult, .Div, .Mod, .LParen, .RParen, .Period, .DoubleColon,
    .Semicolon, .LBracket, .RBracket].flatMap fun k => (symText k).map fun s => (k, s))

theorem alphabetText_syms (fns : FloatFns) :
    (scriptSyms.all fun p => acceptedWith fns alphabetText fun t => t == .sym p.1 p.2) = true := by kernel_rfl

theorem mem_scriptSyms {k : Sym} {text : Str} (ht : text ∈ symText k)
    (h : inStatement (.sym k text) = true ∨ k = .Semicolon) : (k, text) ∈ scriptSyms := by
  cases k <;> simp only [symText, List.mem_cons, List.not_mem_nil, or_false] at ht <;>
    first
      | (subst ht; revert h; decide)
      | (rcases ht with rfl | rfl <;> revert h <;> decide)

/-- C67, all punctuation tokens that may occur do occur, in each of their spellings. -/
theorem C67_sym_occurs (fns : FloatFns) (k : Sym) (text : Str) (ht : text ∈ symText k)
    (h : inStatement (.sym k text) = true ∨ k = .Semicolon) :
    ∃ src toks ss, tokenize genericDialect true (src.length + 1) src = .ok toks ∧
      runSQL fns (3 * toks.length + 3) false toks = .ok ss () ∧ ∃ t ∈ toks, t.tok = .sym k text := by
  have := List.all_eq_true.1 (alphabetText_syms fns) _ (mem_scriptSyms ht h)
  obtain ⟨toks, ss, h1, h2, t, ht, he⟩ := acceptedWith_iff this
  exact ⟨_, toks, ss, h1, h2, t, ht, eq_of_beq he⟩

/-- C67, the other kinds occur too. -/
theorem C67_kind_occurs (fns : FloatFns) :
    acceptedWith fns alphabetText (fun | .word _ => true | _ => false) = true ∧
    acceptedWith fns alphabetText (fun | .number _ => true | _ => false) = true ∧
    acceptedWith fns alphabetText (fun | .single _ => true | _ => false) = true ∧
    acceptedWith fns alphabetText (fun | .national _ => true | _ => false) = true ∧
    acceptedWith fns alphabetText (fun | .whitespace _ => true | _ => false) = true := by
  refine ⟨?_, ?_, ?_, ?_, ?_⟩ <;> kernel_rfl

/-- C67, the restriction to what has been read is needed: `ParseStatement` accepts `DELETE FROM t {`. -/
theorem C67_unread_false (fns : FloatFns) :
    (match runStatement fns 40 false (textToks (str% "DELETE FROM t {")) with
      | .ok _ _ => true
      | _ => false) = true ∧
    (textToks (str% "DELETE FROM t {")).any (fun t => t.tok == .sym .LBrace ['{']) = true := by
  constructor <;> kernel_rfl

/-- Hypotheses met. -/
example (fns : FloatFns) (ss : List Stmt) : runSQL fns 40 false (textToks (str% "SELECT a & b;")) ≠ .ok ss () :=
  C67_source fns 40 200 false true genericDialect (str% "SELECT a & b;") _ (by kernel_rfl)
    ⟨.sym .Ampersand ['&'], ⟨1, 10⟩, ⟨1, 11⟩⟩ (List.contains_iff_mem.1 (by kernel_rfl)) rfl rfl (by simp) ss

end Verif
