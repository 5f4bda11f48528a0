import Verif.Proofs.Brackets
import Verif.Props.Alphabet
/-
Property theorem C73: brackets in accepted scripts.

`Nested` and `Balanced` are defined in Verif/Spec/Brackets.lean.  Every closing bracket of an accepted script closes the
innermost open bracket of its kind, in the same statement; the only brackets that are never closed are `(` directly behind
a word: `parseTableFactor` does not read the `)` of a table function.
-/
set_option maxRecDepth 100000
namespace Verif
open Spec

/-- What is read as a statement: no bracket is open at the end, and no semicolon is inside. -/
def Piece (ts : List Token) : Prop := Nested true [] ts [] ∧ ∀ t ∈ ts, inStatement t.tok = true

theorem Over.piece {L : Lang} (h : Over L) {ts : List Token} (hts : L ts) : Piece ts :=
  ⟨by have := (h ts hts).2 []; simpa using this, (h ts hts).1⟩

/-- Pieces, each followed by a semicolon. -/
inductive Pieces : List Token → Prop
  | nil : Pieces []
  | cons {ts t us text} : Piece ts → t.tok = .sym .Semicolon text → Pieces us → Pieces (ts ++ t :: us)

theorem pieces_of_concat (fns : FloatFns) (q : Quirks) : ∀ (ss : List Stmt) (ts : List Token),
    concat (ss.map fun s => s.lang fns q ⬝ sym .Semicolon) ts → Pieces ts
  | [], ts, h => by cases h; exact .nil
  | s :: ss, ts, h => by
    obtain ⟨us, vs, rfl, ⟨xs, ys, rfl, hx, t, x, rfl, ht⟩, hv⟩ := h
    have := Pieces.cons ((s.over fns q).piece hx) ht (pieces_of_concat fns q ss vs hv)
    simpa using this

theorem Pieces.nested {ts : List Token} (h : Pieces ts) : Nested true [] ts [] := by
  induction h with
  | nil => exact .nil
  | cons h1 h2 _ ih => exact h1.1.append (.other (by rw [h2]; rfl) (by rw [h2]; rfl) ih)

/-- C73 for `ParseSQL`: an accepted script consists of statements, each closed by a semicolon (one more semicolon may come
first), and in each statement every closing bracket closes the innermost open one; only a `(` behind a word may be left
open. -/
theorem C73_pieces (fns : FloatFns) (n : Nat) (mode : Bool) (toks : List Token) (hk : KwOK toks) (ss : List Stmt)
    (h : runSQL fns n mode toks = .ok ss ()) :
    Pieces (significant toks) ∨ ∃ t text us, significant toks = t :: us ∧ t.tok = .sym .Semicolon text ∧ Pieces us := by
  obtain ⟨us, vs, he, hu, hv⟩ := C50_script_grammar fns n mode toks hk ss h
  have h1 := pieces_of_concat fns _ ss vs hv
  rcases hu with hu | ⟨t, x, rfl, ht⟩
  · cases hu
    exact .inl (by rw [he]; exact h1)
  · exact .inr ⟨t, x, vs, he, ht, h1⟩

/-- C73 for `ParseSQL`, the whole script. -/
theorem C73_nested (fns : FloatFns) (n : Nat) (mode : Bool) (toks : List Token) (hk : KwOK toks) (ss : List Stmt)
    (h : runSQL fns n mode toks = .ok ss ()) : Nested true [] (significant toks) [] := by
  rcases C73_pieces fns n mode toks hk ss h with h | ⟨t, x, us, he, ht, h⟩
  · exact h.nested
  · rw [he]
    exact .other (by rw [ht]; rfl) (by rw [ht]; rfl) h.nested

theorem opened_significant (b : Bracket) (ts : List Token) : opened b (significant ts) = opened b ts := by
  unfold opened
  rw [show significant ts = ts.filter _ from rfl, List.countP_filter]
  refine List.countP_congr fun t _ => ?_
  cases ht : t.tok with
  | sym k x => cases k <;> cases b <;> simp [opens, Tok.insignificant, Token.sig, ht]
  | _ => simp [opens]

theorem closed_significant (b : Bracket) (ts : List Token) : closed b (significant ts) = closed b ts := by
  unfold closed
  rw [show significant ts = ts.filter _ from rfl, List.countP_filter]
  refine List.countP_congr fun t _ => ?_
  cases ht : t.tok with
  | sym k x => cases k <;> cases b <;> simp [closes, Tok.insignificant, Token.sig, ht]
  | _ => simp [closes]

/-- C73, no part of an accepted script from its start closes more brackets of a kind than it opens. -/
theorem C73_prefix (fns : FloatFns) (n : Nat) (mode : Bool) (us vs : List Token) (hk : KwOK (us ++ vs)) (ss : List Stmt)
    (h : runSQL fns n mode (us ++ vs) = .ok ss ()) (b : Bracket) : closed b us ≤ opened b us := by
  have := (C73_nested fns n mode _ hk ss h).prefix_le b (significant us) (significant vs) (List.filter_append us vs)
  rw [opened_significant, closed_significant] at this
  simpa [depth] using this

/-- C73, as many square brackets are closed as opened. -/
theorem C73_square (fns : FloatFns) (n : Nat) (mode : Bool) (toks : List Token) (hk : KwOK toks) (ss : List Stmt)
    (h : runSQL fns n mode toks = .ok ss ()) : opened .square toks = closed .square toks := by
  have := (C73_nested fns n mode _ hk ss h).square
  rw [opened_significant, closed_significant] at this
  simpa [depth] using this

/-- C73, accepted scripts with as many `)` as `(` are balanced. -/
theorem C73_balanced (fns : FloatFns) (n : Nat) (mode : Bool) (toks : List Token) (hk : KwOK toks) (ss : List Stmt)
    (h : runSQL fns n mode toks = .ok ss ()) (hc : opened .paren toks = closed .paren toks) :
    Balanced (significant toks) := by
  refine (C73_nested fns n mode _ hk ss h).paren.2 ?_
  rw [opened_significant, closed_significant, hc]

/-- C73 for source texts: a text that closes a bracket too many, or leaves a `[` open, is not accepted, whatever the rest
of it is. -/
theorem C73_source (fns : FloatFns) (n fuel : Nat) (mode keep : Bool) (d : Dialect) (src : Str) (us vs : List Token)
    (ht : tokenize d keep fuel src = .ok (us ++ vs)) (ss : List Stmt)
    (hb : (∃ b, opened b us < closed b us) ∨ closed .square (us ++ vs) < opened .square (us ++ vs)) :
    runSQL fns n mode (us ++ vs) ≠ .ok ss () := by
  intro h
  have hk := tokenizeFrom_kwOK ht
  rcases hb with ⟨b, hb⟩ | hb
  · have := C73_prefix fns n mode us vs hk ss h b
    omega
  · have := C73_square fns n mode _ hk ss h
    omega

/-- C73 for `ParseStatement`, `ParseExpr` and `ParseDataType`: no bracket is open at the end of what has been read. -/
theorem C73_statement (fns : FloatFns) (n : Nat) (mode : Bool) (toks : List Token) (hk : KwOK toks) (s : Stmt)
    (h : runStatement fns n mode toks = .ok s ()) :
    ∃ read rest, significant toks = read ++ rest ∧ s.lang fns ⟨true, true, true⟩ read ∧ Nested true [] read [] := by
  obtain ⟨read, rest, h1, h2⟩ := C50_statement_grammar fns n mode toks hk s h
  exact ⟨read, rest, h1, h2, ((s.over fns _).piece h2).1⟩

theorem C73_expr (fns : FloatFns) (n : Nat) (mode : Bool) (toks : List Token) (hk : KwOK toks) (e : Expr)
    (h : runExpr fns n mode toks = .ok e ()) :
    ∃ read rest, significant toks = read ++ rest ∧ e.lang fns ⟨true, true, true⟩ read ∧ Nested true [] read [] := by
  obtain ⟨read, rest, h1, h2⟩ := C50_expr_grammar fns n mode toks hk e h
  exact ⟨read, rest, h1, h2, ((e.over fns _).piece h2).1⟩

theorem C73_dataType (fns : FloatFns) (n : Nat) (mode : Bool) (toks : List Token) (hk : KwOK toks) (t : DataType)
    (h : runDataType fns n mode toks = .ok t ()) :
    ∃ read rest, significant toks = read ++ rest ∧ t.lang read ∧ Nested true [] read [] := by
  obtain ⟨read, rest, h1, h2⟩ := C50_dataType_grammar fns n mode toks hk t h
  exact ⟨read, rest, h1, h2, (t.over.piece h2).1⟩

/-- C73, the exception is needed: `SELECT a FROM f(1;` and `SELECT a FROM (SELECT b FROM f();` are accepted, and
`SELECT a FROM f(1);` is not. -/
theorem C73_unclosed (fns : FloatFns) :
    (match runSQL fns 60 false (textToks (str% "SELECT a FROM f(1;")) with | .ok _ _ => true | _ => false) = true ∧
    ¬ Balanced (significant (textToks (str% "SELECT a FROM f(1;"))) ∧
    (match runSQL fns 60 false (textToks (str% "SELECT a FROM (SELECT b FROM f();")) with | .ok _ _ => true | _ => false) = true ∧
    ¬ Balanced (significant (textToks (str% "SELECT a FROM (SELECT b FROM f();"))) ∧
    (match runSQL fns 60 false (textToks (str% "SELECT a FROM f(1);")) with | .ok _ _ => true | _ => false) = false ∧
    Balanced (significant (textToks (str% "SELECT a FROM f(1);"))) := by
  refine ⟨?_, ?_, ?_, ?_, ?_, ?_⟩
  · kernel_rfl
  · intro h; exact absurd (nestRun_of h) (by decide +kernel)
  · kernel_rfl
  · intro h; exact absurd (nestRun_of h) (by decide +kernel)
  · kernel_rfl
  · exact nested_of_run (by decide +kernel)

/-- Hypotheses met: brackets of both kinds, two statements. -/
example (fns : FloatFns) : ∃ toks ss, KwOK toks ∧ runSQL fns 200 false toks = .ok ss () ∧
    opened .paren toks = closed .paren toks ∧ opened .paren toks = 5 ∧ opened .square toks = 1 := by
  refine ⟨textToks (str% "SELECT (a + (b))::text[] FROM (SELECT 1) x; INSERT INTO t (a) VALUES (1);"), ?_⟩
  have h : (match runSQL fns 200 false (textToks
      (str% "SELECT (a + (b))::text[] FROM (SELECT 1) x; INSERT INTO t (a) VALUES (1);")) with
    | .ok _ _ => true | _ => false) = true := by kernel_rfl
  split at h
  · rename_i ss u hs
    exact ⟨ss, kwOK_of_b (by kernel_rfl), hs, by decide +kernel, by decide +kernel, by decide +kernel⟩
  · cases h

/-- Hypotheses met. -/
example (fns : FloatFns) (ss : List Stmt) : runSQL fns 60 false (textToks (str% "SELECT a) FROM t;")) ≠ .ok ss () := by
  have e : textToks (str% "SELECT a) FROM t;") =
      (textToks (str% "SELECT a) FROM t;")).take 4 ++ (textToks (str% "SELECT a) FROM t;")).drop 4 :=
    (List.take_append_drop 4 _).symm
  have ht : tokenize genericDialect true 200 (str% "SELECT a) FROM t;") = .ok (textToks (str% "SELECT a) FROM t;")) := by
    kernel_rfl
  rw [e] at ht ⊢
  exact C73_source fns 60 200 false true genericDialect _ _ _ ht ss (.inl ⟨.paren, by decide +kernel⟩)

end Verif
