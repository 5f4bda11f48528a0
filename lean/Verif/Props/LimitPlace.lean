import Verif.Props.Complete
import Verif.Props.Soundness
/-
C31: where LIMIT and HAVING are what they are meant to be.
-/
namespace Verif
open Spec

/-- The part of C31 that holds: a LIMIT behind a query is its limit if the query has an ORDER BY, or does not end with a
table or column without alias (`SetExpr.edge`): say with WHERE, GROUP BY, HAVING, a condition of a join, an alias or a
parenthesis.  The tokens before LIMIT, the tokens of the limit and what they mean are given by the grammar.  What is missing:
the queries for which it is false, `C31_limit_only`. -/
theorem C31_limit_partial (fns : FloatFns) (mode : Bool) (toks : List Token) (hk : KwOK toks) (ho : NoOddLetters toks)
    (w : Pos) (ctes : List CTE) (body : SetExpr) (orderBy : List OrderByExpr)
    (hs : (Stmt.query (.mk w ctes body orderBy none)).shape freeWord = true) (he : orderBy ≠ [] ∨ body.edge = .closed)
    (l : LimitExpr) (hl : l.wf = true) (read lread rest : List Token) (semi : Token) (x : Str)
    (hsemi : semi.tok = .sym .Semicolon x) (hr : significant toks = read ++ (lread ++ semi :: rest))
    (h : (QueryStmt.mk w ctes body orderBy none).lang fns ⟨false, false, false⟩ read) (h' : limitLang (some l) lread)
    (n : Nat) (hn : 3 * toks.length + 3 ≤ n) :
    ∃ s, runStatement fns n mode toks = .ok s () ∧
      s.erase = (Stmt.query (.mk w ctes body orderBy (some l))).erase := by
  refine C54_statement_complete fns mode toks hk ho _ ?_ (read ++ lread) rest semi x hsemi ?_ ?_ n hn
  · simp only [Stmt.shape, QueryStmt.shape, QueryStmt.startsSelect, Bool.and_eq_true, Bool.or_eq_true, beq_iff_eq,
      Bool.not_eq_true', List.isEmpty_eq_false_iff] at hs ⊢
    exact ⟨⟨hs.1.1, hl, he⟩, hs.2⟩
  · rw [hr, List.append_assoc]
  · obtain ⟨a, _, rfl, h1, b, _, rfl, h2, c, _, rfl, h3, d, e, rfl, h4, h5, h6⟩ := h
    cases h4
    subst h5
    refine ⟨a, b ++ (c ++ (lread ++ [])), by simp, h1, b, _, rfl, h2, c, _, rfl, h3, lread, [], rfl, h', rfl, h6⟩

/-- … and only then: in no statement that is accepted does a limit follow a table or column without alias. -/
theorem C31_limit_only (fns : FloatFns) (n : Nat) (mode : Bool) (toks : List Token) (hk : KwOK toks)
    (w : Pos) (ctes : List CTE) (body : SetExpr) (orderBy : List OrderByExpr) (l : LimitExpr)
    (h : runStatement fns n mode toks = .ok (.query (.mk w ctes body orderBy (some l))) ()) :
    orderBy ≠ [] ∨ body.edge = .closed := by
  have hs := C49_statement_shape fns n mode (fun _ => true) toks hk (fun _ _ _ _ => rfl) _ h
  simp only [Stmt.shape, QueryStmt.shape, Bool.and_eq_true, Bool.or_eq_true, beq_iff_eq, Bool.not_eq_true',
    List.isEmpty_eq_false_iff] at hs
  exact hs.1.2.2

/-- C31 for HAVING, the part that holds: behind WHERE, GROUP BY or something that no alias can follow. -/
theorem C31_having_partial (fns : FloatFns) (mode : Bool) (toks : List Token) (hk : KwOK toks) (ho : NoOddLetters toks)
    (w p : Pos) (distinct : Bool) (projection : List SelectItem) (from_ : List TableRef) (where_ : Option Expr)
    (groupBy : List Expr) (e : Expr) (he : e.shape freeWord = true)
    (hs : (Stmt.query (.mk w [] (.select (.mk distinct projection from_ where_ groupBy none p)) [] none)).shape freeWord = true)
    (hc : where_ ≠ none ∨ groupBy ≠ [] ∨ fromEdge projection from_ = .closed)
    (read eread rest : List Token) (having semi : Token) (x : Str)
    (hh : kwd .HAVING [having]) (hsemi : semi.tok = .sym .Semicolon x)
    (hr : significant toks = read ++ having :: (eread ++ semi :: rest))
    (h : (QueryStmt.mk w [] (.select (.mk distinct projection from_ where_ groupBy none p)) [] none).lang fns ⟨false, false, false⟩ read)
    (h' : e.lang fns ⟨false, false, false⟩ eread) (n : Nat) (hn : 3 * toks.length + 3 ≤ n) :
    ∃ s, runStatement fns n mode toks = .ok s () ∧
      s.erase = (Stmt.query (.mk w [] (.select (.mk distinct projection from_ where_ groupBy (some e) p)) [] none)).erase := by
  refine C54_statement_complete fns mode toks hk ho _ ?_ (read ++ having :: eread) rest semi x hsemi ?_ ?_ n hn
  · simp only [Stmt.shape, QueryStmt.shape, QueryStmt.startsSelect, SetExpr.shape, SQLSelect.shape, Expr.shapeO, Bool.and_eq_true,
      Bool.or_eq_true, beq_iff_eq, Bool.not_eq_true', List.isEmpty_eq_false_iff, Option.isNone_some, Bool.false_eq_true,
      false_or, Option.isSome_iff_ne_none] at hs ⊢
    obtain ⟨⟨⟨⟨-, ⟨⟨⟨⟨h1, h2⟩, h3⟩, h4⟩, -⟩, -⟩, -⟩, -⟩, h5⟩ := hs
    exact ⟨⟨⟨⟨rfl, ⟨⟨⟨⟨h1, h2⟩, h3⟩, h4⟩, he⟩, by rcases hc with h | h | h <;> simp [h]⟩, rfl⟩, trivial⟩, h5⟩
  · rw [hr]; simp
  · obtain ⟨a, _, rfl, h1, b, _, rfl, h2, h3⟩ := h
    obtain ⟨c, _, rfl, i1, d, _, rfl, i2, e1, _, rfl, i3, f, _, rfl, i4, g, _, rfl, i5, k, m, rfl, i6, i7⟩ := h2
    cases h1
    cases i7
    obtain ⟨_, _, rfl, rfl, _, _, rfl, rfl, rfl, h6⟩ := h3
    refine ⟨[], (c ++ (d ++ (e1 ++ (f ++ (g ++ (k ++ ([having] ++ eread))))))) ++ [], by simp, rfl, _, _, rfl,
      ⟨c, _, rfl, i1, d, _, rfl, i2, e1, _, rfl, i3, f, _, rfl, i4, g, _, rfl, i5, k, _, rfl, i6, [having], eread, rfl, hh, h'⟩,
      [], [], rfl, rfl, [], [], rfl, rfl, rfl, h6⟩

theorem C31_having_only (fns : FloatFns) (n : Nat) (mode : Bool) (toks : List Token) (hk : KwOK toks)
    (w p : Pos) (ctes : List CTE) (distinct : Bool) (projection : List SelectItem) (from_ : List TableRef) (where_ : Option Expr)
    (groupBy : List Expr) (e : Expr) (orderBy : List OrderByExpr) (l : Option LimitExpr)
    (h : runStatement fns n mode toks =
      .ok (.query (.mk w ctes (.select (.mk distinct projection from_ where_ groupBy (some e) p)) orderBy l)) ()) :
    where_ ≠ none ∨ groupBy ≠ [] ∨ fromEdge projection from_ = .closed := by
  have hs := C49_statement_shape fns n mode (fun _ => true) toks hk (fun _ _ _ _ => rfl) _ h
  simp only [Stmt.shape, QueryStmt.shape, SetExpr.shape, SQLSelect.shape, Bool.and_eq_true, Bool.or_eq_true, beq_iff_eq, Bool.not_eq_true',
    List.isEmpty_eq_false_iff, Option.isNone_some, Bool.false_eq_true, false_or, Option.isSome_iff_ne_none, or_assoc] at hs
  exact hs.1.1.1.2.2

/-! ### Cases that meet the hypotheses -/

def limitWord (s u : Str) (a b : Nat) : Token := ⟨.word ⟨s, none, u⟩, ⟨1, a⟩, ⟨1, b⟩⟩

/-- `SELECT a FROM t u` -/
def limitRead : List Token :=
  [limitWord (str% "SELECT") (str% "SELECT") 1 7, limitWord ['a'] ['A'] 8 9, limitWord (str% "FROM") (str% "FROM") 10 14,
    limitWord ['t'] ['T'] 15 16, limitWord ['u'] ['U'] 17 18]

def limitSelect (having : Option Expr) : SetExpr :=
  .select (.mk false [.unnamed (.ident ⟨['a'], ⟨1, 8⟩, ⟨1, 9⟩⟩)]
    [.factor (.table ⟨[⟨['t'], ⟨1, 15⟩, ⟨1, 16⟩⟩]⟩ (some ⟨['u'], ⟨1, 17⟩, ⟨1, 18⟩⟩) [] Pos.zero [] Pos.zero)] none [] having ⟨1, 1⟩)

theorem limitRead_lang (fns : FloatFns) :
    (QueryStmt.mk Pos.zero [] (limitSelect none) [] none).lang fns ⟨false, false, false⟩ limitRead := by
  have e : limitRead = [] ++ (([limitRead[0]] ++ ([] ++ ([limitRead[1]] ++ (([limitRead[2]] ++ ([limitRead[3]] ++ ([] ++
      ([limitRead[4]] ++ ([] ++ []))))) ++ ([] ++ ([] ++ [])))))) ++ ([] ++ ([] ++ []))) := rfl
  rw [e]
  exact ⟨_, _, rfl, rfl, _, _, rfl, ⟨_, _, rfl, ⟨⟨_, _, rfl, rfl, .inr rfl⟩, _, _, rfl, rfl⟩, _, _, rfl, rfl, _, _, rfl,
    ⟨_, _, rfl, rfl, rfl, rfl, rfl, by decide⟩, _, _, rfl, ⟨_, _, rfl, ⟨_, _, rfl, rfl, .inr rfl⟩, _, _, rfl,
      ⟨_, _, rfl, rfl, rfl, rfl, rfl, by simp⟩, _, _, rfl, rfl, _, _, rfl, .inr ⟨_, _, rfl, rfl, rfl, rfl, rfl, by decide⟩,
      _, _, rfl, rfl, _, _, rfl, ⟨rfl, rfl⟩, rfl, rfl⟩, _, _, rfl, rfl,
    _, _, rfl, rfl, rfl⟩, _, _, rfl, rfl, _, _, rfl, rfl, rfl, rfl⟩

/-- `SELECT a FROM t u LIMIT 10;` and `SELECT a FROM t u HAVING b;` -/
example (fns : FloatFns) : (Stmt.query (.mk Pos.zero [] (limitSelect none) [] none)).shape freeWord = true ∧
    (limitSelect none).edge = .closed ∧ LimitExpr.wf ⟨some ⟨⟨1, 25⟩, ⟨1, 27⟩, 10⟩, Pos.zero, Pos.zero, none⟩ = true ∧
    (QueryStmt.mk Pos.zero [] (limitSelect none) [] none).lang fns ⟨false, false, false⟩ limitRead ∧
    limitLang (some ⟨some ⟨⟨1, 25⟩, ⟨1, 27⟩, 10⟩, Pos.zero, Pos.zero, none⟩)
      [limitWord (str% "LIMIT") (str% "LIMIT") 19 24, ⟨.number (str% "10"), ⟨1, 25⟩, ⟨1, 27⟩⟩] ∧
    kwd .HAVING [limitWord (str% "HAVING") (str% "HAVING") 19 25] ∧
    (Expr.ident ⟨['b'], ⟨1, 26⟩, ⟨1, 27⟩⟩).lang fns ⟨false, false, false⟩ [limitWord ['b'] ['B'] 26 27] :=
  ⟨by decide +kernel, rfl, by decide +kernel, limitRead_lang fns,
    ⟨[_], [_], rfl, ⟨_, _, rfl, rfl, .inr rfl⟩, [_], [], rfl, ⟨⟨⟨10, rfl, _, _, rfl, rfl, .cons '1' 1 ['0'] 0 rfl (.single '0' 0 rfl),
      by decide⟩, [], _, rfl, rfl⟩, _, [], rfl, rfl⟩, [], [], rfl, ⟨rfl, rfl⟩, rfl, rfl⟩,
    ⟨_, _, rfl, rfl, .inr rfl⟩, ⟨_, _, rfl, rfl, rfl, rfl, rfl, by decide⟩⟩

end Verif
