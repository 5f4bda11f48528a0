import Verif.Proofs.Zipper
import Verif.Model.Ast
/-
What it means that a token list consists of statements that end in semicolons, for C26.
-/
namespace Verif

/-- The tokens `a` (after `b`) are statements, each followed by a semicolon: the parser function `p`, started
before a statement, reads exactly the tokens up to the semicolon, and returns the statement. -/
inductive Splits (p : P Stmt) : List Token → List Token → List Stmt → Prop
  | nil (b : List Token) : Splits p b [] []
  | cons {b seg rest : List Token} {sem : Token} {s : Stmt} {ss : List Stmt} : seg ≠ [] → sem.isSym .Semicolon = true →
    p.runZ b (seg ++ sem :: rest) = .ok s (seg.reverse ++ b, sem :: rest) →
    Splits p (sem :: (seg.reverse ++ b)) rest ss → Splits p b (seg ++ sem :: rest) (s :: ss)

/-- An optional semicolon before the first statement. -/
def LeadSemi (lead : List Token) : Prop := lead = [] ∨ ∃ t, lead = [t] ∧ t.isSym .Semicolon = true

end Verif
