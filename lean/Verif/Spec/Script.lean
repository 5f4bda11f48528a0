import Verif.Model.Parser
/-
Scripts, for C61: doing one parse after another; and, for C62, runs that go back too far.
-/
namespace Verif

/-- Two parts of a script: the first failure decides, and the statements of two successful parts are joined. -/
def andThen : Res Unit (List Stmt) → Res Unit (List Stmt) → Res Unit (List Stmt)
  | .ok ss _, .ok ss' _ => .ok (ss ++ ss') ()
  | .ok _ _, e => e
  | e, _ => e

/-- The token list with parts `first`, `g₁`, …, `gₖ` and semicolons between them. -/
def scriptOf (first : List Token) : List (Token × List Token) → List Token
  | [] => first
  | (sem, g) :: ps => first ++ scriptOf (sem :: g) ps

/-- The parts of a script, each with the semicolon before it and the semicolon behind it. -/
def piecesOf (first : List Token) : List (Token × List Token) → List (List Token)
  | [] => [first]
  | (sem, g) :: ps => (first ++ [sem]) :: piecesOf (sem :: g) ps

/-- Does the run call `prevToken` when no significant token has been read?  (parser.go:3038-3054 then
dereferences nil.) -/
def P.backsOut (mode : Bool) : P α → PState → Bool
  | .next k, s => (k (s.next mode).1).backsOut mode (s.next mode).2
  | .peek k, s => (k s.peek).backsOut mode s
  | .prev k, s =>
    match s.prev with
    | none => true
    | some s' => k.backsOut mode s'
  | .kws ks k, s => (k (s.kws mode ks).1).backsOut mode (s.kws mode ks).2
  | _, _ => false

end Verif
