import Verif.Model.Token
/-
Brackets in token sequences, for C73.
-/
namespace Verif.Spec
open Verif

inductive Bracket where
  | paren
  | square
  deriving DecidableEq, Repr

/-- The bracket that a token opens. -/
def opens : Tok → Option Bracket
  | .sym .LParen _ => some .paren
  | .sym .LBracket _ => some .square
  | _ => none

/-- The bracket that a token closes. -/
def closes : Tok → Option Bracket
  | .sym .RParen _ => some .paren
  | .sym .RBracket _ => some .square
  | _ => none

/-- Reading `ts` while the brackets `s` are open, the innermost first, leaves the brackets `s'` open: every bracket that is
closed is the innermost open one.  With `stray`, a `(` directly after a word may be ignored. -/
inductive Nested (stray : Bool) : List Bracket → List Token → List Bracket → Prop
  | nil {s} : Nested stray s [] s
  | other {s s' t ts} : opens t.tok = none → closes t.tok = none → Nested stray s ts s' → Nested stray s (t :: ts) s'
  | opening {s s' t ts b} : opens t.tok = some b → Nested stray (b :: s) ts s' → Nested stray s (t :: ts) s'
  | closing {s s' t ts b} : closes t.tok = some b → Nested stray s ts s' → Nested stray (b :: s) (t :: ts) s'
  | ignored {s s' t u ts w text} : stray = true → t.tok = .word w → u.tok = .sym .LParen text →
      Nested stray s ts s' → Nested stray s (t :: u :: ts) s'

/-- All brackets are closed, in the right order. -/
def Balanced (ts : List Token) : Prop := Nested false [] ts []

/-- How many of the tokens open, and close, this bracket. -/
def opened (b : Bracket) (ts : List Token) : Nat := ts.countP fun t => opens t.tok == some b
def closed (b : Bracket) (ts : List Token) : Nat := ts.countP fun t => closes t.tok == some b

end Verif.Spec
