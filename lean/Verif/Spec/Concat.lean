import Verif.Spec.Spelling
/-
Texts put one behind the other, for C74.
-/
namespace Verif.Spec
open Verif

/-- Where a position of a text is when the text begins at `o` instead of line 1, column 1. -/
def Pos.shift (o p : Pos) : Pos := ⟨p.line + (o.line - 1), if p.line = 1 then p.col + (o.col - 1) else p.col⟩

/-- The same for a token. -/
def Token.shift (o : Pos) (t : Token) : Token := ⟨t.tok, Pos.shift o t.from_, Pos.shift o t.to_⟩

/-- The last token `t` of a text, written as `piece`, is not continued by the next character. -/
def Stops (d : Dialect) (t : Tok) (piece : Str) (next : Option Char) : Prop :=
  match t with
  | .comment _ => ['/', '*'] <+: piece ∨ next = none ∨ next = some '\n'
  | .whitespace _ => piece = ['\r'] → next ≠ some '\n'
  | t => Ends d t next

end Verif.Spec
