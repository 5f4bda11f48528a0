import Verif.Model.Token
/-
Independent description of positions in a source text.
-/
namespace Verif.Spec

/-- Editor convention: a newline starts the next line, any other character takes one column. -/
def advance (p : Pos) (ch : Char) : Pos := if ch = '\n' then ⟨p.line + 1, 1⟩ else ⟨p.line, p.col + 1⟩

/-- Position right after the text `pre`, when the text starts at line 1 column 1. -/
def posAfter (pre : Str) : Pos := pre.foldl advance ⟨1, 1⟩

/-- Every carriage return belongs to a CR LF pair. -/
def CrLf (src : Str) : Prop := ∀ u v, src = u ++ '\r' :: v → v.head? = some '\n'

/-- The token has no line break inside a string literal or identifier. -/
def NoBreakInside (t : Tok) : Prop :=
  match t with
  | .word w => '\n' ∉ w.value
  | .single s => '\n' ∉ s
  | .national s => '\n' ∉ s
  | _ => True

/-- The token has no quote inside a string literal. -/
def NoQuoteInside (t : Tok) : Prop :=
  match t with
  | .single s => '\'' ∉ s
  | .national s => '\'' ∉ s
  | _ => True

/-- ASCII text without tabs and carriage returns. -/
def PlainText (src : Str) : Prop := ∀ c ∈ src, c.toNat < 128 ∧ c ≠ '\t' ∧ c ≠ '\r'

end Verif.Spec
