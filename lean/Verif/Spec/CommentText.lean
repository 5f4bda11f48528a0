import Verif.Spec.Spelling
/-
Independent description of what becomes of the text of a block comment.
-/
namespace Verif.Spec

/-- The text with every CR LF replaced by CR. -/
def unLf : Str → Str
  | '\r' :: '\n' :: cs => '\r' :: unLf cs
  | c :: cs => c :: unLf cs
  | [] => []

/-- Stars at the end of the text stay.  Of any other run of stars one is lost, and the character behind the run is
doubled. -/
def unStar : Str → Str
  | [] => []
  | c :: cs =>
    if c ≠ '*' then c :: unStar cs
    else match cs with
      | [] => ['*']
      | d :: ds => if d = '*' then '*' :: unStar (d :: ds) else d :: d :: unStar ds

/-- Every line break, also a lone CR, starts the next line; any other character takes one column. -/
def breakAdvance (p : Pos) (c : Char) : Pos := if c = '\r' ∨ c = '\n' then ⟨p.line + 1, 1⟩ else ⟨p.line, p.col + 1⟩

/-- All stars of the text are at its end, and there is no CR LF in it. -/
def PlainBody (body : Str) : Prop := ¬ ['\r', '\n'] <:+: body ∧ ∃ a k, body = a ++ List.replicate k '*' ∧ '*' ∉ a

end Verif.Spec
