import Verif.Model.Token
/-
The exact position of the end of a token, in terms of its kind and its text.
-/
namespace Verif.Spec

/-- The token is white space or a comment. -/
def IsTrivia (t : Tok) : Prop :=
  match t with
  | .whitespace _ => True
  | .comment _ => True
  | _ => False

/-- Position right after the text `s` that starts at `p`, where CR, LF and CR LF are line ends. -/
def walkPos : Str → Pos → Pos
  | [], p => p
  | '\r' :: '\n' :: s, p => walkPos s ⟨p.line + 1, 1⟩
  | c :: s, p => walkPos s (if c = '\r' ∨ c = '\n' then ⟨p.line + 1, 1⟩ else ⟨p.line, p.col + 1⟩)

/-- The position the tokenizer gives the end of a token with the text `s` that starts at `p`.  Line ends count in
white space and block comments only, a tab counts four columns, unquoted words and strings count bytes, a doubled
quote in a string counts once, and all other characters count one column. -/
def tokenEnd (t : Tok) (s : Str) (p : Pos) : Pos :=
  match t with
  | .whitespace _ => if s = ['\t'] then ⟨p.line, p.col + 4⟩ else walkPos s p
  | .comment _ => if ['/', '*'] <+: s then walkPos s p else ⟨p.line, p.col + s.length⟩
  | .word w => ⟨p.line, p.col + if w.quote.isSome then s.length else byteLen s⟩
  | .single v => ⟨p.line, p.col + (byteLen v + 2)⟩
  | .national v => ⟨p.line, p.col + (byteLen v + 3)⟩
  | _ => ⟨p.line, p.col + s.length⟩

end Verif.Spec
