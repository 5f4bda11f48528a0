import Verif.Model.Tokenizer
/-
Independent description of how tokens are written in SQL source text.  Nothing here refers to the
scanning functions of the model (the import is for the names of the three errors).
-/
namespace Verif.Spec

/-- A quote inside a string literal is written twice. -/
def escape : Str → Str
  | [] => []
  | c :: cs => if c = '\'' then '\'' :: '\'' :: escape cs else c :: escape cs

/-- The fixed spellings of symbol tokens. -/
def symText : Sym → List Str
  | .Comma => [[',']] | .Eq => [['=']] | .Neq => [['!', '='], ['<', '>']] | .Lt => [['<']] | .Gt => [['>']]
  | .LtEq => [['<', '=']] | .GtEq => [['>', '=']] | .Plus => [['+']] | .Minus => [['-']] | .Mult => [['*']]
  | .Div => [['/']] | .Mod => [['%']] | .LParen => [['(']] | .RParen => [[')']] | .Period => [['.']]
  | .Colon => [[':']] | .DoubleColon => [[':', ':']] | .Semicolon => [[';']] | .Backslash => [['\\']]
  | .LBracket => [['[']] | .RBracket => [[']']] | .Ampersand => [['&']] | .LBrace => [['{']]
  | .RBrace => [['}']]

/-- Two characters that begin a longer token when they meet. -/
def gluing : List (Char × Char) :=
  [('!', '='), ('<', '='), ('<', '>'), ('>', '='), (':', ':'), ('-', '-'), ('/', '*')]

/-- A symbol is complete: the next character does not make a longer token of it. -/
def SymEnds (text : Str) (next : Option Char) : Prop :=
  ∀ x y, text = [x] → next = some y → (x, y) ∉ gluing

/-- The text `*/` does not occur in the text. -/
def NoClose (body : Str) : Prop := ¬ ['*', '/'] <:+: body

/-- Characters that begin a token of their own kind in every dialect. -/
def specials : List Char :=
  [' ', '\t', '\n', '\r', '\'', '(', ')', ',', '-', '/', '+', '*', '%', '=', '.', '!', '<', '>', ':',
   ';', '\\', '[', ']', '&', '{', '}']

/-- `piece` is a way to write the token `t`. -/
inductive Spells (d : Dialect) : Tok → Str → Prop
  | space : Spells d (.whitespace [' ']) [' ']
  | tab : Spells d (.whitespace ['\t']) ['\t']
  | lf : Spells d (.whitespace ['\n']) ['\n']
  | cr : Spells d (.whitespace ['\n']) ['\r']
  | crlf : Spells d (.whitespace ['\n']) ['\r', '\n']
  | word (c : Char) (w : Str) : (c = 'N' ∨ d.isIdentStart c = true) →
      (∀ x ∈ w, d.isIdentPart x = true) →
      Spells d (.word ⟨c :: w, none, upper (c :: w)⟩) (c :: w)
  | delim (q : Char) (w : Str) : d.isDelimStart q = true → matchingEndQuote q ∉ w →
      Spells d (.word ⟨w, some q, upper w⟩) (q :: (w ++ [matchingEndQuote q]))
  | number (c : Char) (w : Str) : isDigit c = true → (∀ x ∈ w, isDigit x = true ∨ x = '.') →
      Spells d (.number (c :: w)) (c :: w)
  | char (c : Char) : c ∉ specials → isDigit c = false → c ≠ 'N' → d.isIdentStart c = false →
      d.isDelimStart c = false → Spells d (.char c) [c]
  | single (s : Str) : Spells d (.single s) ('\'' :: (escape s ++ ['\'']))
  | national (s : Str) : Spells d (.national s) ('N' :: '\'' :: (escape s ++ ['\'']))
  | line (s : Str) : '\n' ∉ s → Spells d (.comment s) ('-' :: '-' :: s)
  | block (body s : Str) : NoClose body →
      Spells d (.comment s) ('/' :: '*' :: (body ++ ['*', '/']))
  | sym (k : Sym) (text : Str) : text ∈ symText k → Spells d (.sym k text) text

/-- Identifier starts, identifier quotes and the fixed token characters do not overlap. -/
structure Sane (d : Dialect) : Prop where
  start : ∀ c, d.isIdentStart c = true → c ∉ specials ∧ isDigit c = false ∧ d.isDelimStart c = false
  delim : ∀ c, d.isDelimStart c = true → c ∉ specials ∧ isDigit c = false ∧ c ≠ 'N'
  part : d.isIdentPart '\'' = false

/-- No closing quote follows (a doubled quote does not close a literal). -/
def Unclosed (post : Str) : Prop := ¬ ∃ s r, post = escape s ++ '\'' :: r ∧ r.head? ≠ some '\''

/-- The text starts with something that is not the beginning of any token. -/
inductive Broken : Str → TokErr → Prop
  | string (post) : Unclosed post → Broken ('\'' :: post) .unclosedString
  | national (post) : Unclosed post → Broken ('N' :: '\'' :: post) .unclosedString
  | comment (post) : NoClose post → Broken ('/' :: '*' :: post) .unclosedComment
  | bang (post) : post.head? ≠ some '=' → Broken ('!' :: post) .illegalBang

/-- The text starts with an identifier quote that is never closed. -/
def OpenDelim (d : Dialect) (src : Str) : Prop :=
  ∃ q post, src = q :: post ∧ d.isDelimStart q = true ∧ matchingEndQuote q ∉ post

/-- `piece` is the longest beginning of `src` that spells a token. -/
def Longest (d : Dialect) (src : Str) (t : Tok) (piece : Str) : Prop :=
  Spells d t piece ∧ piece <+: src ∧ ∀ t' piece', Spells d t' piece' → piece' <+: src →
    piece'.length ≤ piece.length

/-- Left-to-right longest-match reading of `src` into `ts`, stopping at `rest`. -/
inductive Lexes (d : Dialect) : Str → List Tok → Str → Prop
  | refl (src) : Lexes d src [] src
  | step (t piece mid ts rest) : Longest d (piece ++ mid) t piece → (∀ e, ¬ Broken (piece ++ mid) e) →
      ¬ OpenDelim d (piece ++ mid) → Lexes d mid ts rest → Lexes d (piece ++ mid) (t :: ts) rest

/-- The usual spelling of a token (comments as line comments). -/
def spell : Tok → Str
  | .word ⟨v, none, _⟩ => v
  | .word ⟨v, some q, _⟩ => q :: (v ++ [matchingEndQuote q])
  | .number s => s
  | .char c => [c]
  | .single s => '\'' :: (escape s ++ ['\''])
  | .national s => 'N' :: '\'' :: (escape s ++ ['\''])
  | .whitespace s => s
  | .comment s => '-' :: '-' :: s
  | .sym _ text => text

/-- The character after the usual spelling of `t` does not continue the token. -/
def Ends (d : Dialect) (t : Tok) (next : Option Char) : Prop :=
  match t with
  | .word ⟨v, none, _⟩ => (∀ y, next = some y → d.isIdentPart y = false) ∧ (v = ['N'] → next ≠ some '\'')
  | .word ⟨_, some _, _⟩ => True
  | .number _ => ∀ y, next = some y → isDigit y = false ∧ y ≠ '.'
  | .char _ => True
  | .single _ => next ≠ some '\''
  | .national _ => next ≠ some '\''
  | .whitespace _ => True
  | .comment _ => ∀ y, next = some y → y = '\n'
  | .sym _ text => SymEnds text next

/-- Every token of the list has its usual spelling and is not continued by the next one. -/
def Separated (d : Dialect) : List Tok → Prop
  | [] => True
  | t :: ts => Spells d t (spell t) ∧ Ends d t (ts.flatMap spell).head? ∧ Separated d ts

end Verif.Spec
