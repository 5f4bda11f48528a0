import Verif.Model.Base
import Verif.Model.Dialect
/-
Model of the data types of package sqltoken: words, tokens, positions.
-/
namespace Verif

/-- sqltoken/tokenizer.go:94-97, `Pos`.  `int` fields, never negative; modelled as `Nat`.
The zero value (a position never set) is `{0, 0}`. -/
structure Pos where
  line : Nat
  col : Nat
  deriving DecidableEq, Repr, Inhabited

def Pos.zero : Pos := ⟨0, 0⟩

/-- sqltoken/tokenizer.go:103-119, `ComparePos`. -/
def comparePos (x y : Pos) : Int :=
  if x.line = y.line ∧ x.col = y.col then 0
  else if x.line > y.line then 1
  else if x.line < y.line then -1
  else if x.col > y.col then 1
  else -1

/-- sqltoken/tokenizer.go:14-18, `SQLWord`.  `QuoteStyle` 0 is `none`. -/
structure SQLWord where
  value : Str
  quote : Option Char
  keyword : Str
  deriving DecidableEq, Repr, Inhabited

/-- sqltoken/tokenizer.go:29-39, `matchingEndQuote`; rune 0 for any other quote. -/
def matchingEndQuote (q : Char) : Char :=
  if q = '"' then '"'
  else if q = '[' then ']'
  else if q = '`' then '`'
  else Char.ofNat 0

/-- sqltoken/tokenizer.go:20-27, `SQLWord.String`. -/
def SQLWord.string (w : SQLWord) : Str :=
  match w.quote with
  | none => w.value
  | some q =>
    if q = '"' ∨ q = '[' ∨ q = '`' then [q] ++ w.value ++ [matchingEndQuote q] else []

/-- sqltoken/tokenizer.go:41-55, `keywordCache` as filled by `init`: for each keyword an entry under
its own text and one under its lower case. -/
def keywordCache (word : Str) : Option SQLWord :=
  keywords.findSome? fun k =>
    if word = k then some { value := k, quote := none, keyword := k }
    else if word = lower k then some { value := lower k, quote := none, keyword := k }
    else none

/-- sqltoken/tokenizer.go:57-78, `MakeKeyword`. -/
def makeKeyword (word : Str) (quoteStyle : Option Char) : SQLWord :=
  match (if quoteStyle = none then keywordCache word else none) with
  | some w => w
  | none =>
    let w := upper word
    if quoteStyle = none ∧ w ∈ keywords then { value := word, quote := none, keyword := w }
    else { value := word, quote := quoteStyle, keyword := w }

/-- The kinds of sqltoken/kind.go:6-71 whose tokens have a fixed spelling. -/
inductive Sym where
  | Comma | Eq | Neq | Lt | Gt | LtEq | GtEq | Plus | Minus | Mult | Div | Mod | LParen | RParen
  | Period | Colon | DoubleColon | Semicolon | Backslash | LBracket | RBracket | Ampersand
  | LBrace | RBrace
  deriving DecidableEq, Repr, Inhabited

/-- A token's `Kind` together with its `Value` (sqltoken/tokenizer.go:80-85 and kind.go).  `SQLKeyword`
tokens carry an `SQLWord`, all others a string.  `ILLEGAL` is never stored in a returned token
without an error, so it is not a constructor here (see `TokErr`). -/
inductive Tok where
  | word (w : SQLWord)
  | number (s : Str)
  | char (c : Char)
  | single (s : Str)
  | national (s : Str)
  | whitespace (s : Str)
  | comment (s : Str)
  | sym (k : Sym) (text : Str)
  deriving DecidableEq, Repr, Inhabited

/-- sqltoken/tokenizer.go:80-85, `Token`. -/
structure Token where
  tok : Tok
  from_ : Pos
  to_ : Pos
  deriving DecidableEq, Repr, Inhabited

/-- Whitespace and comments, the tokens the parser skips (parser.go:2931, 3048, 3070). -/
def Tok.insignificant : Tok → Bool
  | .whitespace _ => true
  | .comment _ => true
  | _ => false

def Token.sig (t : Token) : Bool := !t.tok.insignificant

end Verif
