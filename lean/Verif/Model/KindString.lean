import Verif.Model.Token
import Verif.Model.Writer
/-
The textual forms of kinds and positions: sqltoken/kind_string.go (generated by stringer) and `Pos.String`.
-/
namespace Verif

/-- sqltoken/kind.go:6-71, the constants of type `Kind`. -/
inductive TokenKind where
  | SQLKeyword | Number | Char | SingleQuotedString | NationalStringLiteral | Comma | Whitespace | Comment
  | Eq | Neq | Lt | Gt | LtEq | GtEq | Plus | Minus | Mult | Div | Mod | LParen | RParen | Period | Colon
  | DoubleColon | Semicolon | Backslash | LBracket | RBracket | Ampersand | LBrace | RBrace | ILLEGAL
  deriving DecidableEq, Repr, Inhabited

/-- The value of a constant: `iota`, sqltoken/kind.go:8 and the lines after. -/
def TokenKind.value : TokenKind → Int
  | .SQLKeyword => 0 | .Number => 1 | .Char => 2 | .SingleQuotedString => 3 | .NationalStringLiteral => 4
  | .Comma => 5 | .Whitespace => 6 | .Comment => 7 | .Eq => 8 | .Neq => 9 | .Lt => 10 | .Gt => 11
  | .LtEq => 12 | .GtEq => 13 | .Plus => 14 | .Minus => 15 | .Mult => 16 | .Div => 17 | .Mod => 18
  | .LParen => 19 | .RParen => 20 | .Period => 21 | .Colon => 22 | .DoubleColon => 23 | .Semicolon => 24
  | .Backslash => 25 | .LBracket => 26 | .RBracket => 27 | .Ampersand => 28 | .LBrace => 29 | .RBrace => 30
  | .ILLEGAL => 31

/-- The `Kind` field of a token, sqltoken/tokenizer.go:80-85. -/
def Tok.kind : Tok → TokenKind
  | .word _ => .SQLKeyword
  | .number _ => .Number
  | .char _ => .Char
  | .single _ => .SingleQuotedString
  | .national _ => .NationalStringLiteral
  | .whitespace _ => .Whitespace
  | .comment _ => .Comment
  | .sym k _ =>
    match k with
    | .Comma => .Comma | .Eq => .Eq | .Neq => .Neq | .Lt => .Lt | .Gt => .Gt | .LtEq => .LtEq | .GtEq => .GtEq
    | .Plus => .Plus | .Minus => .Minus | .Mult => .Mult | .Div => .Div | .Mod => .Mod | .LParen => .LParen
    | .RParen => .RParen | .Period => .Period | .Colon => .Colon | .DoubleColon => .DoubleColon
    | .Semicolon => .Semicolon | .Backslash => .Backslash | .LBracket => .LBracket | .RBracket => .RBracket
    | .Ampersand => .Ampersand | .LBrace => .LBrace | .RBrace => .RBrace

/-- sqltoken/kind_string.go:45, `_Kind_name`. -/
def kindNames : Str :=
  str% "SQLKeywordNumberCharSingleQuotedStringNationalStringLiteralCommaWhitespaceCommentEqNeqLtGtLtEqGtEqPlusMinusMultDivModLParenRParenPeriodColonDoubleColonSemicolonBackslashLBracketRBracketAmpersandLBraceRBraceILLEGAL"

/-- sqltoken/kind_string.go:47, `_Kind_index`. -/
def kindIndex : List Nat :=
  [0, 10, 16, 20, 38, 59, 64, 74, 81, 83, 86, 88, 90, 94, 98, 102, 107, 111, 114, 117, 123, 129, 135, 140, 151, 160,
    169, 177, 185, 194, 200, 206, 213]

/-- Go's `s[a:b]` for an ASCII text; `none` is the panic. -/
def slice (s : Str) (a b : Nat) : Option Str :=
  if a ≤ b ∧ b ≤ s.length then some ((s.take b).drop a) else none

/-- sqltoken/kind_string.go:49-54, `Kind.String`, for any value of type `Kind` (an `int`); `none` is a panic (index
or slice bounds out of range). -/
def kindString (i : Int) : Option Str :=
  if i < 0 ∨ i ≥ (kindIndex.length : Int) - 1 then some (str% "Kind(" ++ intStr i ++ str% ")")
  else
    match kindIndex[i.toNat]?, kindIndex[i.toNat + 1]? with
    | some a, some b => slice kindNames a b
    | _, _ => none

/-- sqltoken/tokenizer.go:99-101, `Pos.String`, with the `int` fields of `Pos`. -/
def posString (line col : Int) : Str :=
  str% "{Line: " ++ intStr line ++ str% " Col: " ++ intStr col ++ str% "}"

end Verif
