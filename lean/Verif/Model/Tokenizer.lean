import Verif.Model.Token
/-
Model of the tokenizer, sqltoken/tokenizer.go:121-544.
-/
namespace Verif

/-- sqltoken/tokenizer.go:121-127: the part of `Tokenizer` that changes while scanning.  `rest` is what
`text/scanner` has not yet returned. -/
structure TState where
  rest : List Char
  line : Nat
  col : Nat
  deriving DecidableEq, Repr, Inhabited

/-- sqltoken/tokenizer.go:213-218, `Tokenizer.Pos`. -/
def TState.pos (s : TState) : Pos := ⟨s.line, s.col⟩

/-- The three error returns of `next` (tokenizer.go:385, 495, 525). -/
inductive TokErr where
  | unclosedString | unclosedComment | illegalBang
  deriving DecidableEq, Repr

/-- Result of `next`: a token and the new state, `io.EOF`, an error (with the state it leaves), or
no result because a loop did not end within the fuel. -/
inductive NextRes where
  | tok (t : Tok) (s : TState)
  | eof
  | err (e : TokErr) (s : TState)
  | loop
  deriving DecidableEq, Repr

/-- tokenizer.go:460-476, the loop of `tokenizeWord`: characters taken, rest. -/
def takeWord (d : Dialect) : List Char → List Char × List Char
  | [] => ([], [])
  | c :: cs =>
    if d.isIdentPart c then
      let (w, r) := takeWord d cs
      (c :: w, r)
    else ([], c :: cs)

/-- tokenizer.go:460-476, `tokenizeWord`: the first rune `f` has been consumed. -/
def tokenizeWord (d : Dialect) (f : Char) (s : TState) : Str × TState :=
  let (w, r) := takeWord d s.rest
  let str := f :: w
  (str, { s with rest := r, col := s.col + byteLen str })

/-- tokenizer.go:481-501, the loop of `tokenizeSingleQuotedString` (opening quote consumed): the
decoded text and the rest after the closing quote; `none` if the input ends first. -/
def takeString : List Char → Option (List Char × List Char)
  | [] => none
  | '\'' :: '\'' :: cs =>
    match takeString cs with
    | some (str, r) => some ('\'' :: str, r)
    | none => none
  | c :: cs =>
    if c = '\'' then some ([], cs)
    else match takeString cs with
      | some (str, r) => some (c :: str, r)
      | none => none

/-- tokenizer.go:478-506, `tokenizeSingleQuotedString`; `s.rest` still starts with the opening quote. -/
def tokenizeSingleQuotedString (s : TState) : Except TState (Str × TState) :=
  match takeString s.rest.tail with
  | none => .error { s with rest := [] }
  | some (str, r) => .ok (str, { s with rest := r, col := s.col + (2 + byteLen str) })

/-- tokenizer.go:508-544, the loop of `tokenizeMultilineComment`.  `closing` is
`mayBeClosingComment`, `acc` is `str` in reverse. -/
def takeComment : List Char → (closing : Bool) → (acc : List Char) → (line col : Nat) →
    Except TState (Str × TState)
  | [], _, _, line, col => .error ⟨[], line, col⟩
  | '\r' :: '\n' :: cs, closing, acc, line, _ =>
    let acc := if closing then '\r' :: acc else acc
    takeComment cs false ('\r' :: acc) (line + 1) 1
  | n :: cs, closing, acc, line, col =>
    let (line, col) := if n = '\r' ∨ n = '\n' then (line + 1, 1) else (line, col + 1)
    if closing ∧ n = '/' then .ok (acc.reverse, ⟨cs, line, col⟩)
    else
      let acc := if closing then n :: acc else acc
      if n = '*' then takeComment cs true acc line col
      else takeComment cs false (n :: acc) line col

/-- tokenizer.go:508-544, `tokenizeMultilineComment`; the opening `/*` has been consumed. -/
def tokenizeMultilineComment (s : TState) : Except TState (Str × TState) :=
  takeComment s.rest false [] s.line (s.col + 2)

/-- tokenizer.go:280-287, the loop that reads a delimited identifier up to the rune `e`.  At the end
of the input `Scanner.Next` returns EOF for ever, which is never equal to `e`, so the loop goes
on; `none` means the fuel ran out. -/
def takeDelim (e : Char) : Nat → List Char → Option (List Char × List Char)
  | 0, _ => none
  | fuel + 1, [] => takeDelim e fuel []
  | fuel + 1, c :: cs =>
    if c = e then some ([], cs)
    else match takeDelim e fuel cs with
      | some (w, r) => some (c :: w, r)
      | none => none

/-- tokenizer.go:292-304, the loop that reads a number. -/
def takeNumber : List Char → List Char × List Char
  | [] => ([], [])
  | c :: cs =>
    if isDigit c || c == '.' then
      let (w, r) := takeNumber cs
      (c :: w, r)
    else ([], c :: cs)

/-- tokenizer.go:327-337, the loop that reads a `--` comment (up to the end of the line or input). -/
def takeLine : List Char → List Char × List Char
  | [] => ([], [])
  | c :: cs =>
    if c = '\n' then ([], c :: cs)
    else
      let (w, r) := takeLine cs
      (c :: w, r)

/-- A token of `n` runes that stays on the line. -/
def TState.adv (s : TState) (rest : List Char) (n : Nat) : TState :=
  { s with rest := rest, col := s.col + n }

def symTok (k : Sym) (text : Str) (s : TState) (rest : List Char) : NextRes :=
  .tok (.sym k text) (s.adv rest text.length)

/-- tokenizer.go:220-458, `next`. -/
def next (d : Dialect) (fuel : Nat) (s : TState) : NextRes :=
  match s.rest with
  | [] => .eof
  | r :: cs =>
    if r = ' ' then .tok (.whitespace [' ']) (s.adv cs 1)
    else if r = '\t' then .tok (.whitespace ['\t']) (s.adv cs 4)
    else if r = '\n' then .tok (.whitespace ['\n']) ⟨cs, s.line + 1, 1⟩
    else if r = '\r' then
      let cs := if cs.head? = some '\n' then cs.tail else cs
      .tok (.whitespace ['\n']) ⟨cs, s.line + 1, 1⟩
    else if r = 'N' then
      if cs.head? = some '\'' then
        match tokenizeSingleQuotedString (s.adv cs 1) with
        | .ok (str, s') => .tok (.national str) s'
        | .error s' => .err .unclosedString s'
      else
        let (w, s') := tokenizeWord d 'N' { s with rest := cs }
        .tok (.word (makeKeyword w none)) s'
    else if d.isIdentStart r then
      let (w, s') := tokenizeWord d r { s with rest := cs }
      .tok (.word (makeKeyword w none)) s'
    else if r = '\'' then
      match tokenizeSingleQuotedString s with
      | .ok (str, s') => .tok (.single str) s'
      | .error s' => .err .unclosedString s'
    else if d.isDelimStart r then
      match takeDelim (matchingEndQuote r) fuel cs with
      | none => .loop
      | some (w, rest) => .tok (.word (makeKeyword w (some r))) (s.adv rest (2 + w.length))
    else if isDigit r then
      let (w, rest) := takeNumber (r :: cs)
      .tok (.number w) (s.adv rest w.length)
    else if r = '(' then symTok .LParen ['('] s cs
    else if r = ')' then symTok .RParen [')'] s cs
    else if r = ',' then symTok .Comma [','] s cs
    else if r = '-' then
      if cs.head? = some '-' then
        let (w, rest) := takeLine cs.tail
        .tok (.comment w) (s.adv rest (w.length + 2))
      else symTok .Minus ['-'] s cs
    else if r = '/' then
      if cs.head? = some '*' then
        match tokenizeMultilineComment { s with rest := cs.tail } with
        | .ok (str, s') => .tok (.comment str) s'
        | .error s' => .err .unclosedComment s'
      else symTok .Div ['/'] s cs
    else if r = '+' then symTok .Plus ['+'] s cs
    else if r = '*' then symTok .Mult ['*'] s cs
    else if r = '%' then symTok .Mod ['%'] s cs
    else if r = '=' then symTok .Eq ['='] s cs
    else if r = '.' then symTok .Period ['.'] s cs
    else if r = '!' then
      if cs.head? = some '=' then symTok .Neq ['!', '='] s cs.tail
      else .err .illegalBang { s with rest := cs }
    else if r = '<' then
      if cs.head? = some '=' then symTok .LtEq ['<', '='] s cs.tail
      else if cs.head? = some '>' then symTok .Neq ['<', '>'] s cs.tail
      else symTok .Lt ['<'] s cs
    else if r = '>' then
      if cs.head? = some '=' then symTok .GtEq ['>', '='] s cs.tail
      else symTok .Gt ['>'] s cs
    else if r = ':' then
      if cs.head? = some ':' then symTok .DoubleColon [':', ':'] s cs.tail
      else symTok .Colon [':'] s cs
    else if r = ';' then symTok .Semicolon [';'] s cs
    else if r = '\\' then symTok .Backslash ['\\'] s cs
    else if r = '[' then symTok .LBracket ['['] s cs
    else if r = ']' then symTok .RBracket [']'] s cs
    else if r = '&' then symTok .Ampersand ['&'] s cs
    else if r = '{' then symTok .LBrace ['{'] s cs
    else if r = '}' then symTok .RBrace ['}'] s cs
    else .tok (.char r) (s.adv cs 1)

/-- Result of `Scan` / `NextToken` (tokenizer.go:183-211): a token, nothing (a suppressed whitespace or
comment), `io.EOF`, or an error. -/
inductive ScanRes where
  | token (t : Token) (s : TState)
  | skipped (s : TState)
  | eof
  | err (e : TokErr) (s : TState)
  | loop
  deriving DecidableEq, Repr

/-- tokenizer.go:188-211, `Scan`.  `keep` is the field `parseComment`. -/
def scan (d : Dialect) (keep : Bool) (fuel : Nat) (s : TState) : ScanRes :=
  match next d fuel s with
  | .eof => .eof
  | .err e s' => .err e s'
  | .loop => .loop
  | .tok t s' =>
    if !keep && t.insignificant then .skipped s'
    else .token ⟨t, s.pos, s'.pos⟩ s'

/-- Outcome of `Tokenize`: a token list, an error, or not finished within the fuel. -/
inductive TokRes where
  | ok (ts : List Token)
  | err (e : TokErr)
  | loop
  deriving DecidableEq, Repr

/-- tokenizer.go:162-181, the loop of `Tokenize`; each round costs one unit of fuel. -/
def tokenizeFrom (d : Dialect) (keep : Bool) : Nat → TState → TokRes
  | 0, _ => .loop
  | fuel + 1, s =>
    match scan d keep fuel s with
    | .eof => .ok []
    | .err e _ => .err e
    | .loop => .loop
    | .skipped s' => tokenizeFrom d keep fuel s'
    | .token t s' =>
      match tokenizeFrom d keep fuel s' with
      | .ok ts => .ok (t :: ts)
      | r => r

/-- tokenizer.go:129-138 and 162-181: `NewTokenizer(src, d).Tokenize()` (`keep = true`), or with
`DisableParseComment()` (`keep = false`). -/
def tokenize (d : Dialect) (keep : Bool) (fuel : Nat) (src : Str) : TokRes :=
  tokenizeFrom d keep fuel ⟨src, 1, 1⟩

end Verif
