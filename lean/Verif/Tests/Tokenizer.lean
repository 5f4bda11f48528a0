import Verif.Proofs.KernelRfl
import Verif.Props.Stream
import Verif.Model.Strconv
/-
The cases of sqltoken/tokenizer_test.go, evaluated in the model.

These are tests of the model, not theorems about it: they show that on these inputs the model computes what the
authors of the code expect of the code.  Inputs and expected results are those of the test files, translated field by
field; a field that a Go literal leaves out has the zero value.
-/
namespace Verif.RepoTests

/-- `sqltoken.NewTokenizer(src, &dialect.GenericSQLDialect{}).Tokenize()` (tokenizer.go:129-137). -/
def toks (src : Str) : TokRes := tokenize genericDialect true (src.length + 1) src

/-- `tokenizer.Pos()` after `Tokenize`: the end of the last token. -/
def endPos (src : Str) : Option Pos :=
  match toks src with
  | .ok ts => ts.getLast?.map Token.to_
  | _ => none

/-- `Tokenize` returned an error. -/
def fails (src : Str) : Bool :=
  match toks src with
  | .err _ => true
  | _ => false

/-! ### tokenizer_test.go:15-492, `TestTokenizer_Tokenize` -/

/-- tokenizer_test.go:22, "whitespace" -/
example : toks (str% " ") = .ok
    [⟨.whitespace (str% " "), ⟨1, 1⟩, ⟨1, 2⟩⟩] := by decide +kernel

/-- tokenizer_test.go:34, "whitespace and new line" -/
example : toks (str% "\n ") = .ok
    [⟨.whitespace (str% "\n"), ⟨1, 1⟩, ⟨2, 1⟩⟩, ⟨.whitespace (str% " "), ⟨2, 1⟩, ⟨2, 2⟩⟩] := by decide +kernel

/-- tokenizer_test.go:53, "whitespace and tab" -/
example : toks (str% "\r\n\t") = .ok
    [⟨.whitespace (str% "\n"), ⟨1, 1⟩, ⟨2, 1⟩⟩, ⟨.whitespace (str% "\t"), ⟨2, 1⟩, ⟨2, 5⟩⟩] := by decide +kernel

/-- tokenizer_test.go:71, "N string" -/
example : toks (str% "N'string'") = .ok
    [⟨.national (str% "string"), ⟨1, 1⟩, ⟨1, 10⟩⟩] := by decide +kernel

/-- tokenizer_test.go:83, "N string with keyword" -/
example : toks (str% "N'string' NOT") = .ok
    [⟨.national (str% "string"), ⟨1, 1⟩, ⟨1, 10⟩⟩, ⟨.whitespace (str% " "), ⟨1, 10⟩, ⟨1, 11⟩⟩, ⟨.word ⟨(str% "NOT"),
      none, (str% "NOT")⟩, ⟨1, 11⟩, ⟨1, 14⟩⟩] := by decide +kernel

/-- tokenizer_test.go:110, "Ident" -/
example : toks (str% "select") = .ok
    [⟨.word ⟨(str% "select"), none, (str% "SELECT")⟩, ⟨1, 1⟩, ⟨1, 7⟩⟩] := by decide +kernel

/-- tokenizer_test.go:125, "single quote string" -/
example : toks (str% "'test'") = .ok
    [⟨.single (str% "test"), ⟨1, 1⟩, ⟨1, 7⟩⟩] := by decide +kernel

/-- tokenizer_test.go:137, "quoted string" -/
example : toks (str% "\"SELECT\"") = .ok
    [⟨.word ⟨(str% "SELECT"), (some '"'), (str% "SELECT")⟩, ⟨1, 1⟩, ⟨1, 9⟩⟩] := by decide +kernel

/-- tokenizer_test.go:153, "parents with number" -/
example : toks (str% "(123),") = .ok
    [⟨.sym .LParen (str% "("), ⟨1, 1⟩, ⟨1, 2⟩⟩, ⟨.number (str% "123"), ⟨1, 2⟩, ⟨1, 5⟩⟩, ⟨.sym .RParen (str% ")"), ⟨1,
      5⟩, ⟨1, 6⟩⟩, ⟨.sym .Comma (str% ","), ⟨1, 6⟩, ⟨1, 7⟩⟩] := by decide +kernel

/-- tokenizer_test.go:183, "minus comment" -/
example : toks (str% "-- test") = .ok
    [⟨.comment (str% " test"), ⟨1, 1⟩, ⟨1, 8⟩⟩] := by decide +kernel

/-- tokenizer_test.go:195, "minus operator" -/
example : toks (str% "1-3") = .ok
    [⟨.number (str% "1"), ⟨1, 1⟩, ⟨1, 2⟩⟩, ⟨.sym .Minus (str% "-"), ⟨1, 2⟩, ⟨1, 3⟩⟩, ⟨.number (str% "3"), ⟨1, 3⟩, ⟨1,
      4⟩⟩] := by decide +kernel

/-- tokenizer_test.go:219, "/ * comment" -/
example : toks (str% "/* test\nmultiline\ncomment */") = .ok
    [⟨.comment (str% " test\nmultiline\ncomment "), ⟨1, 1⟩, ⟨3, 11⟩⟩] := by decide +kernel

/-- tokenizer_test.go:233, "operators" -/
example : toks (str% "1/1*1+1%1=1.1-.") = .ok
    [⟨.number (str% "1"), ⟨1, 1⟩, ⟨1, 2⟩⟩, ⟨.sym .Div (str% "/"), ⟨1, 2⟩, ⟨1, 3⟩⟩, ⟨.number (str% "1"), ⟨1, 3⟩, ⟨1,
      4⟩⟩, ⟨.sym .Mult (str% "*"), ⟨1, 4⟩, ⟨1, 5⟩⟩, ⟨.number (str% "1"), ⟨1, 5⟩, ⟨1, 6⟩⟩, ⟨.sym .Plus (str% "+"), ⟨1,
      6⟩, ⟨1, 7⟩⟩, ⟨.number (str% "1"), ⟨1, 7⟩, ⟨1, 8⟩⟩, ⟨.sym .Mod (str% "%"), ⟨1, 8⟩, ⟨1, 9⟩⟩, ⟨.number (str% "1"),
      ⟨1, 9⟩, ⟨1, 10⟩⟩, ⟨.sym .Eq (str% "="), ⟨1, 10⟩, ⟨1, 11⟩⟩, ⟨.number (str% "1.1"), ⟨1, 11⟩, ⟨1, 14⟩⟩, ⟨.sym
      .Minus (str% "-"), ⟨1, 14⟩, ⟨1, 15⟩⟩, ⟨.sym .Period (str% "."), ⟨1, 15⟩, ⟨1, 16⟩⟩] := by decide +kernel

/-- tokenizer_test.go:317, "Neq" -/
example : toks (str% "1!=2") = .ok
    [⟨.number (str% "1"), ⟨1, 1⟩, ⟨1, 2⟩⟩, ⟨.sym .Neq (str% "!="), ⟨1, 2⟩, ⟨1, 4⟩⟩, ⟨.number (str% "2"), ⟨1, 4⟩, ⟨1,
      5⟩⟩] := by decide +kernel

/-- tokenizer_test.go:341, "Lts" -/
example : toks (str% "<<=<>") = .ok
    [⟨.sym .Lt (str% "<"), ⟨1, 1⟩, ⟨1, 2⟩⟩, ⟨.sym .LtEq (str% "<="), ⟨1, 2⟩, ⟨1, 4⟩⟩, ⟨.sym .Neq (str% "<>"), ⟨1, 4⟩,
      ⟨1, 6⟩⟩] := by decide +kernel

/-- tokenizer_test.go:365, "Gts" -/
example : toks (str% ">>=") = .ok
    [⟨.sym .Gt (str% ">"), ⟨1, 1⟩, ⟨1, 2⟩⟩, ⟨.sym .GtEq (str% ">="), ⟨1, 2⟩, ⟨1, 4⟩⟩] := by decide +kernel

/-- tokenizer_test.go:383, "colons" -/
example : toks (str% ":1::1;") = .ok
    [⟨.sym .Colon (str% ":"), ⟨1, 1⟩, ⟨1, 2⟩⟩, ⟨.number (str% "1"), ⟨1, 2⟩, ⟨1, 3⟩⟩, ⟨.sym .DoubleColon (str% "::"),
      ⟨1, 3⟩, ⟨1, 5⟩⟩, ⟨.number (str% "1"), ⟨1, 5⟩, ⟨1, 6⟩⟩, ⟨.sym .Semicolon (str% ";"), ⟨1, 6⟩, ⟨1, 7⟩⟩] := by decide +kernel

/-- tokenizer_test.go:419, "others" -/
example : toks (str% "\\[{&}]") = .ok
    [⟨.sym .Backslash (str% "\\"), ⟨1, 1⟩, ⟨1, 2⟩⟩, ⟨.sym .LBracket (str% "["), ⟨1, 2⟩, ⟨1, 3⟩⟩, ⟨.sym .LBrace
      (str% "{"), ⟨1, 3⟩, ⟨1, 4⟩⟩, ⟨.sym .Ampersand (str% "&"), ⟨1, 4⟩, ⟨1, 5⟩⟩, ⟨.sym .RBrace (str% "}"), ⟨1, 5⟩,
      ⟨1, 6⟩⟩, ⟨.sym .RBracket (str% "]"), ⟨1, 6⟩, ⟨1, 7⟩⟩] := by decide +kernel

/-! ### tokenizer_test.go:495-648, `TestTokenizer_Pos` -/

/-- tokenizer_test.go:496, "+" -/
example : endPos (str% "1 + 1") = some ⟨1, 6⟩ := by decide +kernel

/-- tokenizer_test.go:496, "-" -/
example : endPos (str% "1 - 1") = some ⟨1, 6⟩ := by decide +kernel

/-- tokenizer_test.go:496, "%" -/
example : endPos (str% "1 % 1") = some ⟨1, 6⟩ := by decide +kernel

/-- tokenizer_test.go:496, "*" -/
example : endPos (str% "1 * 1") = some ⟨1, 6⟩ := by decide +kernel

/-- tokenizer_test.go:496, "/" -/
example : endPos (str% "1 / 1") = some ⟨1, 6⟩ := by decide +kernel

/-- tokenizer_test.go:496, ">" -/
example : endPos (str% "1 > 1") = some ⟨1, 6⟩ := by decide +kernel

/-- tokenizer_test.go:496, "=" -/
example : endPos (str% "1 = 1") = some ⟨1, 6⟩ := by decide +kernel

/-- tokenizer_test.go:496, "<" -/
example : endPos (str% "1 < 1") = some ⟨1, 6⟩ := by decide +kernel

/-- tokenizer_test.go:496, "<=" -/
example : endPos (str% "1 <= 1") = some ⟨1, 7⟩ := by decide +kernel

/-- tokenizer_test.go:496, "<>" -/
example : endPos (str% "1 <> 1") = some ⟨1, 7⟩ := by decide +kernel

/-- tokenizer_test.go:496, ">=" -/
example : endPos (str% "1 >= 1") = some ⟨1, 7⟩ := by decide +kernel

/-- tokenizer_test.go:560, "multiline " -/
example : endPos (str% "1+1\nasdf") = some ⟨2, 5⟩ := by decide +kernel

/-- tokenizer_test.go:566, "single line comment" -/
example : endPos (str% "-- comments") = some ⟨1, 12⟩ := by decide +kernel

/-- tokenizer_test.go:571, "statements" -/
example : endPos (str% "select count(id) from account") = some ⟨1, 30⟩ := by decide +kernel

/-- tokenizer_test.go:576, "multiline statements" -/
example : endPos (str% "select count(id)\nfrom account \nwhere name like '%test%'") = some ⟨3, 25⟩ := by decide +kernel

/-- tokenizer_test.go:583, "multiline comment" -/
example : endPos (str% "/*\ntest comment\ntest comment\n*/") = some ⟨4, 3⟩ := by decide +kernel

/-- tokenizer_test.go:591, "single line comment" -/
example : endPos (str% "/* asdf */") = some ⟨1, 11⟩ := by decide +kernel

/-- tokenizer_test.go:596, "comment inside sql" -/
example : endPos (str% "select * from /* test table */ test_table where id != 123") = some ⟨1, 58⟩ := by decide +kernel

/-- tokenizer_test.go:623, "incomplete quoted string" -/
example : fails (str% "'test") = true := by decide +kernel

/-- tokenizer_test.go:627, "unclosed multiline comment" -/
example : fails (str% "\n/* test\ntest\n") = true := by decide +kernel

end Verif.RepoTests
