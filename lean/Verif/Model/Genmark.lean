import Verif.Model.Base
/-
Model of tools/genmark/main.go, the generator of the marker interfaces of package sqlast.  Names are ASCII (as all
names in the `go:generate` lines are); `go/format` and the file system are not modelled, the result is the name of
the file and the text handed to `format.Source`.
-/
namespace Verif.Genmark

/-- `[A-Z]`; on ASCII also `unicode.IsUpper`. -/
def isUpperA (c : Char) : Bool := decide ('A' ≤ c) && decide (c ≤ 'Z')
/-- `[a-z]`. -/
def isLowerA (c : Char) : Bool := decide ('a' ≤ c) && decide (c ≤ 'z')

/-- main.go:43, `strings.Replace(s, "SQL", "Sql", -1)`. -/
def sqlToSql : Str → Str
  | 'S' :: 'Q' :: 'L' :: r => 'S' :: 'q' :: 'l' :: sqlToSql r
  | c :: r => c :: sqlToSql r
  | [] => []

/-- main.go:40 and 44-52 after the beginning of the text, where `^` no longer matches: replace the non-overlapping
matches of `[a-z][A-Z]` from left to right. -/
def snakeGo : Str → Str
  | a :: b :: r =>
    if isLowerA a && isUpperA b then a :: '_' :: lowerC b :: snakeGo r else a :: snakeGo (b :: r)
  | s => s

/-- main.go:42-53, `toSnake`.  At the beginning, the first alternative of `(^|[a-z])([A-Z])` is tried first. -/
def toSnake (s : Str) : Str :=
  match sqlToSql s with
  | c :: r => if isUpperA c then lowerC c :: snakeGo r else snakeGo (c :: r)
  | [] => []

/-- main.go:56-58: the first "SQL" is at the beginning, if the text begins with it. -/
def lowerSQL : Str → Str
  | 'S' :: 'Q' :: 'L' :: r => 's' :: 'q' :: 'l' :: r
  | s => s

/-- main.go:55-62, `toPrivate`; `none` is the index panic for the empty name. -/
def toPrivate (s : Str) : Option Str :=
  match lowerSQL s with
  | [] => none
  | c :: r => some (lowerC c :: r)

/-- main.go:65-70, the flags. -/
structure Flags where
  markerTypeName : Str
  outputName : Str
  embedded : Str
  package : Str

/-- `strings.Split(s, ",")`. -/
def splitComma : Str → List Str
  | [] => [[]]
  | c :: r =>
    match splitComma r with
    | [] => [[c]]
    | w :: ws => if c = ',' then [] :: w :: ws else (c :: w) :: ws

/-- main.go:93-96. -/
def embedded (f : Flags) : List Str := if f.embedded = [] then [] else splitComma f.embedded

/-- main.go:98-108, the text before formatting. -/
def source (f : Flags) (impl : Str) : Str :=
  str% "package " ++ f.package ++ str% "\n" ++
  str% "// Code generated by genmark. DO NOT EDIT.\n\n" ++
  str% "type " ++ f.markerTypeName ++ str% " interface {\n" ++
  impl ++ str% "Marker()\n" ++
  ((embedded f).flatMap fun e => e ++ str% "\n") ++
  str% "}\n" ++
  str% "type " ++ impl ++ str% " struct {}\n" ++
  str% "func (" ++ impl ++ str% ") " ++ impl ++ str% "Marker() {}\n"

inductive Out where
  /-- `FlagError` -/
  | flagError
  /-- `WriteFile(name, format.Source(text))` -/
  | file (name text : Str)
  | panic
  deriving DecidableEq

/-- main.go:64-120, `run`. -/
def run (f : Flags) : Out :=
  match f.markerTypeName with
  | [] => .flagError
  | c :: _ =>
    if isUpperA c then
      match toPrivate f.markerTypeName with
      | none => .panic
      | some impl =>
        .file ((if f.outputName = [] then toSnake f.markerTypeName else f.outputName) ++ str% "_gen.go")
          (source f impl)
    else .flagError

end Verif.Genmark
