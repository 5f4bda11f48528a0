import Verif.Model.Base
/-
The data of a COPY statement, in the text format of PostgreSQL: fields are separated by tabs, and `\N` is NULL.
-/
namespace Verif.Spec

/-- The parts of a line between the tabs. -/
def fields : Str → List Str
  | [] => [[]]
  | c :: s =>
    if c = '\t' then [] :: fields s
    else
      match fields s with
      | f :: fs => (c :: f) :: fs
      | [] => [[c]]

/-- The values of a line. -/
def copyData (line : Str) : List (Option Str) :=
  (fields line).map fun f => if f = ['\\', 'N'] then none else some f

/-- A value that needs no escape: no tab, no line break, not `\N`. -/
def CopyPlain : Option Str → Prop
  | none => True
  | some v => '\t' ∉ v ∧ '\n' ∉ v ∧ v ≠ ['\\', 'N']

end Verif.Spec
