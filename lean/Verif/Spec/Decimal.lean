import Verif.Model.Base
/-
The number that a string of decimal digits denotes.
-/
namespace Verif.Spec

/-- The digit characters and their values. -/
def digitValue : Char → Option Nat
  | '0' => some 0 | '1' => some 1 | '2' => some 2 | '3' => some 3 | '4' => some 4
  | '5' => some 5 | '6' => some 6 | '7' => some 7 | '8' => some 8 | '9' => some 9
  | _ => none

/-- Positional notation: the first of `n + 1` digits counts `10 ^ n` times its value. -/
inductive Denotes : Str → Nat → Prop
  | single (c : Char) (v : Nat) : digitValue c = some v → Denotes [c] v
  | cons (c : Char) (v : Nat) (s : Str) (n : Nat) : digitValue c = some v → Denotes s n →
      Denotes (c :: s) (v * 10 ^ s.length + n)

end Verif.Spec
