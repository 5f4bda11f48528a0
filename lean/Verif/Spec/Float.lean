/-
Specification of reading and writing floating point numbers.

The finite binary64 numbers without sign and the decimal numbers are compared as fractions: the number with exponent `e`
and fraction `m` is `ieee e m / 2 ^ 1074`, and a decimal is `n / 10 ^ f`.
-/
namespace Verif.Spec

/-- IEEE 754-2019, 3.4: the value with the biased exponent `e` (0 for the subnormal numbers) and the trailing significand
`m`, in units of `2 ^ -1074`. -/
def ieee (e m : Nat) : Nat := if e = 0 then m else (2 ^ 52 + m) * 2 ^ (e - 1)

/-- How far two numbers are apart. -/
def gap (a b : Nat) : Nat := (a - b) + (b - a)

/-- How far `n / 10 ^ f` is from the number with exponent `e` and significand `m`, in units of `1 / (10 ^ f * 2 ^ 1074)`. -/
def off (n f e m : Nat) : Nat := gap (n * 2 ^ 1074) (ieee e m * 10 ^ f)

/-- The number with exponent `e` and significand `m` is the one nearest to `n / 10 ^ f`, and of two that are equally near
it is the one whose last bit is 0. -/
structure Nearest (n f e m : Nat) : Prop where
  expo : e < 2047
  frac : m < 2 ^ 52
  near : ∀ e' m', e' < 2047 → m' < 2 ^ 52 → off n f e m ≤ off n f e' m'
  even : ∀ e' m', e' < 2047 → m' < 2 ^ 52 → off n f e m = off n f e' m' → (e', m') ≠ (e, m) → m % 2 = 0

/-- `s` is a decimal number: digits, at least one, and if there is a `.` the digits after it, maybe none. `n / 10 ^ f` is its value. -/
inductive DecimalText : List Char → Nat → Nat → Prop where
  | digit (c : Char) (h : '0' ≤ c ∧ c ≤ '9') : DecimalText [c] (c.toNat - 48) 0
  | more {s : List Char} {n : Nat} (c : Char) (h : '0' ≤ c ∧ c ≤ '9') : DecimalText s n 0 → '.' ∉ s → DecimalText (s ++ [c]) (10 * n + (c.toNat - 48)) 0
  | point {s : List Char} {n : Nat} : DecimalText s n 0 → '.' ∉ s → DecimalText (s ++ ['.']) n 0
  | frac {s : List Char} {n f : Nat} (c : Char) (h : '0' ≤ c ∧ c ≤ '9') : DecimalText s n f → '.' ∈ s →
      DecimalText (s ++ [c]) (10 * n + (c.toNat - 48)) (f + 1)

end Verif.Spec
