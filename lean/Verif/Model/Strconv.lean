/-
The two functions of the standard library that the code calls for floating point numbers: `strconv.ParseFloat(s, 64)`
(parser.go:2615) and `strconv.AppendFloat(_, f, 'f', -1, 64)` (sqlast/value.go:78).

Most of the model has them as a parameter `FloatFns`.  Here is one value of it, `goFloats`, that computes what their
documentation says they return.  It is the result that is modelled, not the algorithms of the library (Eisel-Lemire,
Ryu), and all arithmetic is exact arithmetic on natural numbers.
-/
import Verif.Model.Writer
import Verif.Model.Dialect
import Verif.Model.Ast

namespace Verif

/-! ### IEEE 754 binary64 -/

/-- All finite numbers are multiples of `2 ^ -1074`. -/
@[irreducible] def fscale : Nat := 1074

/-- The value of a finite number without sign, given by its lower 63 bits, in units of `2 ^ -1074`: the upper 11 bits are
the exponent, the lower 52 the fraction, and the numbers with exponent 0 are the subnormal ones. -/
def f64Units (b : Nat) : Nat :=
  if b < 2 ^ 52 then b else (2 ^ 52 + b % 2 ^ 52) * 2 ^ (b / 2 ^ 52 - 1)

/-- The bit patterns of the finite numbers without sign are those below this one, that of `+Inf`. -/
def f64Inf : Nat := 2047 * 2 ^ 52

/-! ### strconv.ParseFloat -/

/-- `n / 10 ^ f` is less than the middle of the numbers `b` and `b + 1`, or is the middle and `b` is even: the number is not rounded to anything above `b`. -/
def belowMid (n f b : Nat) : Bool :=
  let x := 2 * n * 2 ^ fscale
  let y := (f64Units b + f64Units (b + 1)) * 10 ^ f
  x < y || (x == y && b % 2 == 0)

/-- The least of the numbers from `b` to `b + 2 ^ k - 1` with the property `p`, or `b + 2 ^ k`; by bisection. -/
def bisect (p : Nat → Bool) : Nat → Nat → Nat
  | 0, b => if p b then b else b + 1
  | k + 1, b => if p (b + 2 ^ k - 1) then bisect p k b else bisect p k (b + 2 ^ k)

/-- `n / 10 ^ f` rounded to the nearest number, ties to even; `none` if it is out of range. -/
def roundF64 (n f : Nat) : Option Nat :=
  let b := bisect (belowMid n f) 63 0
  if b < f64Inf then some b else none

/-- The number written by decimal digits. -/
def decimal (s : Str) : Nat := s.foldl (fun n c => 10 * n + (c.toNat - 48)) 0

/-- strconv `ParseFloat(s, 64)`, for a text that begins with a digit and consists of digits and `.`: the tokenizer makes
no other number tokens (tokenizer.go:286-304).  On other texts (signs, exponents, `.5`, `inf`) it is not modelled. -/
def parseFloat (s : Str) : Option F64 :=
  let i := s.takeWhile isDigit
  if i = [] then none
  else match s.dropWhile isDigit with
    | [] => (roundF64 (decimal i) 0).map (BitVec.ofNat 64)
    | c :: f =>
      if c = '.' ∧ f.all isDigit then (roundF64 (decimal (i ++ f)) f.length).map (BitVec.ofNat 64) else none

/-! ### strconv.AppendFloat with the format 'f' and the precision -1 -/

/-- The exact value of a finite number in units of `10 ^ -1074`. -/
def f64Exact (b : Nat) : Nat := f64Units b * 5 ^ fscale

/-- The number `c / 10 ^ 1074` is read as `b`. -/
def readsAs (b c : Nat) : Bool := belowMid c fscale b && (b == 0 || !belowMid c fscale (b - 1))

/-- The multiple of `u` next to `x` that is `ok`, below or above; if both are, the nearest one. -/
def roundAt (ok : Nat → Bool) (x u : Nat) : Option Nat :=
  let q := x / u
  let r := x % u
  if ok (q * u) then
    if ok ((q + 1) * u) && (u < 2 * r || u == 2 * r && q % 2 == 1) then some (q + 1) else some q
  else if ok ((q + 1) * u) then some (q + 1) else none

/-- The digits of `x`: `(c, j)` stands for `c * 10 ^ j`.  The last argument counts down the positions: the last digit is at
the highest position at which the number rounded down or up is `ok`. -/
def shortest (ok : Nat → Bool) (x : Nat) : Nat → Nat × Nat
  | 0 => (x, 0)
  | j + 1 => match roundAt ok x (10 ^ (j + 1)) with
    | some c => (c, j + 1)
    | none => shortest ok x j

/-- The last `k` decimal digits of a number. -/
def lastDigits : Nat → Nat → Str
  | 0, _ => []
  | k + 1, n => lastDigits k (n / 10) ++ [Char.ofNat (48 + n % 10)]

/-- `c * 10 ^ j` in units of `10 ^ -1074`, as with the format `f`. -/
def fixed (c j : Nat) : Str :=
  if fscale ≤ j then natStr (c * 10 ^ (j - fscale))
  else natStr (c / 10 ^ (fscale - j)) ++ '.' :: lastDigits (fscale - j) c

/-- The digits of a number that is not negative.  The largest number is below `10 ^ 309`. -/
def digitsOf (b : Nat) : Nat × Nat := shortest (readsAs b) (f64Exact b) (fscale + 309)

/-- The text for a number that is not negative. -/
def formatBits (b : Nat) : Str := fixed (digitsOf b).1 (digitsOf b).2

/-- strconv `AppendFloat(_, v, 'f', -1, 64)`. -/
def formatFloat (v : F64) : Str :=
  let b := v.toNat % 2 ^ 63
  let neg : Bool := 2 ^ 63 ≤ v.toNat
  if f64Inf < b then str% "NaN"
  else if b = f64Inf then (if neg then str% "-Inf" else str% "+Inf")
  else if neg then '-' :: formatBits b else formatBits b

/-- What the Go program calls. -/
def goFloats : FloatFns := ⟨parseFloat, formatFloat⟩

end Verif
