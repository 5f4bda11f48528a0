import Verif.Model.Base
/-
The characters that the printer writes on its own.
-/
namespace Verif.Spec
open Verif

/-- Letters except for `Z`, `j`, `k` and `q`, digits, the blank and the end of a line, and `!` `(` `)` `,` `=`. -/
def own (c : Char) : Bool :=
  let n := c.toNat
  65 ≤ n && n ≤ 89 || 97 ≤ n && n ≤ 122 && n != 106 && n != 107 && n != 113 || 48 ≤ n && n ≤ 57 || n == 10 || n == 32 ||
    n == 33 || n == 40 || n == 41 || n == 44 || n == 61

end Verif.Spec
