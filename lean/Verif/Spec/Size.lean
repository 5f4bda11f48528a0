import Verif.Model.Token
/-
The size of texts and tokens, for C76.
-/
namespace Verif.Spec
open Verif

/-- A way to measure texts by their characters, of which those of ASCII count 1. -/
structure Measure where
  of : Char → Nat
  pos : ∀ c, 1 ≤ of c
  ascii : ∀ c : Char, c.toNat < 128 → of c = 1

def Measure.size (μ : Measure) (s : Str) : Nat := (s.map μ.of).sum

/-- The number of runes. -/
def runes : Measure := ⟨fun _ => 1, fun _ => Nat.le_refl _, fun _ _ => rfl⟩

/-- The number of bytes in UTF-8. -/
def bytes : Measure := ⟨Char.utf8Size, Char.utf8Size_pos, fun c h => by
  rw [Char.utf8Size_eq_one_iff, UInt32.le_iff_toNat_le]
  exact Nat.le_of_lt_succ h⟩

/-- The size of a punctuation token. -/
def symSize : Sym → Nat
  | .Neq | .LtEq | .GtEq | .DoubleColon => 2
  | _ => 1

/-- What a token takes in the text at least. -/
def tokSize (μ : Measure) : Tok → Nat
  | .word w => max 1 (max (μ.size w.value) (μ.size w.string))
  | .number s => max 1 (μ.size s)
  | .single s => μ.size s + 2
  | .national s => μ.size s + 3
  | .sym k _ => symSize k
  | _ => 0

def toksSize (μ : Measure) (ts : List Token) : Nat := (ts.map fun t => tokSize μ t.tok).sum

end Verif.Spec
