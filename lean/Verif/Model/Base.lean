/-
Basic vocabulary shared by all model files.
-/
namespace Verif

/-- A Go `string`, as the list of its runes (see DESIGN.md, "Text"). -/
abbrev Str := List Char

/-- `str% "abc"` is the literal `['a', 'b', 'c']`, expanded at elaboration time. -/
macro "str% " s:str : term => do
  let cs := s.getString.toList.toArray.map fun c => Lean.Syntax.mkCharLit c
  `(([$cs,*] : Str))

/-- Go's `len(s)`: the number of bytes of the UTF-8 encoding. -/
def byteLen (s : Str) : Nat := (s.map fun c => c.utf8Size).sum

/-- `strings.ToUpper` on one rune.  ASCII letters, plus the only two non-ASCII runes whose upper case
is ASCII (U+0131 dotless i, U+017F long s).  All other non-ASCII runes are left unchanged
(simplification: it only affects the `Keyword` text of quoted non-ASCII words, never a comparison
with a keyword, because keywords are ASCII). -/
def upperC (c : Char) : Char :=
  if 'a' ≤ c ∧ c ≤ 'z' then Char.ofNat (c.toNat - 32)
  else if c = '\u0131' then 'I'
  else if c = '\u017f' then 'S'
  else c

/-- `strings.ToLower` on an ASCII rune (used on keywords only, tokenizer.go:49). -/
def lowerC (c : Char) : Char :=
  if 'A' ≤ c ∧ c ≤ 'Z' then Char.ofNat (c.toNat + 32) else c

def upper (s : Str) : Str := s.map upperC
def lower (s : Str) : Str := s.map lowerC

/-- Canonical representative of a rune's class under `strings.EqualFold`, exact for classes that
contain an ASCII rune: ASCII letters fold to lower case, U+017F folds to `s`, U+212A (Kelvin
sign) folds to `k`. -/
def foldC (c : Char) : Char :=
  if 'A' ≤ c ∧ c ≤ 'Z' then Char.ofNat (c.toNat + 32)
  else if c = '\u017f' then 's'
  else if c = '\u212a' then 'k'
  else c

/-- `strings.EqualFold`. -/
def equalFold (a b : Str) : Bool := a.map foldC == b.map foldC

end Verif
