import Verif.Model.Utf8
/-
UTF-8, by way of the encoder of Lean's standard library, and what a rune source is to answer; the model contributes
the types of readers only.
-/
namespace Verif.Spec

/-- The UTF-8 encoding of a text. -/
def utf8 (s : Str) : List UInt8 := s.flatMap String.utf8EncodeChar

/-- The bytes are the encoding of a text. -/
def ValidUtf8 (b : List UInt8) : Prop := ∃ s, b = utf8 s

/-- The byte order mark. -/
def bom : Char := '\uFEFF'

/-- The text without a byte order mark at the beginning. -/
def dropBom : Str → Str
  | [] => []
  | c :: s => if c = bom then s else c :: s

/-- Reading bytes as UTF-8: an encoded character is read as the character, and a byte with which no encoded character
begins is read as U+FFFD. -/
inductive Decodes : List UInt8 → Str → Prop
  | nil : Decodes [] []
  | rune (c : Char) {b : List UInt8} {s : Str} : Decodes b s → Decodes (String.utf8EncodeChar c ++ b) (c :: s)
  | bad (x : UInt8) {b : List UInt8} {s : Str} : (∀ c r, x :: b ≠ String.utf8EncodeChar c ++ r) → Decodes b s →
      Decodes (x :: b) ('\uFFFD' :: s)

/-- The bytes do not end within a character: no part at their end is the beginning of an encoded character. -/
def Whole (b : List UInt8) : Prop :=
  ∀ a p q c, b = a ++ p → p ≠ [] → q ≠ [] → p ++ q ≠ String.utf8EncodeChar c

/-- All bytes that the reads of a reader return. -/
def bytesOf (r : Reader) : List UInt8 := r.flatMap ReadRes.data

/-- The reader keeps to the contract of `io.Reader` and does not fail: after a read with an error (which is then
`io.EOF`) there are no further bytes. -/
inductive Clean : Reader → Prop
  | nil : Clean []
  | more (bs : List UInt8) {r : Reader} : Clean r → Clean (⟨bs, false⟩ :: r)
  | eof (bs : List UInt8) {r : Reader} : (∀ x ∈ r, x.data = []) → Clean (⟨bs, true⟩ :: r)

/-- The two calls that the tokenizer makes. -/
inductive Call where
  | peek
  | next

/-- The answers to a sequence of calls when the text is `l`: both answer with the first character, if any, and `next`
removes it. -/
def answers : List Call → Str → List (Option Char)
  | [], _ => []
  | .peek :: cs, l => l.head? :: answers cs l
  | .next :: cs, l => l.head? :: answers cs l.tail

end Verif.Spec

namespace Verif
open Spec

/-- The answers of the scanner to a sequence of calls. -/
def Scanner.run (s : Scanner) : List Call → List (Option Char)
  | [] => []
  | .peek :: cs => s.peek.1 :: s.peek.2.run cs
  | .next :: cs => s.next.1 :: s.next.2.run cs

end Verif
