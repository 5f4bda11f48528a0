import Verif.Model.Writer
/-
What can be observed of a run of `WriteTo`: the sequence of calls that reach the writer.
-/
namespace Verif

/-- One call of `Write` or `WriteString`: the text handed over, the count and the error returned. -/
structure Call (ε : Type) where
  text : Str
  n : Int
  err : Option ε

/-- The writer `w` with a log of all calls made on it. -/
def IOWriter.traced (w : IOWriter σ ε) : IOWriter (σ × List (Call ε)) ε where
  write s b :=
    let r := w.write s.1 b
    (r.1, r.2.1, r.2.2, s.2 ++ [⟨b, r.1, r.2.1⟩])
  writeString := w.writeString.map fun ws s b =>
    let r := ws s.1 b
    (r.1, r.2.1, r.2.2, s.2 ++ [⟨b, r.1, r.2.1⟩])

/-- The contract of `io.Writer` and `io.StringWriter`: `0 <= n <= len(p)`, and a non-nil error if
`n < len(p)`. -/
structure IOWriter.Contract (w : IOWriter σ ε) : Prop where
  write : ∀ s b, 0 ≤ (w.write s b).1 ∧ (w.write s b).1 ≤ (byteLen b : Nat) ∧
    ((w.write s b).1 < (byteLen b : Nat) → (w.write s b).2.1 ≠ none)
  writeString : ∀ ws, w.writeString = some ws → ∀ s b, 0 ≤ (ws s b).1 ∧ (ws s b).1 ≤ (byteLen b : Nat) ∧
    ((ws s b).1 < (byteLen b : Nat) → (ws s b).2.1 ≠ none)

/-- The bytes the writer has accepted: of each call the first `n` bytes. -/
def accepted (log : List (Call ε)) : List UInt8 :=
  log.flatMap fun c => (utf8 c.text).take c.n.toNat

end Verif
