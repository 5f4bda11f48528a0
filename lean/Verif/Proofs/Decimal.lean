import Verif.Spec.Decimal
import Verif.Proofs.Exec
/-
The value of digit strings: the model's left-to-right computation gives the positional value.
-/
set_option linter.unusedSimpArgs false
namespace Verif
open Spec

def digitStep (acc : Option Nat) (c : Char) : Option Nat :=
  acc.bind fun n => if isDigit c then some (n * 10 + (c.toNat - '0'.toNat)) else none

theorem digitsVal_cons (c : Char) (s : Str) : digitsVal (c :: s) = (c :: s).foldl digitStep (some 0) := rfl

theorem digitValue_eq {c : Char} {v : Nat} (h : digitValue c = some v) :
    isDigit c = true ∧ c.toNat - '0'.toNat = v := by
  unfold digitValue at h
  split at h <;> cases h <;> decide

theorem digitValue_some {c : Char} (h : isDigit c = true) : ∃ v, digitValue c = some v := by
  simp only [isDigit, Bool.and_eq_true, decide_eq_true_eq, Char.le_def, UInt32.le_iff_toNat_le] at h
  have h1 : 48 ≤ c.toNat := h.1
  have h2 : c.toNat ≤ 57 := h.2
  have hc : c = Char.ofNat c.toNat := (Char.ofNat_toNat c).symm
  generalize c.toNat = n at *
  subst hc
  have : n = 48 ∨ n = 49 ∨ n = 50 ∨ n = 51 ∨ n = 52 ∨ n = 53 ∨ n = 54 ∨ n = 55 ∨ n = 56 ∨ n = 57 := by omega
  rcases this with rfl | rfl | rfl | rfl | rfl | rfl | rfl | rfl | rfl | rfl <;> exact ⟨_, rfl⟩

theorem foldl_denotes {s : Str} {n : Nat} (h : Denotes s n) : ∀ k : Nat,
    s.foldl digitStep (some k) = some (k * 10 ^ s.length + n) := by
  induction h with
  | single c v hc =>
    intro k
    obtain ⟨h1, h2⟩ := digitValue_eq hc
    simp [digitStep, h1]; exact h2
  | cons c v s n hc _ ih =>
    intro k
    obtain ⟨h1, h2⟩ := digitValue_eq hc
    have : digitStep (some k) c = some (k * 10 + v) := by simp [digitStep, h1]; exact h2
    rw [List.foldl_cons, this, ih]
    simp only [List.length_cons, Nat.pow_succ, Nat.add_mul, Nat.mul_assoc, Nat.add_assoc]
    congr 2
    rw [Nat.mul_comm 10]

theorem digitsVal_denotes {s : Str} {n : Nat} (h : Denotes s n) : digitsVal s = some n := by
  have := foldl_denotes h 0
  cases s with
  | nil => cases h
  | cons c s => rw [digitsVal_cons, this]; simp

theorem denotes_exists {s : Str} (hs : s ≠ []) (h : ∀ c ∈ s, isDigit c = true) : ∃ n, Denotes s n := by
  induction s with
  | nil => exact absurd rfl hs
  | cons c s ih =>
    obtain ⟨v, hv⟩ := digitValue_some (h c (by simp))
    cases s with
    | nil => exact ⟨v, .single c v hv⟩
    | cons d s =>
      obtain ⟨n, hn⟩ := ih (by simp) (fun x hx => h x (by simp [hx]))
      exact ⟨_, .cons c v _ n hv hn⟩

theorem denotes_nodot {s : Str} {n : Nat} (h : Denotes s n) : '.' ∉ s := by
  induction h with
  | single c v hc => intro h; simp at h; subst h; cases hc
  | cons c v s n hc _ ih => intro h; simp at h; rcases h with rfl | h; cases hc; exact ih h

end Verif
