/-
Helper lemmas about the model of `strconv`: the values of the floating point numbers are increasing, rounding is monotone,
and what is written is read back.
-/
import Verif.Model.Strconv
import Verif.Spec.Float

namespace Verif
open Spec

/-! ### The values -/

theorem two_pow_succ (x : Nat) : 2 ^ (x + 1) = 2 * 2 ^ x := by rw [Nat.pow_succ, Nat.mul_comm]

theorem units_lt (b : Nat) : f64Units b < f64Units (b + 1) := by
  unfold f64Units
  have hm := Nat.mod_lt b (show 2 ^ 52 > 0 by decide)
  have hd := Nat.div_add_mod b (2 ^ 52)
  by_cases h1 : b + 1 < 2 ^ 52
  · rw [if_pos h1, if_pos (by omega)]; omega
  · rw [if_neg h1]
    by_cases h2 : b < 2 ^ 52
    · rw [if_pos h2]
      have : b = 2 ^ 52 - 1 := by omega
      subst this
      decide
    · rw [if_neg h2]
      have hq : 1 ≤ b / 2 ^ 52 := (Nat.le_div_iff_mul_le (by decide)).2 (by omega)
      by_cases h3 : b % 2 ^ 52 + 1 < 2 ^ 52
      · have e1 : (b + 1) / 2 ^ 52 = b / 2 ^ 52 := by omega
        have e2 : (b + 1) % 2 ^ 52 = b % 2 ^ 52 + 1 := by omega
        rw [e1, e2]
        exact Nat.mul_lt_mul_of_pos_right (by omega) (Nat.pow_pos (by decide))
      · have e1 : (b + 1) / 2 ^ 52 = b / 2 ^ 52 + 1 := by omega
        have e2 : (b + 1) % 2 ^ 52 = 0 := by omega
        rw [e1, e2]
        have e3 : b / 2 ^ 52 + 1 - 1 = (b / 2 ^ 52 - 1) + 1 := by omega
        rw [e3, two_pow_succ (b / 2 ^ 52 - 1), Nat.add_zero, ← Nat.mul_assoc]
        exact Nat.mul_lt_mul_of_pos_right (by omega) (Nat.pow_pos (by decide))

theorem units_mono {a b : Nat} (h : a ≤ b) : f64Units a ≤ f64Units b := by
  induction h with
  | refl => exact Nat.le_refl _
  | step _ ih => exact Nat.le_trans ih (Nat.le_of_lt (units_lt _))

theorem units_strict {a b : Nat} (h : a < b) : f64Units a < f64Units b :=
  Nat.lt_of_lt_of_le (units_lt a) (units_mono h)

theorem units_inj {a b : Nat} (h : f64Units a = f64Units b) : a = b := by
  rcases Nat.lt_trichotomy a b with h1 | h1 | h1
  · have := units_strict h1; omega
  · exact h1
  · have := units_strict h1; omega

theorem units_zero : f64Units 0 = 0 := by decide

/-- The next number is at most twice as large. -/
theorem units_double {b : Nat} (h : 1 ≤ b) : f64Units (b + 1) ≤ 2 * f64Units b := by
  unfold f64Units
  have hm := Nat.mod_lt b (show 2 ^ 52 > 0 by decide)
  have hd := Nat.div_add_mod b (2 ^ 52)
  by_cases h1 : b + 1 < 2 ^ 52
  · rw [if_pos h1, if_pos (by omega)]; omega
  · rw [if_neg h1]
    by_cases h2 : b < 2 ^ 52
    · rw [if_pos h2]
      have : b = 2 ^ 52 - 1 := by omega
      subst this
      decide
    · rw [if_neg h2]
      have hq : 1 ≤ b / 2 ^ 52 := (Nat.le_div_iff_mul_le (by decide)).2 (by omega)
      by_cases h3 : b % 2 ^ 52 + 1 < 2 ^ 52
      · have e1 : (b + 1) / 2 ^ 52 = b / 2 ^ 52 := by omega
        have e2 : (b + 1) % 2 ^ 52 = b % 2 ^ 52 + 1 := by omega
        rw [e1, e2, ← Nat.mul_assoc]
        exact Nat.mul_le_mul_right _ (by omega)
      · have e1 : (b + 1) / 2 ^ 52 = b / 2 ^ 52 + 1 := by omega
        have e2 : (b + 1) % 2 ^ 52 = 0 := by omega
        rw [e1, e2]
        have e3 : b / 2 ^ 52 + 1 - 1 = (b / 2 ^ 52 - 1) + 1 := by omega
        rw [e3, two_pow_succ (b / 2 ^ 52 - 1), Nat.add_zero, ← Nat.mul_assoc, ← Nat.mul_assoc]
        exact Nat.mul_le_mul_right _ (by omega)

/-! ### Rounding -/

theorem belowMid_iff {n f b : Nat} : belowMid n f b = true ↔
    2 * n * 2 ^ fscale < (f64Units b + f64Units (b + 1)) * 10 ^ f ∨
    2 * n * 2 ^ fscale = (f64Units b + f64Units (b + 1)) * 10 ^ f ∧ b % 2 = 0 := by
  simp only [belowMid, Bool.or_eq_true, Bool.and_eq_true, decide_eq_true_eq, beq_iff_eq]

theorem belowMid_mono {n f a b : Nat} (h : a ≤ b) (ha : belowMid n f a = true) : belowMid n f b = true := by
  rcases Nat.eq_or_lt_of_le h with rfl | h
  · exact ha
  · rw [belowMid_iff] at *
    have h1 := units_strict h
    have h2 := units_mono (a := a + 1) (b := b + 1) (by omega)
    have : (f64Units a + f64Units (a + 1)) * 10 ^ f < (f64Units b + f64Units (b + 1)) * 10 ^ f :=
      Nat.mul_lt_mul_of_pos_right (by omega) (Nat.pow_pos (by decide))
    left
    rcases ha with ha | ⟨ha, -⟩ <;> omega

/-- Writing more zeros after the point changes nothing. -/
theorem belowMid_scale (n f k b : Nat) : belowMid (n * 10 ^ k) (f + k) b = belowMid n f b := by
  have hp : 0 < 10 ^ k := Nat.pow_pos (by decide)
  have e1 : 2 * (n * 10 ^ k) * 2 ^ fscale = 2 * n * 2 ^ fscale * 10 ^ k := by
    generalize 2 ^ fscale = x
    generalize 10 ^ k = y
    simp only [Nat.mul_assoc, Nat.mul_comm y x]
  have e2 : (f64Units b + f64Units (b + 1)) * 10 ^ (f + k) = (f64Units b + f64Units (b + 1)) * 10 ^ f * 10 ^ k := by
    rw [Nat.pow_add, Nat.mul_assoc]
  have := @belowMid_iff (n * 10 ^ k) (f + k) b
  rw [e1, e2, Nat.mul_lt_mul_right hp, Nat.mul_left_inj (Nat.pos_iff_ne_zero.1 hp), ← belowMid_iff] at this
  exact Bool.eq_iff_iff.2 this

/-- A smaller number is rounded to a smaller one. -/
theorem belowMid_anti {m n f b : Nat} (h : m ≤ n) (hn : belowMid n f b = true) : belowMid m f b = true := by
  rcases Nat.eq_or_lt_of_le h with rfl | h
  · exact hn
  · rw [belowMid_iff] at *
    have : 2 * m * 2 ^ fscale < 2 * n * 2 ^ fscale := Nat.mul_lt_mul_of_pos_right (by omega) (Nat.pow_pos (by decide))
    left
    rcases hn with hn | ⟨hn, -⟩ <;> omega

theorem bisect_spec {p : Nat → Bool} (hp : ∀ a b, a ≤ b → p a = true → p b = true) : ∀ k b,
    b ≤ bisect p k b ∧ bisect p k b ≤ b + 2 ^ k ∧ (∀ a, b ≤ a → a < bisect p k b → p a = false) ∧
      (bisect p k b < b + 2 ^ k → p (bisect p k b) = true)
  | 0, b => by
    unfold bisect
    split
    · rename_i h
      exact ⟨by omega, by omega, fun a h1 h2 => by omega, fun _ => h⟩
    · rename_i h
      exact ⟨by omega, by omega, fun a h1 h2 => by rw [show a = b by omega]; simpa using h, fun h => by omega⟩
  | k + 1, b => by
    have hk : 0 < 2 ^ k := Nat.pow_pos (by decide)
    have hs : 2 ^ (k + 1) = 2 ^ k + 2 ^ k := by rw [Nat.pow_succ]; omega
    unfold bisect
    split
    · rename_i h
      obtain ⟨h1, h2, h3, h4⟩ := bisect_spec hp k b
      refine ⟨h1, by omega, h3, fun _ => ?_⟩
      by_cases h5 : bisect p k b < b + 2 ^ k
      · exact h4 h5
      · exact hp _ _ (by omega) h
    · rename_i h
      obtain ⟨h1, h2, h3, h4⟩ := bisect_spec hp k (b + 2 ^ k)
      refine ⟨by omega, by omega, fun a h5 h6 => ?_, fun h5 => h4 (by omega)⟩
      by_cases h7 : b + 2 ^ k ≤ a
      · exact h3 a h7 h6
      · cases h8 : p a with
        | false => rfl
        | true => exact absurd (hp a _ (by omega) h8) h

/-- `n / 10 ^ f` is rounded to `b`. -/
def RoundsTo (n f b : Nat) : Prop := belowMid n f b = true ∧ ∀ a, a < b → belowMid n f a = false

theorem RoundsTo.unique {n f a b : Nat} (ha : RoundsTo n f a) (hb : RoundsTo n f b) : a = b := by
  rcases Nat.lt_trichotomy a b with h | h | h
  · have := hb.2 a h; rw [ha.1] at this; cases this
  · exact h
  · have := ha.2 b h; rw [hb.1] at this; cases this

theorem roundsTo_scale {n f b : Nat} (k : Nat) : RoundsTo (n * 10 ^ k) (f + k) b ↔ RoundsTo n f b := by
  simp only [RoundsTo, belowMid_scale]

/-- Between two numbers that are rounded to `b` every number is. -/
theorem RoundsTo.between {l m n f b : Nat} (hl : RoundsTo l f b) (hn : RoundsTo n f b) (h1 : l ≤ m) (h2 : m ≤ n) :
    RoundsTo m f b := by
  refine ⟨belowMid_anti h2 hn.1, fun a ha => ?_⟩
  cases h : belowMid m f a with
  | false => rfl
  | true => have := belowMid_anti h1 h; rw [hl.2 a ha] at this; cases this

theorem inf_lt : f64Inf < 0 + 2 ^ 63 := by decide

theorem roundF64_iff {n f b : Nat} : roundF64 n f = some b ↔ b < f64Inf ∧ RoundsTo n f b := by
  obtain ⟨-, h2, h3, h4⟩ := bisect_spec (p := belowMid n f) (fun a b => belowMid_mono) 63 0
  have := inf_lt
  simp only [roundF64]
  generalize bisect (belowMid n f) 63 0 = r at *
  constructor
  · intro h
    split at h
    · rename_i hb
      cases h
      exact ⟨hb, h4 (by omega), fun a ha => h3 a (by omega) ha⟩
    · cases h
  · rintro ⟨hb, hr⟩
    have : r = b := by
      rcases Nat.lt_trichotomy r b with h | h | h
      · have h5 := h4 (by omega); rw [hr.2 _ h] at h5; cases h5
      · exact h
      · have h5 := h3 b (by omega) h; rw [hr.1] at h5; cases h5
    rw [this, if_pos hb]

theorem roundF64_none {n f : Nat} : roundF64 n f = none ↔ belowMid n f (f64Inf - 1) = false := by
  obtain ⟨-, h2, h3, h4⟩ := bisect_spec (p := belowMid n f) (fun a b => belowMid_mono) 63 0
  have := inf_lt
  simp only [roundF64]
  generalize bisect (belowMid n f) 63 0 = r at *
  split
  · rename_i h
    simp only [reduceCtorEq, false_iff, Bool.not_eq_false]
    exact belowMid_mono (by omega) (h4 (by omega))
  · rename_i h
    have : 1 ≤ f64Inf := by decide
    exact iff_of_true rfl (h3 _ (by omega) (by omega))

theorem readsAs_iff {b c : Nat} : readsAs b c = true ↔ RoundsTo c fscale b := by
  simp only [readsAs, Bool.and_eq_true, Bool.or_eq_true, beq_iff_eq, Bool.not_eq_true']
  constructor
  · rintro ⟨h1, h2⟩
    refine ⟨h1, fun a ha => ?_⟩
    rcases h2 with h2 | h2
    · omega
    · cases h : belowMid c fscale a with
      | false => rfl
      | true => have := belowMid_mono (b := b - 1) (by omega) h; rw [h2] at this; cases this
  · rintro ⟨h1, h2⟩
    refine ⟨h1, ?_⟩
    by_cases hb : b = 0
    · exact .inl hb
    · exact .inr (h2 _ (by omega))

theorem pow10_eq (f : Nat) : 10 ^ f = 5 ^ f * 2 ^ f := by rw [← Nat.mul_pow]

/-- A number is rounded to the number of its own value. -/
theorem roundsTo_self {n f b : Nat} (h : n * 2 ^ fscale = f64Units b * 10 ^ f) : RoundsTo n f b := by
  have hp : 0 < 10 ^ f := Nat.pow_pos (by decide)
  have e : 2 * n * 2 ^ fscale = (f64Units b + f64Units b) * 10 ^ f := by
    rw [Nat.mul_assoc, h, Nat.add_mul]; omega
  constructor
  · rw [belowMid_iff]
    left
    rw [e]
    have := units_lt b
    exact Nat.mul_lt_mul_of_pos_right (by omega) hp
  · intro a ha
    cases hx : belowMid n f a with
    | false => rfl
    | true =>
      rw [belowMid_iff] at hx
      rw [e] at hx
      have h1 := units_strict ha
      have h2 := units_mono (show a + 1 ≤ b by omega)
      have : (f64Units a + f64Units (a + 1)) * 10 ^ f < (f64Units b + f64Units b) * 10 ^ f :=
        Nat.mul_lt_mul_of_pos_right (by omega) hp
      omega

theorem roundsTo_exact (b : Nat) : RoundsTo (f64Exact b) fscale b := by
  apply roundsTo_self
  rw [f64Exact, Nat.mul_assoc, ← pow10_eq]

/-! ### The shortest digits -/

/-- A set of numbers without gaps. -/
def Convex (ok : Nat → Bool) : Prop := ∀ l m n, ok l = true → ok n = true → l ≤ m → m ≤ n → ok m = true

/-- The digits are where the search says. -/
structure Found (ok : Nat → Bool) (x c j p : Nat) : Prop where
  reads : ok (c * 10 ^ j) = true
  le : j ≤ p
  high : ∀ c' i, j < i → i ≤ p → ok (c' * 10 ^ i) = false
  near : ∀ c', ok (c' * 10 ^ j) = true → gap (c * 10 ^ j) x ≤ gap (c' * 10 ^ j) x
  even : ∀ c', ok (c' * 10 ^ j) = true → gap (c * 10 ^ j) x = gap (c' * 10 ^ j) x → c' ≠ c → c % 2 = 0

theorem mul_cases {c q u : Nat} : c * u ≤ q * u ∨ (q + 1) * u ≤ c * u := by
  by_cases hc : c ≤ q
  · exact .inl (Nat.mul_le_mul_right _ hc)
  · exact .inr (Nat.mul_le_mul_right _ (by omega))

/-- If a multiple of the unit is `ok`, so is the exact value rounded down or up to the unit. -/
theorem round_at {ok : Nat → Bool} (hk : Convex ok) {x c u : Nat} (hx : ok x = true) (hu : 0 < u) (h : ok (c * u) = true) :
    c * u ≤ x / u * u ∧ ok (x / u * u) = true ∨ (x / u + 1) * u ≤ c * u ∧ ok ((x / u + 1) * u) = true := by
  have h1 := Nat.div_mul_le_self x u
  have h2 : x < (x / u + 1) * u := by
    have := Nat.lt_div_mul_add (a := x) hu
    rw [Nat.add_mul]; omega
  rcases mul_cases (c := c) (q := x / u) (u := u) with h3 | h3
  · exact .inl ⟨h3, hk _ _ _ h hx h3 h1⟩
  · exact .inr ⟨h3, hk _ _ _ hx h (Nat.le_of_lt h2) h3⟩

/-- What `roundAt` finds. -/
theorem roundAt_spec {ok : Nat → Bool} (hk : Convex ok) {x u : Nat} (hx : ok x = true) (hu : 0 < u) : match roundAt ok x u with
    | some c => ok (c * u) = true ∧ (∀ c', ok (c' * u) = true → gap (c * u) x ≤ gap (c' * u) x) ∧
        ∀ c', ok (c' * u) = true → gap (c * u) x = gap (c' * u) x → c' ≠ c → c % 2 = 0
    | none => ∀ c, ok (c * u) = false := by
  have key := fun c => round_at hk (c := c) hx hu
  have hd := Nat.div_add_mod x u
  have hm := Nat.mod_lt x hu
  have inj : ∀ {a b}, a * u = b * u → a = b := fun h => Nat.eq_of_mul_eq_mul_right hu h
  have hs : (x / u + 1) * u = x / u * u + u := by rw [Nat.add_mul, Nat.one_mul]
  rw [Nat.mul_comm] at hd
  simp only [roundAt]
  generalize x / u = q at *
  generalize x % u = r at *
  simp only [gap]
  by_cases h1 : ok (q * u) = true
  · by_cases h2 : ok ((q + 1) * u) = true
    · rw [if_pos h1, h2]
      simp only [Bool.true_and, Bool.or_eq_true, decide_eq_true_eq, Bool.and_eq_true, beq_iff_eq]
      split
      · rename_i c h3
        split at h3
        · cases h3
          refine ⟨h2, fun c' h4 => by have := key c' h4; omega, fun c' h4 h5 h6 => ?_⟩
          have := key c' h4
          have : c' * u ≠ (q + 1) * u := fun h => h6 (inj h)
          omega
        · cases h3
          refine ⟨h1, fun c' h4 => by have := key c' h4; omega, fun c' h4 h5 h6 => ?_⟩
          have := key c' h4
          have : c' * u ≠ q * u := fun h => h6 (inj h)
          omega
      · rename_i h3
        split at h3 <;> cases h3
    · rw [if_pos h1, if_neg (by simp [h2])]
      refine ⟨h1, fun c' h4 => ?_, fun c' h4 h5 h6 => ?_⟩
      · rcases key c' h4 with h5 | h5
        · omega
        · exact absurd h5.2 h2
      · rcases key c' h4 with h7 | h7
        · have : c' * u ≠ q * u := fun h => h6 (inj h)
          omega
        · exact absurd h7.2 h2
  · rw [if_neg h1]
    by_cases h2 : ok ((q + 1) * u) = true
    · rw [if_pos h2]
      refine ⟨h2, fun c' h4 => ?_, fun c' h4 h5 h6 => ?_⟩
      · rcases key c' h4 with h5 | h5
        · exact absurd h5.2 h1
        · omega
      · rcases key c' h4 with h7 | h7
        · exact absurd h7.2 h1
        · have : c' * u ≠ (q + 1) * u := fun h => h6 (inj h)
          omega
    · rw [if_neg h2]
      intro c
      cases h4 : ok (c * u) with
      | false => rfl
      | true =>
        rcases key c h4 with h5 | h5
        · exact absurd h5.2 h1
        · exact absurd h5.2 h2

theorem shortest_found {ok : Nat → Bool} (hk : Convex ok) {x : Nat} (hx : ok x = true) (p : Nat) :
    Found ok x (shortest ok x p).1 (shortest ok x p).2 p := by
  induction p with
  | zero =>
    have e : x * 10 ^ 0 = x := by simp
    have e2 : shortest ok x 0 = (x, 0) := by rw [shortest]
    rw [e2]
    refine ⟨?_, Nat.le_refl _, fun c' i h1 h2 => absurd h1 (by omega), fun c' _ => ?_, fun c' _ h1 h2 => ?_⟩
    · show ok (x * 10 ^ 0) = true
      rw [e]; exact hx
    · show gap (x * 10 ^ 0) x ≤ _
      rw [e]
      simp only [gap]; omega
    · change gap (x * 10 ^ 0) x = gap (c' * 10 ^ 0) x at h1
      change c' ≠ x at h2
      rw [e, Nat.pow_zero, Nat.mul_one] at h1
      simp only [gap] at h1
      omega
  | succ p ih =>
    have h := roundAt_spec hk (u := 10 ^ (p + 1)) hx (Nat.pow_pos (by decide))
    rw [shortest]
    generalize roundAt ok x (10 ^ (p + 1)) = o at *
    cases o with
    | some c => exact ⟨h.1, Nat.le_refl _, fun _ _ h4 h5 => absurd h4 (by simp only; omega), h.2.1, h.2.2⟩
    | none =>
      refine ⟨ih.reads, Nat.le_succ_of_le ih.le, fun c' i h3 h4 => ?_, ih.near, ih.even⟩
      by_cases h6 : i ≤ p
      · exact ih.high c' i h3 h6
      · have : i = p + 1 := by omega
        subst this
        exact h c'

theorem readsAs_convex (b : Nat) : Convex (readsAs b) := by
  intro l m n hl hn h1 h2
  rw [readsAs_iff] at *
  exact hl.between hn h1 h2

theorem readsAs_exact (b : Nat) : readsAs b (f64Exact b) = true := readsAs_iff.2 (roundsTo_exact b)

end Verif
