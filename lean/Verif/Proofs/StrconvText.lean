/-
Helper lemmas about the texts that the model of `strconv` reads and writes.
-/
import Verif.Proofs.Strconv

namespace Verif
open Spec

/-! ### Decimal digits -/

theorem isDigit_ofNat (n : Nat) : isDigit (Char.ofNat (48 + n % 10)) = true := by
  have : ∀ k : Fin 10, isDigit (Char.ofNat (48 + k.val)) = true := by decide
  exact this ⟨n % 10, Nat.mod_lt _ (by decide)⟩

theorem toNat_ofNat (n : Nat) : (Char.ofNat (48 + n % 10)).toNat - 48 = n % 10 := by
  have : ∀ k : Fin 10, (Char.ofNat (48 + k.val)).toNat - 48 = k.val := by decide
  exact this ⟨n % 10, Nat.mod_lt _ (by decide)⟩

theorem decimal_foldl (s : Str) : ∀ n, s.foldl (fun n c => 10 * n + (c.toNat - 48)) n = n * 10 ^ s.length + decimal s := by
  induction s with
  | nil => intro n; simp [decimal]
  | cons c s ih =>
    intro n
    simp only [List.foldl_cons, decimal, List.length_cons]
    rw [ih, ih (10 * 0 + _), Nat.pow_succ, Nat.add_mul]
    simp only [Nat.mul_zero, Nat.zero_add, Nat.add_assoc, Nat.add_right_cancel_iff]
    rw [Nat.mul_comm 10 n, Nat.mul_assoc, Nat.mul_comm 10]

theorem decimal_append (s t : Str) : decimal (s ++ t) = decimal s * 10 ^ t.length + decimal t := by
  rw [decimal, List.foldl_append, decimal_foldl]; rfl

theorem decimal_single (c : Char) : decimal [c] = c.toNat - 48 := by simp [decimal]

theorem decimal_snoc (s : Str) (c : Char) : decimal (s ++ [c]) = 10 * decimal s + (c.toNat - 48) := by
  rw [decimal_append, decimal_single, Nat.mul_comm]; rfl

theorem digit_le {c : Char} (h : isDigit c = true) : c.toNat - 48 ≤ 9 := by
  simp only [isDigit, Bool.and_eq_true, decide_eq_true_eq] at h
  have : c.toNat ≤ '9'.toNat := h.2
  have : '9'.toNat = 57 := rfl
  omega

theorem decimal_lt {s : Str} (h : s.all isDigit = true) : decimal s < 10 ^ s.length := by
  induction s with
  | nil => decide
  | cons c s ih =>
    simp only [List.all_cons, Bool.and_eq_true] at h
    have h1 := ih h.2
    have h2 := digit_le h.1
    have e : decimal (c :: s) = (c.toNat - 48) * 10 ^ s.length + decimal s := by
      rw [← decimal_single, ← decimal_append]; rfl
    rw [e, List.length_cons, Nat.pow_succ]
    have := Nat.mul_le_mul_right (10 ^ s.length) h2
    omega

theorem decimal_natStr (n : Nat) : decimal (natStr n) = n := by
  induction n using Nat.strongRecOn with
  | _ n ih =>
    rw [natStr]
    split
    · rename_i h
      rw [decimal_single]
      have := toNat_ofNat n
      rw [Nat.mod_eq_of_lt h] at this
      exact this
    · rename_i h
      rw [decimal_snoc, ih (n / 10) (by omega), toNat_ofNat]
      omega

theorem natStr_alldigits (n : Nat) : (natStr n).all isDigit = true := by
  induction n using Nat.strongRecOn with
  | _ n ih =>
    rw [natStr]
    split
    · rename_i h
      have := isDigit_ofNat n
      rw [Nat.mod_eq_of_lt h] at this
      simp [this]
    · rename_i h
      simp [ih (n / 10) (by omega), isDigit_ofNat]

theorem natStr_nonempty (n : Nat) : natStr n ≠ [] := by
  rw [natStr]; split <;> simp

theorem natStr_len_le {n k : Nat} (h : n < 10 ^ k) (hk : 1 ≤ k) : (natStr n).length ≤ k := by
  induction n using Nat.strongRecOn generalizing k with
  | _ n ih =>
    rw [natStr]
    split
    · simpa using hk
    · rename_i hn
      obtain ⟨k, rfl⟩ : ∃ m, k = m + 1 := ⟨k - 1, by omega⟩
      have hk1 : 1 ≤ k := by
        rcases k with _ | k
        · simp at h; omega
        · omega
      have := ih (n / 10) (by omega) (k := k) (by rw [Nat.pow_succ] at h; omega) hk1
      simp; omega

theorem lastDigits_length (k n : Nat) : (lastDigits k n).length = k := by
  induction k generalizing n with
  | zero => rfl
  | succ k ih => simp [lastDigits, ih]

theorem lastDigits_all (k n : Nat) : (lastDigits k n).all isDigit = true := by
  induction k generalizing n with
  | zero => rfl
  | succ k ih => simp only [lastDigits, List.all_append, ih, List.all_cons, isDigit_ofNat, List.all_nil, Bool.and_true]

theorem decimal_lastDigits (k n : Nat) : decimal (lastDigits k n) = n % 10 ^ k := by
  induction k generalizing n with
  | zero => simp [lastDigits, decimal, Nat.mod_one]
  | succ k ih =>
    rw [lastDigits, decimal_snoc, ih, toNat_ofNat, Nat.pow_succ, Nat.mul_comm (10 ^ k) 10, Nat.mod_mul]
    omega

/-! ### Number texts -/

theorem dot_not_digit : isDigit '.' = false := by decide

/-- What `ParseFloat` accepts. -/
theorem parseFloat_iff {s : Str} {v : F64} : parseFloat s = some v ↔ ∃ i f b, i ≠ [] ∧ i.all isDigit = true ∧
    f.all isDigit = true ∧ (s = i ∧ f = [] ∨ s = i ++ '.' :: f) ∧ roundF64 (decimal (i ++ f)) f.length = some b ∧
    v = BitVec.ofNat 64 b := by
  constructor
  · intro h
    simp only [parseFloat] at h
    have hs := List.takeWhile_append_dropWhile (p := isDigit) (l := s)
    have ha : (s.takeWhile isDigit).all isDigit = true := by simp
    split at h
    · cases h
    · rename_i hi
      split at h
      · rename_i hd
        rw [hd, List.append_nil] at hs
        obtain ⟨b, hb, rfl⟩ := Option.map_eq_some_iff.1 h
        exact ⟨s.takeWhile isDigit, [], b, hi, ha, rfl, .inl ⟨hs.symm, rfl⟩, by simpa using hb, rfl⟩
      · rename_i c f hd
        split at h
        · rename_i hc
          rw [hd, hc.1] at hs
          obtain ⟨b, hb, rfl⟩ := Option.map_eq_some_iff.1 h
          exact ⟨s.takeWhile isDigit, f, b, hi, ha, hc.2, .inr hs.symm, hb, rfl⟩
        · cases h
  · rintro ⟨i, f, b, hi, ha, hf, hs, hb, rfl⟩
    have hal : ∀ a ∈ i, isDigit a = true := List.all_eq_true.1 ha
    simp only [parseFloat]
    rcases hs with ⟨rfl, rfl⟩ | rfl
    · have e1 : s.takeWhile isDigit = s := by
        have := List.takeWhile_append_of_pos (l₂ := []) hal
        simpa using this
      have e2 : s.dropWhile isDigit = [] := by
        have := List.dropWhile_append_of_pos (l₂ := []) hal
        simpa using this
      rw [e1, e2, if_neg hi]
      simp only [List.append_nil, List.length_nil] at hb
      simp only [hb, Option.map_some]
    · rw [List.takeWhile_append_of_pos hal, List.dropWhile_append_of_pos hal]
      simp only [List.takeWhile_cons, List.dropWhile_cons, dot_not_digit, Bool.false_eq_true, if_false, List.append_nil]
      rw [if_neg hi, if_pos ⟨trivial, hf⟩, hb]
      rfl

/-! ### What is written is read back -/

theorem fixed_int {c j : Nat} (h : fscale ≤ j) : fixed c j = natStr (c * 10 ^ (j - fscale)) := by rw [fixed, if_pos h]
theorem fixed_frac {c j : Nat} (h : j < fscale) : fixed c j = natStr (c / 10 ^ (fscale - j)) ++ '.' :: lastDigits (fscale - j) c := by
  rw [fixed, if_neg (by omega)]

theorem pow_split {a b : Nat} (h : a ≤ b) : 10 ^ (b - a) * 10 ^ a = 10 ^ b := by rw [← Nat.pow_add, Nat.sub_add_cancel h]

theorem roundsTo_int {c j b : Nat} (h : fscale ≤ j) : RoundsTo (c * 10 ^ (j - fscale)) 0 b ↔ RoundsTo (c * 10 ^ j) fscale b := by
  rw [← roundsTo_scale (n := c * 10 ^ (j - fscale)) fscale, Nat.mul_assoc, pow_split h, Nat.zero_add]

theorem roundsTo_frac {c j b : Nat} (h : j < fscale) : RoundsTo c (fscale - j) b ↔ RoundsTo (c * 10 ^ j) fscale b := by
  rw [← roundsTo_scale (n := c) (f := fscale - j) j, Nat.sub_add_cancel (Nat.le_of_lt h)]

theorem parse_fixed {b c j : Nat} (hb : b < f64Inf) (h : RoundsTo (c * 10 ^ j) fscale b) :
    parseFloat (fixed c j) = some (BitVec.ofNat 64 b) := by
  rw [parseFloat_iff]
  by_cases hj : fscale ≤ j
  · refine ⟨natStr (c * 10 ^ (j - fscale)), [], b, natStr_nonempty _, natStr_alldigits _, rfl, .inl ⟨fixed_int hj, rfl⟩, ?_, rfl⟩
    rw [List.append_nil, decimal_natStr, roundF64_iff]
    exact ⟨hb, (roundsTo_int hj).2 h⟩
  · have hj : j < fscale := by omega
    refine ⟨natStr (c / 10 ^ (fscale - j)), lastDigits (fscale - j) c, b, natStr_nonempty _, natStr_alldigits _, lastDigits_all _ _,
      .inr (fixed_frac hj), ?_, rfl⟩
    rw [decimal_append, decimal_natStr, decimal_lastDigits, lastDigits_length, Nat.mul_comm, Nat.div_add_mod, roundF64_iff]
    exact ⟨hb, (roundsTo_frac hj).2 h⟩

theorem digits_found (b : Nat) : Found (readsAs b) (f64Exact b) (digitsOf b).1 (digitsOf b).2 (fscale + 309) := by
  unfold digitsOf
  exact shortest_found (readsAs_convex b) (readsAs_exact b) _

theorem format_found (b : Nat) : ∃ c j, formatBits b = fixed c j ∧ Found (readsAs b) (f64Exact b) c j (fscale + 309) :=
  ⟨(digitsOf b).1, (digitsOf b).2, by rw [formatBits], digits_found b⟩

theorem parse_formatBits {b : Nat} (hb : b < f64Inf) : parseFloat (formatBits b) = some (BitVec.ofNat 64 b) := by
  obtain ⟨c, j, h, hf⟩ := format_found b
  rw [h]
  exact parse_fixed hb (readsAs_iff.1 hf.reads)

/-! ### It is as short as possible -/

theorem units_inf : f64Units f64Inf = 2 ^ 1024 * 2 ^ fscale := by decide +kernel
theorem two_lt_ten : 2 ^ 1024 < 10 ^ 309 := by decide +kernel

/-- Nothing that is read as a finite number is as large as `10 ^ 309`. -/
theorem finite_lt {i b : Nat} (hb : b < f64Inf) (h : RoundsTo (10 ^ (i + fscale)) fscale b) : i ≤ 309 := by
  have h1 : belowMid (10 ^ i) 0 b = true := by
    have := h.1
    rw [Nat.pow_add] at this
    rwa [← belowMid_scale (10 ^ i) 0 fscale, Nat.zero_add]
  rw [belowMid_iff, Nat.pow_zero, Nat.mul_one] at h1
  have h2 := units_mono (Nat.le_of_lt hb)
  have h3 := units_mono (show b + 1 ≤ f64Inf from hb)
  rw [units_inf] at h2 h3
  have h7 := two_lt_ten
  generalize 2 ^ 1024 = m at *
  have h4 : 2 * 10 ^ i * 2 ^ fscale ≤ 2 * (m * 2 ^ fscale) := by omega
  rw [← Nat.mul_assoc] at h4
  have h5 := Nat.le_of_mul_le_mul_right h4 (Nat.pow_pos (by decide))
  have h6 : 10 ^ i ≤ m := Nat.le_of_mul_le_mul_left h5 (by decide)
  have h8 : 10 ^ i < 10 ^ 309 := Nat.lt_of_le_of_lt h6 h7
  exact Nat.le_of_lt ((Nat.pow_lt_pow_iff_right (by decide)).1 h8)

/-- No two numbers from 1 on of which one is ten times the other are read as the same number. -/
theorem not_tenfold {y b : Nat} (hy : 10 ^ fscale ≤ y) (h1 : RoundsTo y fscale b) (h2 : RoundsTo (10 * y) fscale b) : False := by
  have hp : 0 < 10 ^ fscale := Nat.pow_pos (by decide)
  have hY : y ≤ y * 2 ^ fscale := Nat.le_mul_of_pos_right _ (Nat.pow_pos (by decide))
  have h3 := belowMid_iff.1 h2.1
  have e1 : 2 * (10 * y) * 2 ^ fscale = 20 * (y * 2 ^ fscale) := by
    rw [← Nat.mul_assoc, ← Nat.mul_assoc]
  have e2 : 2 * y * 2 ^ fscale = 2 * (y * 2 ^ fscale) := by rw [Nat.mul_assoc]
  rw [e1] at h3
  by_cases hb : b = 0
  · subst hb
    have e : f64Units 0 + f64Units (0 + 1) = 1 := by decide
    rw [e, Nat.one_mul] at h3
    omega
  · have h4 := units_double (show 1 ≤ b by omega)
    have h5 := h1.2 (b - 1) (by omega)
    have h6 : ¬ belowMid y fscale (b - 1) = true := by rw [h5]; decide
    rw [belowMid_iff, Nat.sub_add_cancel (show 1 ≤ b by omega), e2] at h6
    have h7 : (f64Units b + f64Units (b + 1)) * 10 ^ fscale ≤ 3 * (f64Units b * 10 ^ fscale) := by
      rw [← Nat.mul_assoc]; exact Nat.mul_le_mul_right _ (by omega)
    have h8 : f64Units b * 10 ^ fscale ≤ (f64Units (b - 1) + f64Units b) * 10 ^ fscale := Nat.mul_le_mul_right _ (by omega)
    omega

/-- The digits after the point are no more than in any text that is read as the number. -/
theorem found_frac {b c j n f : Nat} (hf : Found (readsAs b) (f64Exact b) c j (fscale + 309)) (h : RoundsTo n f b) :
    fscale - j ≤ f := by
  by_cases hff : fscale ≤ f
  · omega
  · by_cases hj : fscale - f ≤ j
    · omega
    · have h1 : RoundsTo (n * 10 ^ (fscale - f)) fscale b := by
        have := (roundsTo_scale (fscale - f)).2 h
        rwa [show f + (fscale - f) = fscale by omega] at this
      have h2 := hf.high n (fscale - f) (by omega) (by omega)
      rw [readsAs_iff.2 h1] at h2
      cases h2

/-- The text is no longer than any text with a point that is read as the number. -/
theorem fixed_length {b c j n f i : Nat} (hb : b < f64Inf) (hf : Found (readsAs b) (f64Exact b) c j (fscale + 309))
    (h : RoundsTo n f b) (hi : 1 ≤ i) (hn : n < 10 ^ (i + f)) : (fixed c j).length ≤ i + 1 + f := by
  have h1 := found_frac hf h
  by_cases hD : c * 10 ^ j < 10 ^ (i + fscale)
  · by_cases hj : fscale ≤ j
    · rw [fixed_int hj]
      have : c * 10 ^ (j - fscale) < 10 ^ i := by
        rw [← pow_split hj, ← Nat.mul_assoc, Nat.pow_add] at hD
        exact Nat.lt_of_mul_lt_mul_right hD
      have := natStr_len_le this hi
      omega
    · have hj : j < fscale := by omega
      rw [fixed_frac hj]
      have h2 : c / 10 ^ (fscale - j) < 10 ^ i := by
        have e : i + fscale = (i + (fscale - j)) + j := by omega
        rw [e, Nat.pow_add] at hD
        have := Nat.lt_of_mul_lt_mul_right hD
        rw [Nat.pow_add] at this
        exact (Nat.div_lt_iff_lt_mul (Nat.pow_pos (by decide))).2 this
      have := natStr_len_le h2 hi
      simp only [List.length_append, List.length_cons, lastDigits_length]
      omega
  · have hD : 10 ^ (i + fscale) ≤ c * 10 ^ j := by omega
    have hr := readsAs_iff.1 hf.reads
    have h2 : RoundsTo (10 ^ (i + fscale)) fscale b := by
      have a1 : RoundsTo (n * 10 ^ fscale) (f + fscale) b := (roundsTo_scale fscale).2 h
      have a2 : RoundsTo (c * 10 ^ j * 10 ^ f) (f + fscale) b := by
        have := (roundsTo_scale f).2 hr
        rwa [Nat.add_comm] at this
      have a3 : n * 10 ^ fscale ≤ 10 ^ (i + fscale) * 10 ^ f := by
        have := Nat.mul_le_mul_right (10 ^ fscale) (Nat.le_of_lt hn)
        rwa [← Nat.pow_add, show i + f + fscale = (i + fscale) + f by omega, Nat.pow_add _ (i + fscale)] at this
      have := a1.between a2 a3 (Nat.mul_le_mul_right _ hD)
      rw [Nat.add_comm f fscale] at this
      exact (roundsTo_scale f).1 this
    have h3 := finite_lt hb h2
    have hj : i + fscale ≤ j := by
      by_cases hj : i + fscale ≤ j
      · exact hj
      · have := hf.high 1 (i + fscale) (by omega) (by omega)
        rw [Nat.one_mul, readsAs_iff.2 h2] at this
        cases this
    have h4 : c * 10 ^ (j - fscale) < 10 ^ (i + 1) := by
      by_cases h4 : c * 10 ^ (j - fscale) < 10 ^ (i + 1)
      · exact h4
      · exfalso
        have h5 := Nat.mul_le_mul_right (10 ^ fscale) (Nat.le_of_not_lt h4)
        rw [Nat.mul_assoc, pow_split (by omega : fscale ≤ j), ← Nat.pow_add] at h5
        have h6 := h2.between hr (m := 10 ^ (i + 1 + fscale)) (Nat.pow_le_pow_right (by decide) (by omega)) h5
        rw [show i + 1 + fscale = i + fscale + 1 by omega, Nat.pow_succ, Nat.mul_comm] at h6
        exact not_tenfold (Nat.pow_le_pow_right (by decide) (by omega)) h2 h6
    rw [fixed_int (by omega)]
    have := natStr_len_le h4 (by omega)
    omega

/-! ### When a point is written -/

theorem dot_not_mem {s : Str} (h : s.all isDigit = true) : '.' ∉ s := by
  intro hm
  have := List.all_eq_true.1 h _ hm
  rw [dot_not_digit] at this
  cases this

theorem dot_mem_fixed {c j : Nat} : '.' ∈ fixed c j ↔ j < fscale := by
  by_cases hj : fscale ≤ j
  · rw [fixed_int hj]
    exact iff_of_false (dot_not_mem (natStr_alldigits _)) (by omega)
  · rw [fixed_frac (by omega)]
    exact iff_of_true (by simp) (by omega)

theorem fscale_eq : fscale = 1074 := by unfold fscale; rfl

/-- Integers below `2 ^ 53` are floating point numbers. -/
theorem int_exact {z : Nat} (hz : 0 < z) (h : z < 2 ^ 53) : ∃ e r, e ≤ 52 ∧ r < 2 ^ 52 ∧ 2 ^ e ≤ z ∧
    f64Units ((1023 + e) * 2 ^ 52 + r) = z * 2 ^ fscale := by
  have h1 := Nat.log2_self_le (Nat.pos_iff_ne_zero.1 hz)
  have h2 := Nat.lt_log2_self (n := z)
  have he : z.log2 ≤ 52 := by
    have : 2 ^ z.log2 < 2 ^ 53 := Nat.lt_of_le_of_lt h1 h
    have := (Nat.pow_lt_pow_iff_right (by decide)).1 this
    omega
  generalize z.log2 = e at *
  have b1 : 2 ^ 52 ≤ z * 2 ^ (52 - e) := by
    have := Nat.mul_le_mul_right (2 ^ (52 - e)) h1
    rwa [← Nat.pow_add, show e + (52 - e) = 52 by omega] at this
  have b2 : z * 2 ^ (52 - e) < 2 ^ 53 := by
    have := Nat.mul_lt_mul_of_pos_right h2 (show 0 < 2 ^ (52 - e) from Nat.pow_pos (by decide))
    rwa [← Nat.pow_add, show e + 1 + (52 - e) = 53 by omega] at this
  refine ⟨e, z * 2 ^ (52 - e) - 2 ^ 52, he, by omega, h1, ?_⟩
  have hr : z * 2 ^ (52 - e) - 2 ^ 52 < 2 ^ 52 := by omega
  unfold f64Units
  rw [if_neg (by omega)]
  have e1 : ((1023 + e) * 2 ^ 52 + (z * 2 ^ (52 - e) - 2 ^ 52)) % 2 ^ 52 = z * 2 ^ (52 - e) - 2 ^ 52 := by
    rw [Nat.mul_comm, Nat.mul_add_mod, Nat.mod_eq_of_lt hr]
  have e2 : ((1023 + e) * 2 ^ 52 + (z * 2 ^ (52 - e) - 2 ^ 52)) / 2 ^ 52 = 1023 + e := by
    rw [Nat.mul_comm, Nat.mul_add_div (by decide), Nat.div_eq_of_lt hr, Nat.add_zero]
  rw [e1, e2, show 2 ^ 52 + (z * 2 ^ (52 - e) - 2 ^ 52) = z * 2 ^ (52 - e) by omega, Nat.mul_assoc, ← Nat.pow_add, fscale_eq,
    show 52 - e + (1023 + e - 1) = 1074 by omega]

/-- A number that is the nearest one to an integer is an integer. -/
theorem int_of_roundsTo {z b : Nat} (h : RoundsTo z 0 b) : 2 ^ fscale ∣ f64Units b := by
  by_cases h0 : z = 0
  · subst h0
    have : RoundsTo 0 0 0 := roundsTo_self (by rw [units_zero]; simp)
    rw [h.unique this, units_zero]
    exact Nat.dvd_zero _
  by_cases hz : z < 2 ^ 53
  · obtain ⟨e, r, -, -, -, hu⟩ := int_exact (by omega) hz
    have : RoundsTo z 0 ((1023 + e) * 2 ^ 52 + r) := roundsTo_self (by rw [hu]; simp)
    rw [h.unique this, hu]
    exact Nat.dvd_mul_left _ _
  · have hu : f64Units (1076 * 2 ^ 52) = 2 ^ 53 * 2 ^ fscale := by decide +kernel
    have h1 : RoundsTo (2 ^ 53) 0 (1076 * 2 ^ 52) := roundsTo_self (by rw [hu]; simp)
    have h2 := belowMid_anti (m := 2 ^ 53) (by omega) h.1
    have h3 : 1076 * 2 ^ 52 ≤ b := by
      by_cases h3 : 1076 * 2 ^ 52 ≤ b
      · exact h3
      · have := h1.2 b (by omega); rw [h2] at this; cases this
    unfold f64Units
    rw [if_neg (by omega)]
    have h4 : 1076 ≤ b / 2 ^ 52 := (Nat.le_div_iff_mul_le (by decide)).2 h3
    refine Nat.dvd_trans ?_ (Nat.dvd_mul_left _ _)
    have := fscale_eq
    exact Nat.pow_dvd_pow 2 (by omega)

theorem dot_mem_formatBits {b : Nat} : '.' ∈ formatBits b ↔ ¬ 2 ^ fscale ∣ f64Units b := by
  obtain ⟨c, j, h, hf⟩ := format_found b
  rw [h, dot_mem_fixed]
  constructor
  · rintro hj ⟨z, hz⟩
    have h1 : RoundsTo z 0 b := roundsTo_self (by rw [hz]; simp [Nat.mul_comm])
    have := found_frac hf h1
    omega
  · intro hd
    by_cases hj : j < fscale
    · exact hj
    · exact absurd (int_of_roundsTo ((roundsTo_int (by omega)).2 (readsAs_iff.1 hf.reads))) hd

end Verif
