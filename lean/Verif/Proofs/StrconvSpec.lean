/-
Helper lemmas that connect the model of `strconv` with Verif/Spec/Float.lean.
-/
import Verif.Proofs.StrconvText

namespace Verif
open Spec

/-! ### Texts -/

theorem isDigit_iff {c : Char} : isDigit c = true ↔ '0' ≤ c ∧ c ≤ '9' := by simp [isDigit]

theorem decimalText_digits {i : Str} (hi : i ≠ []) (ha : i.all isDigit = true) : DecimalText i (decimal i) 0 := by
  have : ∀ r : Str, r ≠ [] → (∀ c ∈ r, isDigit c = true) → DecimalText r.reverse (decimal r.reverse) 0 := by
    intro r
    induction r with
    | nil => intro h; exact absurd rfl h
    | cons c r ih =>
      intro _ h
      have hc := isDigit_iff.1 (h c (by simp))
      have hr : ∀ x ∈ r, isDigit x = true := fun x hx => h x (by simp [hx])
      rw [List.reverse_cons]
      cases r with
      | nil =>
        rw [List.reverse_nil, List.nil_append, decimal_single]
        exact .digit c hc
      | cons d r =>
        rw [decimal_snoc]
        exact .more c hc (ih (by simp) hr) fun hm => by
          have := hr '.' (List.mem_reverse.1 hm)
          rw [dot_not_digit] at this
          cases this
  have h := this i.reverse (by simpa using hi) (by simpa using ha)
  rwa [List.reverse_reverse] at h

theorem decimalText_point {i f : Str} (hi : i ≠ []) (ha : i.all isDigit = true) (hf : f.all isDigit = true) :
    DecimalText (i ++ '.' :: f) (decimal (i ++ f)) f.length := by
  have : ∀ r : Str, (∀ c ∈ r, isDigit c = true) → DecimalText (i ++ '.' :: r.reverse) (decimal (i ++ r.reverse)) r.length := by
    intro r
    induction r with
    | nil =>
      intro _
      rw [List.reverse_nil, List.append_nil]
      exact .point (decimalText_digits hi ha) (dot_not_mem ha)
    | cons c r ih =>
      intro h
      have hr := ih fun x hx => h x (by simp [hx])
      have e1 : i ++ '.' :: (c :: r).reverse = (i ++ '.' :: r.reverse) ++ [c] := by simp
      have e2 : i ++ (c :: r).reverse = (i ++ r.reverse) ++ [c] := by simp
      rw [e1, e2, decimal_snoc]
      exact .frac c (isDigit_iff.1 (h c (by simp))) hr (by simp)
  have h := this f.reverse (by simpa using hf)
  rwa [List.reverse_reverse, List.length_reverse] at h

theorem decimalText_inv {s : Str} {n k : Nat} (h : DecimalText s n k) : ∃ i f, i ≠ [] ∧ i.all isDigit = true ∧
    f.all isDigit = true ∧ (s = i ∧ f = [] ∨ s = i ++ '.' :: f) ∧ n = decimal (i ++ f) ∧ k = f.length := by
  induction h with
  | digit c h => exact ⟨[c], [], by simp, by simp [isDigit_iff.2 h], rfl, .inl ⟨rfl, rfl⟩, (decimal_single c).symm, rfl⟩
  | more c h _ hd ih =>
    obtain ⟨i, f, h1, h2, h3, h4, rfl, h5⟩ := ih
    rcases h4 with ⟨rfl, rfl⟩ | rfl
    · exact ⟨_ ++ [c], [], by simp, by simp [isDigit_iff.2 h]; simpa using h2, rfl, .inl ⟨rfl, rfl⟩,
        by rw [List.append_nil, List.append_nil, decimal_snoc], rfl⟩
    · simp at hd
  | point _ hd ih =>
    obtain ⟨i, f, h1, h2, h3, h4, rfl, h5⟩ := ih
    rcases h4 with ⟨rfl, rfl⟩ | rfl
    · exact ⟨_, [], h1, h2, rfl, .inr rfl, rfl, rfl⟩
    · simp at hd
  | frac c h _ hd ih =>
    obtain ⟨i, f, h1, h2, h3, h4, rfl, rfl⟩ := ih
    rcases h4 with ⟨rfl, rfl⟩ | rfl
    · exact absurd hd (dot_not_mem h2)
    · refine ⟨i, f ++ [c], h1, h2, by simp [isDigit_iff.2 h]; simpa using h3, .inr (by simp), ?_, by simp⟩
      rw [← List.append_assoc, decimal_snoc]

theorem decimalText_iff {s : Str} {n k : Nat} : DecimalText s n k ↔ ∃ i f, i ≠ [] ∧ i.all isDigit = true ∧
    f.all isDigit = true ∧ (s = i ∧ f = [] ∨ s = i ++ '.' :: f) ∧ n = decimal (i ++ f) ∧ k = f.length := by
  refine ⟨decimalText_inv, ?_⟩
  rintro ⟨i, f, h1, h2, h3, ⟨rfl, rfl⟩ | rfl, rfl, rfl⟩
  · rw [List.append_nil]; exact decimalText_digits h1 h2
  · exact decimalText_point h1 h2 h3

/-- `ParseFloat` reads a decimal number and rounds it. -/
theorem parseFloat_reads {s : Str} {v : F64} : parseFloat s = some v ↔
    ∃ n k b, DecimalText s n k ∧ roundF64 n k = some b ∧ v = BitVec.ofNat 64 b := by
  rw [parseFloat_iff]
  constructor
  · rintro ⟨i, f, b, h1, h2, h3, h4, h5, h6⟩
    exact ⟨_, _, b, decimalText_iff.2 ⟨i, f, h1, h2, h3, h4, rfl, rfl⟩, h5, h6⟩
  · rintro ⟨n, k, b, h, h5, h6⟩
    obtain ⟨i, f, h1, h2, h3, h4, rfl, rfl⟩ := decimalText_iff.1 h
    exact ⟨i, f, b, h1, h2, h3, h4, h5, h6⟩

/-! ### Nearest -/

theorem units_ieee {e m : Nat} (hm : m < 2 ^ 52) : f64Units (e * 2 ^ 52 + m) = ieee e m := by
  unfold f64Units ieee
  by_cases he : e = 0
  · subst he
    rw [if_pos rfl, if_pos (by omega)]; omega
  · have e1 : (e * 2 ^ 52 + m) % 2 ^ 52 = m := by rw [Nat.mul_comm, Nat.mul_add_mod, Nat.mod_eq_of_lt hm]
    have e2 : (e * 2 ^ 52 + m) / 2 ^ 52 = e := by
      rw [Nat.mul_comm, Nat.mul_add_div (by decide), Nat.div_eq_of_lt hm, Nat.add_zero]
    rw [if_neg he, if_neg (by omega), e1, e2]

/-- The distance from a number given by its bits. -/
def offB (n f b : Nat) : Nat := gap (n * 2 ^ fscale) (f64Units b * 10 ^ f)

theorem off_eq {n f e m : Nat} (hm : m < 2 ^ 52) : off n f e m = offB n f (e * 2 ^ 52 + m) := by
  rw [off, offB, units_ieee hm, fscale_eq]

theorem RoundsTo.upper {n f b c : Nat} (h : RoundsTo n f b) (hc : b < c) :
    2 * (n * 2 ^ fscale) ≤ f64Units b * 10 ^ f + f64Units c * 10 ^ f ∧
    (2 * (n * 2 ^ fscale) = f64Units b * 10 ^ f + f64Units c * 10 ^ f → b % 2 = 0) ∧
    f64Units b * 10 ^ f < f64Units c * 10 ^ f := by
  have h1 := belowMid_iff.1 h.1
  have h2 : f64Units (b + 1) * 10 ^ f ≤ f64Units c * 10 ^ f := Nat.mul_le_mul_right _ (units_mono hc)
  have h3 : f64Units b * 10 ^ f < f64Units c * 10 ^ f :=
    Nat.mul_lt_mul_of_pos_right (units_strict hc) (Nat.pow_pos (by decide))
  rw [Nat.mul_assoc, Nat.add_mul] at h1
  exact ⟨by omega, by omega, h3⟩

theorem RoundsTo.lower {n f b c : Nat} (h : RoundsTo n f b) (hc : c < b) :
    f64Units c * 10 ^ f + f64Units b * 10 ^ f ≤ 2 * (n * 2 ^ fscale) ∧
    (2 * (n * 2 ^ fscale) = f64Units c * 10 ^ f + f64Units b * 10 ^ f → b % 2 = 0) ∧
    f64Units c * 10 ^ f < f64Units b * 10 ^ f := by
  have h1 := h.2 (b - 1) (by omega)
  rw [← Bool.not_eq_true, belowMid_iff] at h1
  have h2 : f64Units c * 10 ^ f ≤ f64Units (b - 1) * 10 ^ f := Nat.mul_le_mul_right _ (units_mono (by omega))
  have h3 : f64Units c * 10 ^ f < f64Units b * 10 ^ f :=
    Nat.mul_lt_mul_of_pos_right (units_strict hc) (Nat.pow_pos (by decide))
  rw [Nat.mul_assoc, Nat.add_mul, show b - 1 + 1 = b by omega] at h1
  exact ⟨by omega, by omega, h3⟩

theorem RoundsTo.near {n f b : Nat} (h : RoundsTo n f b) (c : Nat) : offB n f b ≤ offB n f c ∧
    (offB n f b = offB n f c → c ≠ b → b % 2 = 0) := by
  simp only [offB, gap]
  rcases Nat.lt_trichotomy b c with hc | rfl | hc
  · have := h.upper hc; omega
  · omega
  · have := h.lower hc; omega

/-- Of two numbers that are both nearest and even there is one between them. -/
theorem nearest_unique {n f b c : Nat} (h : b < c) (h1 : offB n f b ≤ offB n f (b + 1)) (h2 : offB n f b = offB n f c)
    (hb : b % 2 = 0) (hc : c % 2 = 0) : False := by
  have a1 : f64Units b * 10 ^ f < f64Units (b + 1) * 10 ^ f :=
    Nat.mul_lt_mul_of_pos_right (units_strict (by omega)) (Nat.pow_pos (by decide))
  have a2 : f64Units (b + 1) * 10 ^ f < f64Units c * 10 ^ f :=
    Nat.mul_lt_mul_of_pos_right (units_strict (by omega)) (Nat.pow_pos (by decide))
  simp only [offB, gap] at h1 h2
  omega

theorem limit_eq : f64Units (f64Inf - 1) + f64Units (f64Inf - 1 + 1) = 2 * ((2 ^ 54 - 1) * 2 ^ 970) * 2 ^ fscale := by
  decide +kernel

theorem range_iff {n f : Nat} : belowMid n f (f64Inf - 1) = true ↔ n < (2 ^ 54 - 1) * 2 ^ 970 * 10 ^ f := by
  have hp : 0 < 2 ^ fscale := Nat.pow_pos (by decide)
  have hodd : ¬ (f64Inf - 1) % 2 = 0 := by decide
  rw [belowMid_iff, limit_eq]
  generalize (2 ^ 54 - 1) * 2 ^ 970 = l
  have e : 2 * l * 2 ^ fscale * 10 ^ f = 2 * (l * 10 ^ f) * 2 ^ fscale := by
    generalize 2 ^ fscale = x
    generalize 10 ^ f = y
    rw [Nat.mul_assoc, Nat.mul_comm x y, ← Nat.mul_assoc, Nat.mul_assoc 2 l y]
  rw [e, Nat.mul_lt_mul_right hp]
  simp only [hodd, and_false, or_false]
  omega

/-- Rounding is what the specification says. -/
theorem roundF64_nearest {n f e m : Nat} (hm : m < 2 ^ 52) : roundF64 n f = some (e * 2 ^ 52 + m) ↔
    n < (2 ^ 54 - 1) * 2 ^ 970 * 10 ^ f ∧ Nearest n f e m := by
  have hinf : f64Inf = 2047 * 2 ^ 52 := rfl
  have key : ∀ e m, m < 2 ^ 52 → roundF64 n f = some (e * 2 ^ 52 + m) → Nearest n f e m := by
    intro e m hm h
    obtain ⟨h1, h2⟩ := roundF64_iff.1 h
    rw [hinf] at h1
    have near := h2.near
    refine ⟨by omega, hm, fun e' m' _ hm' => ?_, fun e' m' _ hm' ho hne => ?_⟩
    · rw [off_eq hm, off_eq hm']; exact (near _).1
    · rw [off_eq hm, off_eq hm'] at ho
      have := (near _).2 ho fun heq => hne ?_
      · omega
      · have : e' = e := by omega
        subst this
        have : m' = m := by omega
        rw [this]
  constructor
  · intro h
    refine ⟨range_iff.1 ?_, key e m hm h⟩
    cases hb : belowMid n f (f64Inf - 1) with
    | true => rfl
    | false => exact absurd h (by rw [roundF64_none.2 hb]; exact fun h => nomatch h)
  · rintro ⟨hr, hn⟩
    cases hb : roundF64 n f with
    | none => exact absurd (range_iff.2 hr) (by rw [roundF64_none.1 hb]; exact Bool.false_ne_true)
    | some b =>
      have hlt := (roundF64_iff.1 hb).1
      rw [hinf] at hlt
      have hq : b / 2 ^ 52 * 2 ^ 52 + b % 2 ^ 52 = b := by rw [Nat.mul_comm]; exact Nat.div_add_mod b _
      have hm2 := Nat.mod_lt b (show 2 ^ 52 > 0 by decide)
      have hb2 := key (b / 2 ^ 52) (b % 2 ^ 52) hm2 (by rw [hq]; exact hb)
      have o1 := hn.near _ _ hb2.expo hb2.frac
      have o2 := hb2.near _ _ hn.expo hn.frac
      by_cases heq : b = e * 2 ^ 52 + m
      · rw [heq]
      · exfalso
        have hne : (b / 2 ^ 52, b % 2 ^ 52) ≠ (e, m) := by
          intro h
          cases h
          exact heq hq.symm
        have v1 := hn.even _ _ hb2.expo hb2.frac (by omega) hne
        have v2 := hb2.even _ _ hn.expo hn.frac (by omega) (fun h => hne h.symm)
        have r := (roundF64_iff.1 hb).2
        have he := hn.expo
        have next : ∀ c, c < 2047 * 2 ^ 52 → offB n f (e * 2 ^ 52 + m) ≤ offB n f c := by
          intro c hc
          have hq : c / 2 ^ 52 * 2 ^ 52 + c % 2 ^ 52 = c := by rw [Nat.mul_comm]; exact Nat.div_add_mod c _
          have hm3 := Nat.mod_lt c (show 2 ^ 52 > 0 by decide)
          have := hn.near (c / 2 ^ 52) (c % 2 ^ 52) (by omega) hm3
          rwa [off_eq hm, off_eq hm3, hq] at this
        rw [off_eq hm, off_eq hm2, hq] at o1 o2
        rcases Nat.lt_or_gt_of_ne heq with hl | hl
        · exact nearest_unique hl (r.near _).1 (by omega) (by omega) (by omega)
        · have hl : e * 2 ^ 52 + m < b := hl
          have hlt' : e * 2 ^ 52 + m + 1 < 2047 * 2 ^ 52 := Nat.lt_of_le_of_lt hl hlt
          exact nearest_unique hl (next _ hlt') (Nat.le_antisymm o1 o2) (by omega) (by omega)

end Verif
