import Verif.Model.Utf8
import Verif.Spec.Utf8
/-
Lemmas about UTF-8 decoding and the scanner.
-/
namespace Verif
open Spec

theorem toNat_ofNat8 {n : Nat} (h : n < 256) : (UInt8.ofNat n).toNat = n := by
  simp [UInt8.toNat_ofNat']; omega

theorem char_val_lt (c : Char) : c.toNat < 55296 ∨ 57343 < c.toNat ∧ c.toNat < 1114112 := c.valid

theorem isCont_ofNat (n : Nat) : isCont (UInt8.ofNat (n % 64 + 128)) = true := by
  have : (UInt8.ofNat (n % 64 + 128)).toNat = n % 64 + 128 := toNat_ofNat8 (by omega)
  unfold isCont
  rw [this]
  simp only [Bool.and_eq_true, decide_eq_true_eq]
  omega

theorem cont_toNat (n : Nat) : (UInt8.ofNat (n % 64 + 128)).toNat = n % 64 + 128 := toNat_ofNat8 (by omega)

theorem decode1 {n : Nat} (h : n < 128) (rest : Bytes) : decodeRune (UInt8.ofNat n :: rest) = (Char.ofNat n, 1) := by
  have : utf8First n = some (1, 0, 0) := by unfold utf8First; rw [if_pos (by omega)]
  simp only [decodeRune, toNat_ofNat8 (show n < 256 by omega), this, if_true]

theorem decode2 {n : Nat} (h1 : 128 ≤ n) (h2 : n < 2048) (rest : Bytes) :
    decodeRune (UInt8.ofNat (n / 64 % 32 + 192) :: UInt8.ofNat (n % 64 + 128) :: rest) = (Char.ofNat n, 2) := by
  have e0 : (UInt8.ofNat (n / 64 % 32 + 192)).toNat = n / 64 + 192 := by rw [toNat_ofNat8] <;> omega
  have : utf8First (n / 64 + 192) = some (2, 0x80, 0xBF) := by
    unfold utf8First; rw [if_neg (by omega), if_neg (by omega), if_pos (by omega)]
  simp only [decodeRune, e0, this, cont_toNat]
  rw [if_neg (by omega), if_neg (by omega), if_neg (by omega), if_pos (by omega)]
  congr 2
  omega

theorem first3 {n : Nat} (h1 : 2048 ≤ n) (h2 : n < 65536) (hv : n < 55296 ∨ 57343 < n) :
    ∃ lo hi, utf8First (n / 4096 + 224) = some (3, lo, hi) ∧ lo ≤ n / 64 % 64 + 128 ∧ n / 64 % 64 + 128 ≤ hi := by
  unfold utf8First
  rw [if_neg (by omega), if_neg (by omega), if_neg (by omega)]
  split
  · exact ⟨_, _, rfl, by omega, by omega⟩
  split
  · exact ⟨_, _, rfl, by omega, by omega⟩
  rw [if_pos (by omega)]
  exact ⟨_, _, rfl, by omega, by omega⟩

theorem decode3 {n : Nat} (h1 : 2048 ≤ n) (h2 : n < 65536) (hv : n < 55296 ∨ 57343 < n) (rest : Bytes) :
    decodeRune (UInt8.ofNat (n / 4096 % 16 + 224) :: UInt8.ofNat (n / 64 % 64 + 128) :: UInt8.ofNat (n % 64 + 128) :: rest) =
      (Char.ofNat n, 3) := by
  have e0 : (UInt8.ofNat (n / 4096 % 16 + 224)).toNat = n / 4096 + 224 := by rw [toNat_ofNat8] <;> omega
  obtain ⟨lo, hi, this, hlo, hhi⟩ := first3 h1 h2 hv
  simp only [decodeRune, e0, this, cont_toNat, isCont_ofNat]
  rw [if_neg (by omega), if_neg (by simp), if_neg (by omega), if_neg (by omega), if_neg (by simp), if_pos (by omega)]
  congr 2
  omega

theorem first4 {n : Nat} (h1 : 65536 ≤ n) (h2 : n < 1114112) :
    ∃ lo hi, utf8First (n / 262144 + 240) = some (4, lo, hi) ∧ lo ≤ n / 4096 % 64 + 128 ∧ n / 4096 % 64 + 128 ≤ hi := by
  unfold utf8First
  rw [if_neg (by omega), if_neg (by omega), if_neg (by omega), if_neg (by omega), if_neg (by omega), if_neg (by omega)]
  split
  · exact ⟨_, _, rfl, by omega, by omega⟩
  split
  · exact ⟨_, _, rfl, by omega, by omega⟩
  rw [if_pos (by omega)]
  exact ⟨_, _, rfl, by omega, by omega⟩

theorem decode4 {n : Nat} (h1 : 65536 ≤ n) (h2 : n < 1114112) (rest : Bytes) :
    decodeRune (UInt8.ofNat (n / 262144 % 8 + 240) :: UInt8.ofNat (n / 4096 % 64 + 128) :: UInt8.ofNat (n / 64 % 64 + 128) ::
      UInt8.ofNat (n % 64 + 128) :: rest) = (Char.ofNat n, 4) := by
  have e0 : (UInt8.ofNat (n / 262144 % 8 + 240)).toNat = n / 262144 + 240 := by rw [toNat_ofNat8] <;> omega
  obtain ⟨lo, hi, this, hlo, hhi⟩ := first4 h1 h2
  simp only [decodeRune, e0, this, cont_toNat, isCont_ofNat]
  rw [if_neg (by omega), if_neg (by simp), if_neg (by omega), if_neg (by omega), if_neg (by simp), if_neg (by omega),
    if_neg (by simp)]
  congr 2
  omega

/-- A rune that is encoded is decoded. -/
theorem decode_encode (c : Char) (rest : Bytes) :
    decodeRune (String.utf8EncodeChar c ++ rest) = (c, (String.utf8EncodeChar c).length) := by
  have hv := char_val_lt c
  have hn : c.val.toNat = c.toNat := rfl
  unfold String.utf8EncodeChar
  simp only [hn]
  split
  · simp only [List.cons_append, List.nil_append, decode1 (show c.toNat < 128 by omega), Char.ofNat_toNat]; rfl
  split
  · simp only [List.cons_append, List.nil_append, decode2 (show 128 ≤ c.toNat by omega) (by omega), Char.ofNat_toNat]; rfl
  split
  · simp only [List.cons_append, List.nil_append, decode3 (show 2048 ≤ c.toNat by omega) (by omega) (by omega),
      Char.ofNat_toNat]; rfl
  · simp only [List.cons_append, List.nil_append, decode4 (show 65536 ≤ c.toNat by omega) (by omega), Char.ofNat_toNat]; rfl

theorem decode_width (x : UInt8) (b : Bytes) :
    1 ≤ (decodeRune (x :: b)).2 ∧ (decodeRune (x :: b)).2 ≤ (x :: b).length := by
  unfold decodeRune
  simp only
  repeat' split
  all_goals simp

theorem first_size {n size lo hi : Nat} (h : utf8First n = some (size, lo, hi)) : 1 ≤ size ∧ size ≤ 4 := by
  unfold utf8First at h
  repeat' split at h
  all_goals simp at h
  all_goals omega

theorem full_decode {p : Bytes} (h : fullRune p = true) (q : Bytes) : decodeRune (p ++ q) = decodeRune p := by
  match p with
  | [] => cases h
  | p0 :: p =>
    cases hf : utf8First p0.toNat with
    | none => simp [decodeRune, hf]
    | some v =>
      obtain ⟨size, lo, hi⟩ := v
      have hsz := first_size hf
      simp only [fullRune, hf] at h
      match p with
      | [] =>
        by_cases h1 : size = 1
        · simp [decodeRune, hf, h1]
        · rw [if_neg (by simp; omega)] at h; cases h
      | [b1] =>
        by_cases h1 : size = 1
        · simp [decodeRune, hf, h1]
        by_cases hb : b1.toNat < lo ∨ hi < b1.toNat
        · simp [decodeRune, hf, h1, hb]
        · by_cases h2 : size ≤ 2
          · simp [decodeRune, hf, h1, hb, h2]
            rw [if_neg (by omega), if_neg (by omega)]
          · rw [if_neg (by simp; omega)] at h; simp only at h; rw [if_neg hb] at h; cases h
      | [b1, b2] =>
        by_cases h1 : size = 1
        · simp [decodeRune, hf, h1]
        by_cases hb : b1.toNat < lo ∨ hi < b1.toNat
        · simp [decodeRune, hf, h1, hb]
        by_cases h2 : size ≤ 2
        · simp [decodeRune, hf, h1, hb, h2]
          rw [if_neg (by omega), if_neg (by omega)]
        by_cases hc : isCont b2 = true
        · by_cases h3 : size ≤ 3
          · simp [decodeRune, hf, h1, hb, h2, hc, h3]
            rw [if_neg (by omega), if_neg (by omega)]
          · rw [if_neg (by simp; omega)] at h; simp only at h; rw [if_neg hb] at h; simp [hc] at h
        · simp [decodeRune, hf, h1, hb, h2, hc]
      | b1 :: b2 :: b3 :: p =>
        simp only [List.cons_append, decodeRune, hf]
        by_cases h1 : size = 1
        · simp [h1]
        · simp only [h1, if_false]
          have e1 : ¬ (b2 :: b3 :: (p ++ q)).length + 2 < size := by simp; omega
          have e2 : ¬ (b2 :: b3 :: p).length + 2 < size := by simp; omega
          simp only [e1, e2, if_false]

theorem notFull_decode {x : UInt8} {p : Bytes} (h : fullRune (x :: p) = false) : decodeRune (x :: p) = (runeError, 1) := by
  cases hf : utf8First x.toNat with
  | none => simp [fullRune, hf] at h
  | some v =>
    obtain ⟨size, lo, hi⟩ := v
    simp only [fullRune, hf] at h
    by_cases hs : size ≤ p.length + 1
    · rw [if_pos hs] at h; cases h
    have h1 : size ≠ 1 := by omega
    simp only [decodeRune, hf, h1, if_false]
    match p with
    | [] => rfl
    | b1 :: p =>
      have : p.length + 2 < size := by simp at hs; omega
      simp only [this, if_true]

theorem encode_ne_nil (c : Char) : String.utf8EncodeChar c ≠ [] := by
  unfold String.utf8EncodeChar
  simp only
  repeat' split
  all_goals simp

theorem full_encode (c : Char) (rest : Bytes) : fullRune (String.utf8EncodeChar c ++ rest) = true := by
  have h := decode_encode c rest
  cases hf : fullRune (String.utf8EncodeChar c ++ rest) with
  | true => rfl
  | false =>
    cases he : String.utf8EncodeChar c with
    | nil => exact absurd he (encode_ne_nil c)
    | cons x p =>
      rw [he] at h hf; rw [List.cons_append] at hf
      rw [List.cons_append, notFull_decode hf] at h
      simp only [Prod.mk.injEq] at h
      obtain ⟨rfl, h⟩ := h
      rw [← he] at h
      exact absurd h (by decide)

theorem u8_ext {x : UInt8} {n : Nat} (h : x.toNat = n) : UInt8.ofNat n = x := by
  subst h; exact UInt8.ofNat_toNat

theorem toNat_ofNat_char {n : Nat} (h : n < 55296 ∨ 57343 < n ∧ n < 1114112) : (Char.ofNat n).val.toNat = n := by
  have : n.isValidChar := h
  simp [Char.ofNat, this, Char.ofNatAux]

theorem encode1 {x : UInt8} (h : x.toNat < 128) : String.utf8EncodeChar (Char.ofNat x.toNat) = [x] := by
  have e := toNat_ofNat_char (n := x.toNat) (by omega)
  unfold String.utf8EncodeChar
  simp only [e]
  rw [if_pos (by omega)]
  simp

theorem encode2 {x y : UInt8} (h1 : 0xC2 ≤ x.toNat) (h2 : x.toNat < 0xE0) (h3 : 0x80 ≤ y.toNat) (h4 : y.toNat ≤ 0xBF) :
    String.utf8EncodeChar (Char.ofNat (x.toNat % 32 * 64 + y.toNat % 64)) = [x, y] := by
  have e := toNat_ofNat_char (n := x.toNat % 32 * 64 + y.toNat % 64) (by omega)
  unfold String.utf8EncodeChar
  simp only [e]
  rw [if_neg (by omega), if_pos (by omega)]
  congr 1
  · exact u8_ext (by omega)
  congr 1
  exact u8_ext (by omega)

theorem encode3 {x y z : UInt8} (hx : x.toNat / 16 = 14) (h3 : 0x80 ≤ y.toNat) (h4 : y.toNat ≤ 0xBF)
    (h5 : 0x80 ≤ z.toNat) (h6 : z.toNat ≤ 0xBF) (hlo : x.toNat = 0xE0 → 0xA0 ≤ y.toNat) (hhi : x.toNat = 0xED → y.toNat ≤ 0x9F) :
    String.utf8EncodeChar (Char.ofNat (x.toNat % 16 * 4096 + y.toNat % 64 * 64 + z.toNat % 64)) = [x, y, z] := by
  have e := toNat_ofNat_char (n := x.toNat % 16 * 4096 + y.toNat % 64 * 64 + z.toNat % 64) (by omega)
  unfold String.utf8EncodeChar
  simp only [e]
  rw [if_neg (by omega), if_neg (by omega), if_pos (by omega)]
  congr 1
  · exact u8_ext (by omega)
  congr 1
  · exact u8_ext (by omega)
  congr 1
  exact u8_ext (by omega)

theorem encode4 {x y z w : UInt8} (hx : 0xF0 ≤ x.toNat) (hx' : x.toNat ≤ 0xF4) (h3 : 0x80 ≤ y.toNat) (h4 : y.toNat ≤ 0xBF)
    (h5 : 0x80 ≤ z.toNat) (h6 : z.toNat ≤ 0xBF) (h7 : 0x80 ≤ w.toNat) (h8 : w.toNat ≤ 0xBF)
    (hlo : x.toNat = 0xF0 → 0x90 ≤ y.toNat) (hhi : x.toNat = 0xF4 → y.toNat ≤ 0x8F) :
    String.utf8EncodeChar (Char.ofNat (x.toNat % 8 * 262144 + y.toNat % 64 * 4096 + z.toNat % 64 * 64 + w.toNat % 64)) =
      [x, y, z, w] := by
  have e := toNat_ofNat_char (n := x.toNat % 8 * 262144 + y.toNat % 64 * 4096 + z.toNat % 64 * 64 + w.toNat % 64) (by omega)
  unfold String.utf8EncodeChar
  simp only [e]
  rw [if_neg (by omega), if_neg (by omega), if_neg (by omega)]
  congr 1
  · exact u8_ext (by omega)
  congr 1
  · exact u8_ext (by omega)
  congr 1
  · exact u8_ext (by omega)
  congr 1
  exact u8_ext (by omega)

theorem first_inv {n size lo hi : Nat} (h : utf8First n = some (size, lo, hi)) :
    (size = 1 ∧ n < 128) ∨ (size = 2 ∧ 0xC2 ≤ n ∧ n < 0xE0 ∧ lo = 0x80 ∧ hi = 0xBF) ∨
    (size = 3 ∧ n / 16 = 14 ∧ 0x80 ≤ lo ∧ hi ≤ 0xBF ∧ (n = 0xE0 → 0xA0 ≤ lo) ∧ (n = 0xED → hi ≤ 0x9F)) ∨
    (size = 4 ∧ 0xF0 ≤ n ∧ n ≤ 0xF4 ∧ 0x80 ≤ lo ∧ hi ≤ 0xBF ∧ (n = 0xF0 → 0x90 ≤ lo) ∧ (n = 0xF4 → hi ≤ 0x8F)) := by
  unfold utf8First at h
  repeat' split at h
  all_goals simp at h
  all_goals omega

theorem isCont_iff {b : UInt8} : isCont b = true ↔ 0x80 ≤ b.toNat ∧ b.toNat ≤ 0xBF := by simp [isCont]

/-- The first rune is the character whose encoding begins the bytes, or else `RuneError` with width 1. -/
theorem decode_spec (x : UInt8) (b : Bytes) :
    (∃ c r, x :: b = String.utf8EncodeChar c ++ r ∧ decodeRune (x :: b) = (c, (String.utf8EncodeChar c).length)) ∨
    decodeRune (x :: b) = (runeError, 1) := by
  by_cases hd : decodeRune (x :: b) = (runeError, 1)
  · exact .inr hd
  left
  suffices ∃ c r, x :: b = String.utf8EncodeChar c ++ r by
    obtain ⟨c, r, h⟩ := this
    exact ⟨c, r, h, by rw [h]; exact decode_encode c r⟩
  cases hf : utf8First x.toNat with
  | none => exact absurd (by simp [decodeRune, hf]) hd
  | some v =>
    obtain ⟨size, lo, hi⟩ := v
    simp only [decodeRune, hf] at hd
    rcases first_inv hf with ⟨rfl, h⟩ | ⟨rfl, h1, h2, rfl, rfl⟩ | ⟨rfl, h1, h2, h3, h4, h5⟩ | ⟨rfl, h1, h2, h3, h4, h5, h6⟩
    · exact ⟨_, b, by rw [encode1 h]; rfl⟩
    · match b with
      | [] => exact absurd rfl hd
      | y :: b =>
        have : 128 ≤ y.toNat ∧ y.toNat ≤ 0xBF := by
          apply Classical.byContradiction
          intro h
          apply hd
          rw [if_neg (by omega)]
          simp only
          rw [if_neg (by omega), if_pos (by omega)]
        exact ⟨_, b, by rw [encode2 h1 h2 this.1 this.2]; rfl⟩
    · match b with
      | [] => exact absurd rfl hd
      | y :: b =>
        rw [if_neg (by omega)] at hd
        simp only at hd
        split at hd
        · exact absurd rfl hd
        split at hd
        · exact absurd rfl hd
        rename_i hl hr
        rw [if_neg (by omega)] at hd
        match b with
        | [] => exact absurd rfl hd
        | z :: b =>
          simp only at hd
          split at hd
          · exact absurd rfl hd
          rename_i hc
          have hc := isCont_iff.1 (by simpa using hc : isCont z = true)
          exact ⟨_, b, by rw [encode3 (x := x) (y := y) (z := z) h1 (by omega) (by omega) (by omega) (by omega) (by omega) (by omega)]; rfl⟩
    · match b with
      | [] => exact absurd rfl hd
      | y :: b =>
        rw [if_neg (by omega)] at hd
        simp only at hd
        split at hd
        · exact absurd rfl hd
        split at hd
        · exact absurd rfl hd
        rename_i hl hr
        rw [if_neg (by omega)] at hd
        match b with
        | [] => exact absurd rfl hd
        | z :: b =>
          simp only at hd
          split at hd
          · exact absurd rfl hd
          rename_i hc
          have hc := isCont_iff.1 (by simpa using hc : isCont z = true)
          rw [if_neg (by omega)] at hd
          match b with
          | [] => exact absurd rfl hd
          | w :: b =>
            simp only at hd
            split at hd
            · exact absurd rfl hd
            rename_i hc'
            have hc' := isCont_iff.1 (by simpa using hc' : isCont w = true)
            exact ⟨_, b, by rw [encode4 (x := x) (y := y) (z := z) (w := w) (by omega) (by omega) (by omega) (by omega) (by omega) (by omega) (by omega) (by omega) (by omega) (by omega)]; rfl⟩

theorem decode_bad {x : UInt8} {b : Bytes} (h : decodeRune (x :: b) = (runeError, 1)) (c : Char) (r : Bytes) :
    x :: b ≠ String.utf8EncodeChar c ++ r := by
  intro e
  rw [e, decode_encode] at h
  simp only [Prod.mk.injEq] at h
  obtain ⟨rfl, h⟩ := h
  exact absurd h (by decide)

/-- Decoding goes on one rune at a time. -/
theorem decodes_cons {x : UInt8} {b : Bytes} {t : Str} (h : Decodes (x :: b) t) :
    ∃ t', t = (decodeRune (x :: b)).1 :: t' ∧ Decodes ((x :: b).drop (decodeRune (x :: b)).2) t' := by
  generalize e : x :: b = a at h
  cases h with
  | nil => cases e
  | rune c h => exact ⟨_, by rw [decode_encode], by rw [decode_encode]; simpa using h⟩
  | bad y hb h =>
    rcases decode_spec x b with ⟨c, r, h1, _⟩ | h1
    · rw [← e] at hb; exact absurd h1 (hb c r)
    · rw [← e, h1]
      cases e
      exact ⟨_, rfl, h⟩

theorem decodes_step {x : UInt8} {b : Bytes} {t : Str} (h : Decodes ((x :: b).drop (decodeRune (x :: b)).2) t) :
    Decodes (x :: b) ((decodeRune (x :: b)).1 :: t) := by
  rcases decode_spec x b with ⟨c, r, h1, h2⟩ | h1
  · rw [h2] at h ⊢
    rw [h1] at h ⊢
    exact .rune c (by simpa using h)
  · rw [h1] at h ⊢
    exact .bad x (decode_bad h1) h

theorem decodes_total (b : Bytes) : ∃ t, Decodes b t := by
  generalize hn : b.length = n
  induction n using Nat.strongRecOn generalizing b with
  | ind n ih =>
    cases b with
    | nil => exact ⟨[], .nil⟩
    | cons x b =>
      have := (decode_width x b).1
      obtain ⟨t, ht⟩ := ih _ (by subst hn; simp only [List.length_drop, List.length_cons]; omega) ((x :: b).drop (decodeRune (x :: b)).2) rfl
      exact ⟨_, decodes_step ht⟩

theorem decodes_nil {t : Str} (h : Decodes [] t) : t = [] := by
  generalize e : ([] : Bytes) = a at h
  cases h with
  | nil => rfl
  | rune c h => exact absurd (List.append_eq_nil_iff.1 e.symm).1 (encode_ne_nil c)
  | bad => cases e

theorem decodes_unique {b : Bytes} {t t' : Str} (h : Decodes b t) (h' : Decodes b t') : t = t' := by
  generalize hn : b.length = n
  induction n using Nat.strongRecOn generalizing b t t' with
  | ind n ih =>
    cases b with
    | nil => rw [decodes_nil h, decodes_nil h']
    | cons x b =>
      obtain ⟨t1, rfl, h1⟩ := decodes_cons h
      obtain ⟨t2, rfl, h2⟩ := decodes_cons h'
      have := (decode_width x b).1
      rw [ih _ (by subst hn; simp only [List.length_drop, List.length_cons]; omega) h1 h2 rfl]

theorem decodes_utf8 (s : Str) : Decodes (utf8 s) s := by
  induction s with
  | nil => exact .nil
  | cons c s ih => exact .rune c ih

theorem clean_empty {r : Reader} (h : ∀ x ∈ r, x.data = []) : Clean r := by
  induction r with
  | nil => exact .nil
  | cons x r ih =>
    have hr : ∀ x ∈ r, x.data = [] := fun y hy => h y (List.mem_cons_of_mem _ hy)
    obtain ⟨bs, e⟩ := x
    cases e
    · exact .more bs (ih hr)
    · exact .eof bs hr

theorem bytesOf_empty {r : Reader} (h : ∀ x ∈ r, x.data = []) : bytesOf r = [] := by
  simpa [bytesOf] using h

theorem fillBuf_spec {r : Reader} (hr : Clean r) (buf : Bytes) :
    (fillBuf buf r).1 ++ bytesOf (fillBuf buf r).2 = buf ++ bytesOf r ∧ Clean (fillBuf buf r).2 ∧
    (fullRune (fillBuf buf r).1 = true ∨ bytesOf (fillBuf buf r).2 = []) := by
  induction hr generalizing buf with
  | nil =>
    unfold fillBuf
    split
    · rename_i h; exact ⟨rfl, .nil, .inl h⟩
    · exact ⟨rfl, .nil, .inr rfl⟩
  | more bs hr ih =>
    unfold fillBuf
    split
    · rename_i h; exact ⟨rfl, .more bs hr, .inl h⟩
    · simp only [Bool.false_eq_true, if_false]
      have := ih (buf ++ bs)
      exact ⟨by rw [this.1]; simp [bytesOf], this.2⟩
  | eof bs hr =>
    unfold fillBuf
    split
    · rename_i h; exact ⟨rfl, .eof bs hr, .inl h⟩
    · simp only [if_true]
      exact ⟨by simp [bytesOf], clean_empty hr, .inr (bytesOf_empty hr)⟩

theorem scanNext_nil {r : Reader} {buf : Bytes} (hr : Clean r) (h : Decodes (buf ++ bytesOf r) []) :
    (scanNext buf r).1 = none := by
  obtain ⟨h1, h2, h3⟩ := fillBuf_spec hr buf
  have : buf ++ bytesOf r = [] := by
    cases e : buf ++ bytesOf r with
    | nil => rfl
    | cons x b =>
      rw [e] at h
      obtain ⟨_, h, _⟩ := decodes_cons h
      cases h
  rw [this] at h1
  unfold scanNext
  split
  · rfl
  · rename_i hf
    rw [hf] at h1
    cases h1

theorem scanNext_cons {r : Reader} {buf : Bytes} {c : Char} {t : Str} (hr : Clean r) (h : Decodes (buf ++ bytesOf r) (c :: t)) :
    ∃ buf' r', scanNext buf r = (some c, buf', r') ∧ Clean r' ∧ Decodes (buf' ++ bytesOf r') t := by
  obtain ⟨h1, h2, h3⟩ := fillBuf_spec hr buf
  generalize hf : fillBuf buf r = v at h1 h2 h3
  obtain ⟨buf1, r1⟩ := v
  simp only at h1 h2 h3
  rw [← h1] at h
  cases buf1 with
  | nil =>
    rcases h3 with h3 | h3
    · cases h3
    · rw [h3] at h; cases decodes_nil h
  | cons x b =>
    rw [List.cons_append] at h
    obtain ⟨t', e, h'⟩ := decodes_cons h
    have hd : decodeRune (x :: (b ++ bytesOf r1)) = decodeRune (x :: b) := by
      rcases h3 with h3 | h3
      · exact full_decode h3 _
      · rw [h3, List.append_nil]
    rw [hd] at e h'
    cases e
    refine ⟨_, r1, by unfold scanNext; rw [hf], h2, ?_⟩
    rw [← List.cons_append, List.drop_append_of_le_length (decode_width x b).2] at h'
    exact h'

/-- The scanner holds a text. -/
def Scanner.Has (s : Scanner) (l : Str) : Prop :=
  match s.ch with
  | none => Clean s.reads ∧ ∃ t, Decodes (s.buf ++ bytesOf s.reads) t ∧ l = dropBom t
  | some none => l = []
  | some (some c) => Clean s.reads ∧ ∃ t, Decodes (s.buf ++ bytesOf s.reads) t ∧ l = c :: t

theorem scanNext_has {buf : Bytes} {r : Reader} {l : Str} (hr : Clean r) (h : Decodes (buf ++ bytesOf r) l) :
    (scanNext buf r).1 = l.head? ∧
    Scanner.Has ⟨(scanNext buf r).2.1, (scanNext buf r).2.2, some (scanNext buf r).1⟩ l := by
  cases l with
  | nil =>
    have := scanNext_nil hr h
    refine ⟨this, ?_⟩
    simp [Scanner.Has, this]
  | cons c t =>
    obtain ⟨b, r', e, h1, h2⟩ := scanNext_cons hr h
    rw [e]
    exact ⟨rfl, h1, t, h2, rfl⟩

theorem peek_has {s : Scanner} {l : Str} (h : s.Has l) : s.peek.1 = l.head? ∧ s.peek.2.Has l ∧ s.peek.2.ch = some l.head? := by
  unfold Scanner.peek
  cases hc : s.ch with
  | some c =>
    simp only
    have h' := h
    simp only [Scanner.Has, hc] at h'
    cases c with
    | none => subst h'; exact ⟨rfl, h, hc⟩
    | some c => obtain ⟨_, t, _, rfl⟩ := h'; exact ⟨rfl, h, hc⟩
  | none =>
    simp only [Scanner.Has, hc] at h
    obtain ⟨hr, t, ht, rfl⟩ := h
    simp only
    cases t with
    | nil =>
      have := scanNext_has hr ht
      generalize scanNext s.buf s.reads = v at this
      obtain ⟨v1, v2, v3⟩ := v
      obtain ⟨h1, h2⟩ := this
      simp only [List.head?_nil] at h1 h2
      subst h1
      exact ⟨rfl, h2, rfl⟩
    | cons c t =>
      obtain ⟨b, r', e, h1, h2⟩ := scanNext_cons hr ht
      rw [e]
      by_cases hb : c = bom
      · subst hb
        have := scanNext_has h1 h2
        simp only [dropBom, bom, if_true]
        exact ⟨this.1, this.2, by rw [this.1]⟩
      · have hb' : c ≠ '\uFEFF' := hb
        split
        · rename_i heq; cases heq; exact absurd rfl hb'
        · rename_i heq
          cases heq
          simp only [dropBom, hb, if_false]
          exact ⟨rfl, ⟨h1, t, h2, rfl⟩, rfl⟩

theorem next_has {s : Scanner} {l : Str} (h : s.Has l) : s.next.1 = l.head? ∧ s.next.2.Has l.tail := by
  obtain ⟨h1, h2, h3⟩ := peek_has h
  unfold Scanner.next
  generalize s.peek = v at h1 h2 h3
  obtain ⟨v1, v2⟩ := v
  simp only at h1 h2 h3
  subst h1
  cases l with
  | nil => exact ⟨rfl, h2⟩
  | cons c l =>
    simp only [Scanner.Has, h3, List.head?_cons] at h2
    obtain ⟨hr, t, ht, e⟩ := h2
    cases e
    exact ⟨rfl, (scanNext_has hr ht).2⟩

theorem run_has {s : Scanner} {l : Str} (h : s.Has l) (cs : List Call) : s.run cs = answers cs l := by
  induction cs generalizing s l with
  | nil => rfl
  | cons c cs ih =>
    cases c
    · obtain ⟨h1, h2, _⟩ := peek_has h
      simp only [Scanner.run, answers, h1, ih h2]
    · obtain ⟨h1, h2⟩ := next_has h
      simp only [Scanner.run, answers, h1, ih h2]

theorem init_has {r : Reader} {t : Str} (hr : Clean r) (h : Decodes (bytesOf r) t) : (Scanner.init r).Has (dropBom t) :=
  ⟨hr, t, h, rfl⟩

/-! A read that fails. -/

/-- Bytes that are not a full rune are the beginning of a character. -/
theorem notFull_begins {x : UInt8} {p : Bytes} (h : fullRune (x :: p) = false) :
    ∃ q c, q ≠ [] ∧ (x :: p) ++ q = String.utf8EncodeChar c := by
  cases hf : utf8First x.toNat with
  | none => simp [fullRune, hf] at h
  | some v =>
    obtain ⟨size, lo, hi⟩ := v
    have hlo : lo ≤ hi ∧ lo < 256 ∨ size = 1 := by
      unfold utf8First at hf
      repeat' split at hf
      all_goals simp at hf
      all_goals omega
    have h80 : (0x80 : UInt8).toNat = 0x80 := rfl
    have hl : lo < 256 → (UInt8.ofNat lo).toNat = lo := toNat_ofNat8
    simp only [fullRune, hf] at h
    split at h
    · cases h
    rename_i hs
    rcases first_inv hf with ⟨rfl, h0⟩ | ⟨rfl, h1, h2, rfl, rfl⟩ | ⟨rfl, h1, h2, h3, h4, h5⟩ | ⟨rfl, h1, h2, h3, h4, h5, h6⟩
    · omega
    · match p with
      | [] => exact ⟨[0x80], _, by simp, (encode2 (x := x) (y := 0x80) h1 h2 (by decide) (by decide)).symm⟩
      | y :: p => simp only [List.length_cons] at hs; omega
    · rcases hlo with hlo | hlo
      · match p with
        | [] =>
          have hl := hl hlo.2
          exact ⟨[UInt8.ofNat lo, 0x80], _, by simp, (encode3 (x := x) (y := UInt8.ofNat lo) (z := 0x80) h1 (by omega)
            (by omega) (by decide) (by decide) (by omega) (by omega)).symm⟩
        | [y] =>
          simp only at h
          split at h
          · cases h
          · exact ⟨[0x80], _, by simp, (encode3 (x := x) (y := y) (z := 0x80) h1 (by omega)
              (by omega) (by decide) (by decide) (by omega) (by omega)).symm⟩
        | y :: z :: p => simp only [List.length_cons] at hs; omega
      · omega
    · rcases hlo with hlo | hlo
      · match p with
        | [] =>
          have hl := hl hlo.2
          exact ⟨[UInt8.ofNat lo, 0x80, 0x80], _, by simp, (encode4 (x := x) (y := UInt8.ofNat lo) (z := 0x80) (w := 0x80)
            h1 h2 (by omega) (by omega) (by decide) (by decide) (by decide) (by decide) (by omega) (by omega)).symm⟩
        | [y] =>
          simp only at h
          split at h
          · cases h
          · exact ⟨[0x80, 0x80], _, by simp, (encode4 (x := x) (y := y) (z := 0x80) (w := 0x80)
            h1 h2 (by omega) (by omega) (by decide) (by decide) (by decide) (by decide) (by omega) (by omega)).symm⟩
        | [y, z] =>
          simp only at h
          split at h
          · cases h
          · have hz := isCont_iff.1 (by simpa using h : isCont z = true)
            exact ⟨[0x80], _, by simp, (encode4 (x := x) (y := y) (z := z) (w := 0x80)
              h1 h2 (by omega) (by omega) hz.1 hz.2 (by decide) (by decide) (by omega) (by omega)).symm⟩
        | y :: z :: w :: p => simp only [List.length_cons] at hs; omega
      · omega

theorem whole_full {b : Bytes} (h : Whole b) (hb : b ≠ []) : fullRune b = true := by
  cases b with
  | nil => exact absurd rfl hb
  | cons x p =>
    cases hf : fullRune (x :: p) with
    | true => rfl
    | false =>
      obtain ⟨q, c, hq, e⟩ := notFull_begins hf
      exact absurd e (h [] (x :: p) q c rfl hb hq)

theorem whole_tail {a b : Bytes} (h : Whole (a ++ b)) : Whole b := by
  intro a' p q c e hp hq
  exact h (a ++ a') p q c (by rw [e, List.append_assoc]) hp hq

theorem encode_head {c : Char} {x : UInt8} {l : Bytes} (h : String.utf8EncodeChar c = x :: l) : isCont x = false := by
  have hv := char_val_lt c
  have hn : c.toNat = c.val.toNat := rfl
  unfold String.utf8EncodeChar at h
  simp only at h
  repeat' split at h
  all_goals
    cases h
    simp only [isCont, Bool.and_eq_false_iff, decide_eq_false_iff_not]
    rw [toNat_ofNat8 (by omega)]
    omega

theorem encode_tail {c : Char} {x : UInt8} {a l : Bytes} (ha : a ≠ []) (h : String.utf8EncodeChar c = a ++ x :: l) :
    isCont x = true := by
  have hx : x ∈ (String.utf8EncodeChar c).tail := by
    rw [h]
    cases a with
    | nil => exact absurd rfl ha
    | cons y a => simp
  unfold String.utf8EncodeChar at hx
  simp only at hx
  repeat' split at hx
  all_goals
    simp only [List.tail_cons, List.mem_cons, List.not_mem_nil, or_false] at hx
  · rw [hx]; exact isCont_ofNat _
  · rcases hx with rfl | rfl <;> exact isCont_ofNat _
  · rcases hx with rfl | rfl | rfl <;> exact isCont_ofNat _

/-- Valid UTF-8 does not end within a character. -/
theorem whole_utf8 (s : Str) : Whole (utf8 s) := by
  induction s with
  | nil => intro a p q c e hp; exact absurd (List.append_eq_nil_iff.1 e.symm).2 hp
  | cons d s ih =>
    intro a p q c e hp hq he
    change String.utf8EncodeChar d ++ utf8 s = a ++ p at e
    rcases List.append_eq_append_iff.1 e with ⟨m, rfl, h2⟩ | ⟨m, h1, rfl⟩
    · exact ih m p q c h2 hp hq he
    · cases a with
      | nil =>
        simp only [List.nil_append] at h1
        subst h1
        have h := decode_encode d (utf8 s ++ q)
        rw [← List.append_assoc, he] at h
        have h' := decode_encode c []
        rw [List.append_nil, h] at h'
        cases h'
        have hl := congrArg List.length he
        simp only [List.length_append] at hl
        exact hq (List.length_eq_zero_iff.1 (by omega))
      | cons y a =>
        cases m with
        | nil =>
          simp only [List.nil_append] at he
          exact ih [] (utf8 s) q c rfl (by simpa using hp) hq he
        | cons x m =>
          have h1 := encode_tail (by simp) h1
          have h2 := encode_head (c := c) (x := x) (l := m ++ utf8 s ++ q) (by rw [← he]; simp)
          rw [h1] at h2
          cases h2

theorem fillBuf_err {cs : Reader} (hc : ∀ x ∈ cs, x.err = false) (rs : Reader) (buf : Bytes) (hv : Whole (buf ++ bytesOf cs)) :
    (∃ cs', fillBuf buf cs = ((fillBuf buf cs).1, cs') ∧ fillBuf buf (cs ++ ⟨[], true⟩ :: rs) = ((fillBuf buf cs).1, cs' ++ ⟨[], true⟩ :: rs) ∧
      ∀ x ∈ cs', x.err = false) ∨
    (buf ++ bytesOf cs = [] ∧ (fillBuf buf (cs ++ ⟨[], true⟩ :: rs)).1 = []) := by
  induction cs generalizing buf with
  | nil =>
    simp only [bytesOf, List.flatMap_nil, List.append_nil] at hv ⊢
    cases buf with
    | nil => right; exact ⟨rfl, by simp [fillBuf, fullRune]⟩
    | cons c s =>
      left
      have := whole_full hv (by simp)
      exact ⟨[], by simp [fillBuf, this], by simp [fillBuf, this], by simp⟩
  | cons x cs ih =>
    obtain ⟨bs, e⟩ := x
    cases hc _ (List.mem_cons_self ..)
    by_cases hf : fullRune buf = true
    · exact .inl ⟨_, by unfold fillBuf; rw [if_pos hf], by
        unfold fillBuf; rw [if_pos hf, if_pos hf], hc⟩
    · have e1 : fillBuf buf (⟨bs, false⟩ :: cs) = fillBuf (buf ++ bs) cs := by
        rw [fillBuf.eq_def]; simp [hf]
      have e2 : fillBuf buf (⟨bs, false⟩ :: cs ++ ⟨[], true⟩ :: rs) = fillBuf (buf ++ bs) (cs ++ ⟨[], true⟩ :: rs) := by
        rw [fillBuf.eq_def]; simp [hf]
      have e3 : buf ++ bytesOf (⟨bs, false⟩ :: cs) = (buf ++ bs) ++ bytesOf cs := by simp [bytesOf]
      rw [e1, e2, e3]
      rw [e3] at hv
      exact ih (fun x hx => hc x (List.mem_cons_of_mem _ hx)) _ hv

theorem clean_noerr {cs : Reader} (hc : ∀ x ∈ cs, x.err = false) : Clean cs := by
  induction cs with
  | nil => exact .nil
  | cons x cs ih =>
    obtain ⟨bs, e⟩ := x
    cases hc _ (List.mem_cons_self ..)
    exact .more bs (ih fun x hx => hc x (List.mem_cons_of_mem _ hx))

theorem scanNext_nil_err {cs : Reader} (hc : ∀ x ∈ cs, x.err = false) (rs : Reader) {buf : Bytes}
    (he : buf ++ bytesOf cs = []) : (scanNext buf (cs ++ ⟨[], true⟩ :: rs)).1 = none := by
  have : (fillBuf buf (cs ++ ⟨[], true⟩ :: rs)).1 = [] := by
    rcases fillBuf_err hc rs buf (he ▸ fun a p q c e hp => absurd (List.append_eq_nil_iff.1 e.symm).2 hp) with ⟨cs', h1, h2, h3⟩ | h
    · have := (fillBuf_spec (clean_noerr hc) buf).1
      rw [he] at this
      rw [h2]
      exact (List.append_eq_nil_iff.1 this).1
    · exact h.2
  unfold scanNext
  split
  · rfl
  · rename_i hf; rw [hf] at this; cases this

theorem scanNext_cons_err {cs : Reader} (hc : ∀ x ∈ cs, x.err = false) (rs : Reader) {buf : Bytes} {c : Char} {t : Str}
    (hd : Decodes (buf ++ bytesOf cs) (c :: t)) (hw : Whole (buf ++ bytesOf cs)) :
    ∃ buf' cs', scanNext buf (cs ++ ⟨[], true⟩ :: rs) = (some c, buf', cs' ++ ⟨[], true⟩ :: rs) ∧ (∀ x ∈ cs', x.err = false) ∧
      Decodes (buf' ++ bytesOf cs') t ∧ Whole (buf' ++ bytesOf cs') := by
  rcases fillBuf_err hc rs buf hw with ⟨cs', h1, h2, h3⟩ | h
  · have hs := (fillBuf_spec (clean_noerr hc) buf)
    rw [h1] at hs
    obtain ⟨i1, i2, i3⟩ := hs
    simp only at i1 i2 i3
    generalize (fillBuf buf cs).1 = b1 at h1 h2 i1 i3
    rw [← i1] at hd hw
    cases b1 with
    | nil =>
      rcases i3 with i3 | i3
      · cases i3
      · rw [i3] at hd; cases decodes_nil hd
    | cons x b =>
      obtain ⟨t', e, hd'⟩ := decodes_cons hd
      have hdd : decodeRune ((x :: b) ++ bytesOf cs') = decodeRune (x :: b) := by
        rcases i3 with i3 | i3
        · exact full_decode i3 _
        · rw [i3, List.append_nil]
      have hdd : decodeRune (x :: b.append (bytesOf cs')) = decodeRune (x :: b) := hdd
      rw [hdd] at e hd'
      change Decodes (((x :: b) ++ bytesOf cs').drop _) t' at hd'
      cases e
      have hl := (decode_width x b).2
      rw [List.drop_append_of_le_length hl] at hd'
      refine ⟨_, cs', by unfold scanNext; rw [h2], h3, hd', ?_⟩
      refine whole_tail (a := (x :: b).take (decodeRune (x :: b)).2) ?_
      rw [← List.append_assoc, List.take_append_drop]
      exact hw
  · rw [h.1] at hd
    cases decodes_nil hd

theorem decodes_nil_inv {b : Bytes} (h : Decodes b []) : b = [] := by cases h; rfl

/-- The scanner holds a text, before a read that fails. -/
def Scanner.HasErr (rs : Reader) (s : Scanner) (l : Str) : Prop :=
  match s.ch with
  | none => ∃ cs t, s.reads = cs ++ ⟨[], true⟩ :: rs ∧ (∀ x ∈ cs, x.err = false) ∧ (Decodes (s.buf ++ bytesOf cs) t ∧ Whole (s.buf ++ bytesOf cs)) ∧ l = dropBom t
  | some none => l = []
  | some (some c) => ∃ cs t, s.reads = cs ++ ⟨[], true⟩ :: rs ∧ (∀ x ∈ cs, x.err = false) ∧ (Decodes (s.buf ++ bytesOf cs) t ∧ Whole (s.buf ++ bytesOf cs)) ∧
      l = c :: t

theorem scanNext_hasErr {cs : Reader} (hc : ∀ x ∈ cs, x.err = false) (rs : Reader) {buf : Bytes} {l : Str}
    (h : Decodes (buf ++ bytesOf cs) l ∧ Whole (buf ++ bytesOf cs)) :
    (scanNext buf (cs ++ ⟨[], true⟩ :: rs)).1 = l.head? ∧
    Scanner.HasErr rs ⟨(scanNext buf (cs ++ ⟨[], true⟩ :: rs)).2.1, (scanNext buf (cs ++ ⟨[], true⟩ :: rs)).2.2,
      some (scanNext buf (cs ++ ⟨[], true⟩ :: rs)).1⟩ l := by
  cases l with
  | nil =>
    have := scanNext_nil_err hc rs (decodes_nil_inv h.1)
    refine ⟨this, ?_⟩
    simp [Scanner.HasErr, this]
  | cons c t =>
    obtain ⟨b, r', e, h1, h2⟩ := scanNext_cons_err hc rs h.1 h.2
    rw [e]
    exact ⟨rfl, r', t, rfl, h1, h2, rfl⟩

theorem peek_hasErr {rs : Reader} {s : Scanner} {l : Str} (h : s.HasErr rs l) :
    s.peek.1 = l.head? ∧ s.peek.2.HasErr rs l ∧ s.peek.2.ch = some l.head? := by
  unfold Scanner.peek
  cases hc : s.ch with
  | some c =>
    simp only
    have h' := h
    simp only [Scanner.HasErr, hc] at h'
    cases c with
    | none => subst h'; exact ⟨rfl, h, hc⟩
    | some c => obtain ⟨_, t, _, _, _, rfl⟩ := h'; exact ⟨rfl, h, hc⟩
  | none =>
    simp only [Scanner.HasErr, hc] at h
    obtain ⟨cs, t, hr, hn, ht, rfl⟩ := h
    simp only [hr]
    cases t with
    | nil =>
      have := scanNext_hasErr hn rs ht
      generalize scanNext s.buf (cs ++ ⟨[], true⟩ :: rs) = v at this
      obtain ⟨v1, v2, v3⟩ := v
      obtain ⟨h1, h2⟩ := this
      simp only [List.head?_nil] at h1 h2
      subst h1
      exact ⟨rfl, h2, rfl⟩
    | cons c t =>
      obtain ⟨b, r', e, h1, h2⟩ := scanNext_cons_err hn rs ht.1 ht.2
      rw [e]
      by_cases hb : c = bom
      · subst hb
        have := scanNext_hasErr h1 rs h2
        simp only [dropBom, bom, if_true]
        exact ⟨this.1, this.2, by rw [this.1]⟩
      · have hb' : c ≠ '\uFEFF' := hb
        split
        · rename_i heq; cases heq; exact absurd rfl hb'
        · rename_i heq
          cases heq
          simp only [dropBom, hb, if_false]
          exact ⟨rfl, ⟨r', t, rfl, h1, h2, rfl⟩, rfl⟩

theorem next_hasErr {rs : Reader} {s : Scanner} {l : Str} (h : s.HasErr rs l) :
    s.next.1 = l.head? ∧ s.next.2.HasErr rs l.tail := by
  obtain ⟨h1, h2, h3⟩ := peek_hasErr h
  unfold Scanner.next
  generalize s.peek = v at h1 h2 h3
  obtain ⟨v1, v2⟩ := v
  simp only at h1 h2 h3
  subst h1
  cases l with
  | nil => exact ⟨rfl, h2⟩
  | cons c l =>
    simp only [Scanner.HasErr, h3, List.head?_cons] at h2
    obtain ⟨cs, t, hr, hn, ht, e⟩ := h2
    cases e
    simp only [List.head?_cons]
    rw [hr]
    exact ⟨trivial, (scanNext_hasErr hn rs ht).2⟩

theorem run_hasErr {rs : Reader} {s : Scanner} {l : Str} (h : s.HasErr rs l) (cs : List Call) : s.run cs = answers cs l := by
  induction cs generalizing s l with
  | nil => rfl
  | cons c cs ih =>
    cases c
    · obtain ⟨h1, h2, _⟩ := peek_hasErr h
      simp only [Scanner.run, answers, h1, ih h2]
    · obtain ⟨h1, h2⟩ := next_hasErr h
      simp only [Scanner.run, answers, h1, ih h2]

theorem scanNext_errBit {s : Str} (hs : s ≠ []) (r : Reader) (e : Bool) :
    scanNext [] (⟨utf8 s, e⟩ :: r) = scanNext (utf8 s) r := by
  cases s with
  | nil => exact absurd rfl hs
  | cons c s =>
    have hf : fullRune (utf8 (c :: s)) = true := full_encode c _
    have h1 : fillBuf (utf8 (c :: s)) r = (utf8 (c :: s), r) := by rw [fillBuf.eq_def, if_pos hf]
    have h2 : fillBuf [] (⟨utf8 (c :: s), e⟩ :: r) = (utf8 (c :: s), r) := by
      rw [fillBuf.eq_def, if_neg (by simp [fullRune])]
      simp only [List.nil_append, h1, ite_self]
    unfold scanNext
    rw [h1, h2]

theorem run_errBit {s : Str} (hs : s ≠ []) (r : Reader) (e e' : Bool) (cs : List Call) :
    (Scanner.init (⟨utf8 s, e⟩ :: r)).run cs = (Scanner.init (⟨utf8 s, e'⟩ :: r)).run cs := by
  have hp : (Scanner.init (⟨utf8 s, e⟩ :: r)).peek = (Scanner.init (⟨utf8 s, e'⟩ :: r)).peek := by
    simp only [Scanner.peek, Scanner.init, scanNext_errBit hs]
  cases cs with
  | nil => rfl
  | cons c cs =>
    cases c
    · simp only [Scanner.run, hp]
    · simp only [Scanner.run, Scanner.next, hp]

end Verif
