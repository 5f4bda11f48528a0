/-
Lemmas for C89.
-/
import Verif.Model.Slices

namespace Verif

theorem Arrays.put_same (m : Arrays) (a : Nat) (l : List (Option Nat)) : (m.put a l).mem a = l := by simp [Arrays.put]

/-- Cells of the array, element by element. -/
theorem Arrays.see_get (m : Arrays) (s : Slice) (k : Nat) :
    (m.see s)[k]? = if k < s.len then (m.mem s.arr)[s.off + k]? else none := by
  simp only [Arrays.see, List.getElem?_take, List.getElem?_drop]

/-- Shifting to the right by one and writing the gap. -/
theorem shift_right {a : List (Option Nat)} {o l i : Nat} (hi : i < l) (hl : o + l ≤ a.length) (x : Option Nat) (k : Nat) :
    ((a.take (o + (i + 1)) ++ (a.drop (o + i)).take (l - (i + 1)) ++ a.drop (o + (i + 1) + (l - (i + 1)))).set (o + i) x)[k]? =
      if k = o + i then some x else if o + i < k ∧ k < o + l then a[k - 1]? else a[k]? := by
  rw [List.getElem?_set]
  have hlen : (a.take (o + (i + 1)) ++ (a.drop (o + i)).take (l - (i + 1))).length = o + l := by
    simp; omega
  have hlen1 : (a.take (o + (i + 1))).length = o + (i + 1) := by simp; omega
  by_cases h1 : k = o + i
  · subst h1
    rw [if_pos rfl, if_pos rfl, if_pos]
    rw [List.length_append, hlen]; omega
  rw [if_neg (Ne.symm h1), if_neg h1]
  by_cases h2 : k < o + l
  · rw [List.getElem?_append_left (by omega)]
    by_cases h3 : k < o + (i + 1)
    · rw [List.getElem?_append_left (by omega), if_neg (by omega), List.getElem?_take, if_pos h3]
    · rw [List.getElem?_append_right (by omega), if_pos (by omega), List.getElem?_take, if_pos (by omega),
        List.getElem?_drop, hlen1]
      congr 1; omega
  · rw [List.getElem?_append_right (by omega), if_neg (by omega), List.getElem?_drop, hlen]
    congr 1; omega

/-- The same without writing: the element is there twice. -/
theorem shift_right' {a : List (Option Nat)} {o l i : Nat} (hi : i < l) (hl : o + l ≤ a.length) (k : Nat) :
    (a.take (o + (i + 1)) ++ (a.drop (o + i)).take (l - (i + 1)) ++ a.drop (o + (i + 1) + (l - (i + 1))))[k]? =
      if o + i < k ∧ k < o + l then a[k - 1]? else a[k]? := by
  have hlen : (a.take (o + (i + 1)) ++ (a.drop (o + i)).take (l - (i + 1))).length = o + l := by
    simp; omega
  have hlen1 : (a.take (o + (i + 1))).length = o + (i + 1) := by simp; omega
  by_cases h2 : k < o + l
  · rw [List.getElem?_append_left (by omega)]
    by_cases h3 : k < o + (i + 1)
    · rw [List.getElem?_append_left (by omega), if_neg (by omega), List.getElem?_take, if_pos h3]
    · rw [List.getElem?_append_right (by omega), if_pos (by omega), List.getElem?_take, if_pos (by omega),
        List.getElem?_drop, hlen1]
      congr 1; omega
  · rw [List.getElem?_append_right (by omega), if_neg (by omega), List.getElem?_drop, hlen]
    congr 1; omega

/-- Shifting to the left by one and clearing the last cell. -/
theorem shift_left {a : List (Option Nat)} {o l i : Nat} (hi : i < l) (hl : o + l ≤ a.length) (k : Nat) :
    ((a.take (o + i) ++ (a.drop (o + (i + 1))).take (l - (i + 1)) ++ a.drop (o + i + (l - (i + 1)))).set (o + (l - 1)) none)[k]? =
      if k = o + (l - 1) then some none else if o + i ≤ k ∧ k < o + l then a[k + 1]? else a[k]? := by
  rw [List.getElem?_set]
  have hlen : (a.take (o + i) ++ (a.drop (o + (i + 1))).take (l - (i + 1))).length = o + (l - 1) := by
    simp; omega
  have hlen1 : (a.take (o + i)).length = o + i := by simp; omega
  by_cases h1 : k = o + (l - 1)
  · subst h1
    rw [if_pos rfl, if_pos rfl, if_pos]
    simp only [List.length_append, hlen, List.length_drop]; omega
  rw [if_neg (Ne.symm h1), if_neg h1]
  by_cases h2 : k < o + (l - 1)
  · rw [List.getElem?_append_left (by omega)]
    by_cases h3 : k < o + i
    · rw [List.getElem?_append_left (by omega), if_neg (by omega), List.getElem?_take, if_pos h3]
    · rw [List.getElem?_append_right (by omega), if_pos (by omega), List.getElem?_take, if_pos (by omega),
        List.getElem?_drop, hlen1]
      congr 1; omega
  · rw [List.getElem?_append_right (by omega), if_neg (by omega), List.getElem?_drop, hlen]
    congr 1; omega

theorem Arrays.see_length {m : Arrays} (h : m.Sound) : (m.see m.field).length = m.field.len := by
  have := h.len; have := h.cap
  simp [Arrays.see]; omega

/-- The appended slice: one more element, nil; what was there before; and what the old slice still shows. -/
theorem appendNil_spec {m : Arrays} (h : m.Sound) (extra : Nat) :
    (m.appendNil extra).Sound ∧ (m.appendNil extra).field.len = m.field.len + 1 ∧
    (m.appendNil extra).see (m.appendNil extra).field = m.see m.field ++ [none] ∧
    (m.appendNil extra).see m.field = m.see m.field ∧
    ((m.appendNil extra).field.arr = m.field.arr → (m.appendNil extra).field.off = m.field.off ∧
      m.field.len < m.field.cap ∧ (m.appendNil extra).field.cap = m.field.cap) ∧
    ((m.appendNil extra).field.arr = m.field.arr ∨ (m.appendNil extra).field.arr = m.next ∧ m.field.len = m.field.cap) := by
  have h1 := h.len; have h2 := h.cap; have h3 := h.fresh
  have hl := Arrays.see_length h
  unfold Arrays.appendNil
  simp only
  split
  · rename_i hc
    refine ⟨⟨by simp; omega, by simpa [Arrays.put] using h2, by simpa [Arrays.put] using h3⟩, rfl, ?_, ?_,
      fun _ => ⟨rfl, hc, rfl⟩, .inl rfl⟩
    · apply List.ext_getElem?
      intro k
      rw [Arrays.see_get]
      simp only [Arrays.put, if_true]
      rw [List.getElem?_set]
      by_cases hk : k < m.field.len
      · rw [List.getElem?_append_left (by omega), Arrays.see_get, if_pos hk, if_pos (by omega), if_neg (by omega)]
      · rw [List.getElem?_append_right (by omega), hl]
        by_cases hk' : k = m.field.len
        · subst hk'; simp; omega
        · rw [if_neg (by omega), List.getElem?_eq_none (by simp; omega)]
    · apply List.ext_getElem?
      intro k
      rw [Arrays.see_get, Arrays.see_get]
      simp only [Arrays.put, if_true]
      split
      · rw [List.getElem?_set, if_neg (by omega)]
      · rfl
  · rename_i hc
    have hne : m.field.arr ≠ m.next := by omega
    refine ⟨⟨by simp, by simp [Arrays.put, hl]; omega, by simp⟩, rfl, ?_, ?_, fun he => absurd he.symm hne,
      .inr ⟨rfl, by omega⟩⟩
    · simp only [Arrays.see, Arrays.put, if_true, List.drop_zero]
      have := hl
      simp only [Arrays.see] at this
      rw [List.take_append, this, List.take_of_length_le (by omega)]
      simp
    · simp only [Arrays.see, Arrays.put, if_neg hne]

/-- An insertion at `j`, also if it panics: then the element that was there is there twice, or there is a nil at the end. -/
theorem insert_spec {m : Arrays} (h : m.Sound) (extra j n : Nat) (fits : Bool) :
    ∃ m' x, m.insertBefore extra j n fits = (if j ≤ m.field.len ∧ fits = true then .ok m' else .panic m') ∧
      x = (if fits then some n else ((m.see m.field)[j]?).getD none) ∧ m'.Sound ∧ m'.field.len = m.field.len + 1 ∧
      m'.see m'.field = (if j ≤ m.field.len then (m.see m.field).insertIdx j x else m.see m.field ++ [none]) ∧
      m'.see m.field = if m.field.len < m.field.cap then (m'.see m'.field).take m.field.len else m.see m.field := by
  obtain ⟨a1, a2, a3, a4, a5, a6⟩ := appendNil_spec h extra
  have hl := Arrays.see_length h
  have b1 := a1.len
  have b2 := a1.cap
  unfold Arrays.insertBefore
  simp only
  generalize m.appendNil extra = m1 at *
  simp only [Slice.sub, b1, and_true]
  by_cases hj : j ≤ m.field.len
  · rw [if_pos (by omega), if_pos (by omega)]
    have hmin : min (m1.field.len - (j + 1)) (m1.field.len - j) = m1.field.len - (j + 1) := by omega
    simp only [Arrays.copy, hmin]
    have hlen0 : ∀ k : Nat, (m1.see m1.field)[k]? = (m.see m.field ++ [none])[k]? := fun k => by rw [a3]
    have hcell : ∀ k : Nat, k < m1.field.len → (m1.mem m1.field.arr)[m1.field.off + k]? = (m.see m.field ++ [none])[k]? := by
      intro k hk
      rw [← hlen0, Arrays.see_get, if_pos hk]
    -- what an array with the shifted cells shows
    have key : ∀ (m' : Arrays) (x : Option Nat), m'.field = m1.field →
        (∀ k : Nat, (m'.mem m1.field.arr)[k]? = if k = m1.field.off + j then some x else
          if m1.field.off + j < k ∧ k < m1.field.off + m1.field.len then (m1.mem m1.field.arr)[k - 1]?
          else (m1.mem m1.field.arr)[k]?) → (∀ b, b ≠ m1.field.arr → m'.mem b = m1.mem b) →
        m'.see m'.field = (m.see m.field).insertIdx j x ∧
          m'.see m.field = if m.field.len < m.field.cap then (m'.see m'.field).take m.field.len else m.see m.field := by
      intro m' x hf hc hb
      have e : m'.see m'.field = (m.see m.field).insertIdx j x := by
        apply List.ext_getElem?
        intro k
        rw [Arrays.see_get, hf, hc, List.getElem?_insertIdx, hl]
        by_cases h1 : k < j
        · rw [if_pos (by omega), if_neg (by omega), if_neg (by omega), hcell k (by omega), if_pos h1,
            List.getElem?_append_left (by omega)]
        · rw [if_neg h1]
          by_cases h2 : k = j
          · subst h2
            rw [if_pos (by omega), if_pos rfl, if_pos rfl, if_pos hj]
          · rw [if_neg h2]
            by_cases h3 : k < m1.field.len
            · rw [if_pos h3, if_neg (by omega), if_pos (by omega),
                show m1.field.off + k - 1 = m1.field.off + (k - 1) by omega, hcell _ (by omega),
                List.getElem?_append_left (by omega)]
            · rw [if_neg h3, List.getElem?_eq_none (by omega)]
      refine ⟨e, ?_⟩
      rcases a6 with ha | ⟨ha, hfull⟩
      · obtain ⟨c1, c2, c3⟩ := a5 ha
        rw [if_pos c2, hf]
        simp only [Arrays.see, ha, c1, a2, List.take_take]
        congr 1
        omega
      · rw [if_neg (by omega), ← a4]
        simp only [Arrays.see]
        rw [hb _ (by have := h.fresh; omega)]
    have hset := fun x k => shift_right (a := m1.mem m1.field.arr) (o := m1.field.off) (l := m1.field.len) (i := j)
      (by omega) (by omega) x k
    have hset' := fun k => shift_right' (a := m1.mem m1.field.arr) (o := m1.field.off) (l := m1.field.len) (i := j)
      (by omega) (by omega) k
    obtain ⟨S, hS⟩ : ∃ S, (m1.mem m1.field.arr).take (m1.field.off + (j + 1)) ++
      ((m1.mem m1.field.arr).drop (m1.field.off + j)).take (m1.field.len - (j + 1)) ++
      (m1.mem m1.field.arr).drop (m1.field.off + (j + 1) + (m1.field.len - (j + 1))) = S := ⟨_, rfl⟩
    have hSl : m1.field.off + m1.field.cap ≤ S.length := by
      rw [← hS]; simp only [List.length_append, List.length_take, List.length_drop]; omega
    simp only [hS] at hset hset' ⊢
    cases fits with
    | true =>
      refine ⟨(m1.put m1.field.arr S).put m1.field.arr (S.set (m1.field.off + j) (some n)), _, ?_, rfl, ?_⟩
      · rw [if_pos ⟨hj, rfl⟩, Arrays.setAt, if_pos ⟨by show j < m1.field.len; omega, rfl⟩]
        simp only [Arrays.put, if_true]
      · have := key ((m1.put m1.field.arr S).put m1.field.arr (S.set (m1.field.off + j) (some n))) (some n) rfl
          (fun k => by rw [Arrays.put_same]; exact hset (some n) k)
          (fun b hb => by simp only [Arrays.put, if_neg hb])
        refine ⟨⟨b1, ?_, a1.fresh⟩, a2, by rw [if_pos hj]; exact this.1, this.2⟩
        simpa [Arrays.put] using hSl
    | false =>
      refine ⟨m1.put m1.field.arr S, _, ?_, rfl, ?_⟩
      · rw [if_neg (by simp), Arrays.setAt, if_neg (by simp)]
      · have hx : (m1.mem m1.field.arr)[m1.field.off + j]? = some (((m.see m.field)[j]?).getD none) := by
          rw [hcell j (by omega)]
          by_cases hjl : j < m.field.len
          · rw [List.getElem?_append_left (by omega), List.getElem?_eq_getElem (by omega)]; rfl
          · have : j = (m.see m.field).length := by omega
            rw [this, List.getElem?_append_right (Nat.le_refl _), List.getElem?_eq_none (Nat.le_refl _)]; simp
        have := key (m1.put m1.field.arr S) (((m.see m.field)[j]?).getD none) rfl (fun k => by
            rw [Arrays.put_same, hset']
            by_cases hk : k = m1.field.off + j
            · subst hk; rw [if_neg (by omega), if_pos rfl, hx]
            · rw [if_neg hk])
          (fun b hb => by simp only [Arrays.put, if_neg hb])
        refine ⟨⟨b1, ?_, a1.fresh⟩, a2, by rw [if_pos hj]; exact this.1, this.2⟩
        simpa [Arrays.put] using hSl
  · rw [if_neg (c := j + 1 ≤ m1.field.len) (by omega)]
    refine ⟨m1, _, by rw [if_neg (c := j ≤ m.field.len ∧ fits = true) (fun h => hj h.1)], rfl, a1, a2,
      by rw [if_neg hj]; exact a3, ?_⟩
    rw [a4, a3]
    split
    · rw [List.take_append_of_le_length (by omega), List.take_of_length_le (by omega)]
    · rfl

theorem delete_spec {m : Arrays} (h : m.Sound) (i : Nat) :
    if i < m.field.len then ∃ m', m.delete i = .ok m' ∧ m'.Sound ∧ m'.see m'.field = (m.see m.field).eraseIdx i ∧
      m'.see m.field = (m.see m.field).eraseIdx i ++ [none]
    else m.delete i = .panic m := by
  have b1 := h.len
  have b2 := h.cap
  have hl := Arrays.see_length h
  unfold Arrays.delete
  simp only [Slice.sub, b1, and_true]
  split
  · rename_i hi
    rw [if_pos (by omega), if_pos (by omega)]
    have hmin : min (m.field.len - i) (m.field.len - (i + 1)) = m.field.len - (i + 1) := by omega
    simp only [Arrays.copy, hmin, Arrays.setAt, Arrays.put, SOut.bind]
    rw [if_pos (by simp; omega)]
    have hset := fun k => shift_left (a := m.mem m.field.arr) (o := m.field.off) (l := m.field.len) (i := i)
      (by omega) (by omega) k
    refine ⟨_, rfl, ⟨by simp; omega, ?_, h.fresh⟩, ?_, ?_⟩
    · simp only [if_true, List.length_set, List.length_append, List.length_take, List.length_drop]
      omega
    · apply List.ext_getElem?
      intro k
      rw [Arrays.see_get, List.getElem?_eraseIdx]
      simp only [if_true]
      rw [hset, Arrays.see_get, Arrays.see_get]
      by_cases h1 : k < i
      · rw [if_pos (by omega), if_neg (by omega), if_neg (by omega), if_pos h1, if_pos (by omega)]
      · rw [if_neg h1]
        by_cases h2 : k < m.field.len - 1
        · rw [if_pos h2, if_neg (by omega), if_pos (by omega), if_pos (by omega)]; rfl
        · rw [if_neg h2, if_neg (by omega)]
    · apply List.ext_getElem?
      intro k
      have hle : ((m.see m.field).eraseIdx i).length = m.field.len - 1 := by
        rw [List.length_eraseIdx, hl, if_pos hi]
      rw [Arrays.see_get]
      simp only [if_true]
      rw [hset]
      by_cases h0 : k < m.field.len - 1
      · rw [List.getElem?_append_left (by omega), List.getElem?_eraseIdx, Arrays.see_get, Arrays.see_get]
        rw [if_pos (by omega), if_neg (by omega)]
        by_cases h1 : k < i
        · rw [if_neg (by omega), if_pos h1, if_pos (by omega)]
        · rw [if_neg h1, if_pos (by omega), if_pos (by omega)]; rfl
      · rw [List.getElem?_append_right (by omega), hle]
        by_cases h1 : k = m.field.len - 1
        · rw [if_pos (by omega), if_pos (by omega), h1]; simp
        · rw [if_neg (by omega), List.getElem?_eq_none (by simp; omega)]
  · rename_i hi
    rw [if_neg (c := i + 1 ≤ m.field.len) (by omega)]
    split <;> simp_all

theorem insert_kept {m : Arrays} (h : m.Sound) (extra j n : Nat) (fits : Bool) :
    m.Kept (m.insertBefore extra j n fits).arrays := by
  obtain ⟨a1, a2, -, -, a5, a6⟩ := appendNil_spec h extra
  have b1 := a1.len
  have b2 := a1.cap
  have hm : m.Kept (m.appendNil extra) := by
    intro b k hb hk
    unfold Arrays.appendNil
    simp only
    split
    · rename_i hc
      simp only [Arrays.put]
      split
      · rename_i he
        rw [List.getElem?_set, if_neg (by have := hk he; omega), he]
      · rfl
    · simp only [Arrays.put]
      rw [if_neg (by omega)]
  unfold Arrays.insertBefore
  simp only
  intro b k hb hk
  rw [← hm b k hb hk]
  generalize m.appendNil extra = m1 at *
  have hout : b = m1.field.arr → k < m1.field.off ∨ m1.field.off + m1.field.cap ≤ k := by
    intro he
    rcases a6 with ha | ⟨ha, -⟩
    · obtain ⟨c1, -, c3⟩ := a5 ha
      rw [c1, c3]
      exact hk (he.trans ha)
    · omega
  simp only [Slice.sub, b1, and_true]
  by_cases hj : j + 1 ≤ m1.field.len
  · rw [if_pos hj, if_pos (by omega)]
    have hmin : min (m1.field.len - (j + 1)) (m1.field.len - j) = m1.field.len - (j + 1) := by omega
    simp only [Arrays.copy, hmin, Arrays.setAt, Arrays.put, if_true]
    split
    · simp only [SOut.arrays]
      split
      · rename_i he
        have := hout he
        rw [shift_right (by omega) (by omega), if_neg (by omega), if_neg (by omega), he]
      · rfl
    · simp only [SOut.arrays]
      split
      · rename_i he
        have := hout he
        rw [shift_right' (by omega) (by omega), if_neg (by omega), he]
      · rfl
  · rw [if_neg hj]
    rfl

theorem delete_kept {m : Arrays} (h : m.Sound) (i : Nat) : m.Kept (m.delete i).arrays := by
  have b1 := h.len
  have b2 := h.cap
  by_cases hi : i < m.field.len
  · unfold Arrays.delete
    simp only [Slice.sub, b1, and_true]
    rw [if_pos (by omega), if_pos (by omega)]
    have hmin : min (m.field.len - i) (m.field.len - (i + 1)) = m.field.len - (i + 1) := by omega
    simp only [Arrays.copy, hmin, Arrays.setAt, Arrays.put, SOut.bind]
    rw [if_pos (by simp; omega)]
    intro b k _ hk
    simp only [SOut.arrays, if_true]
    split
    · rename_i he
      have := hk he
      rw [shift_left (by omega) (by omega), if_neg (by omega), if_neg (by omega), he]
    · rfl
  · have := delete_spec h i
    rw [if_neg hi] at this
    rw [this]
    intro b k _ _
    rfl

end Verif
