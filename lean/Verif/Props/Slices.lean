/-
C89: the edits of lists on Go's arrays, step by step.
-/
import Verif.Proofs.Slices
import Verif.Proofs.Typed
import Verif.Proofs.Replace
import Verif.Props.Apply
set_option maxRecDepth 100000

namespace Verif

/-- `Delete` takes the element out, in place: who still has the slice as it was before sees the shorter list and a nil.
Without such an element it panics and has done nothing. -/
theorem C89_delete (m : Arrays) (hm : m.Sound) (i : Nat) :
    (i < m.field.len → ∃ m', m.delete i = .ok m' ∧ m'.Sound ∧ m'.see m'.field = (m.see m.field).eraseIdx i ∧
      m'.see m.field = (m.see m.field).eraseIdx i ++ [none]) ∧
    (m.field.len ≤ i → m.delete i = .panic m) := by
  have := delete_spec hm i
  refine ⟨fun hi => by rwa [if_pos hi] at this, fun hi => by rwa [if_neg (by omega)] at this⟩

/-- The insertions put the node before or after the element.  Who still has the slice as it was before sees the old list
if the array was full, and otherwise the new one up to the old length. -/
theorem C89_insert (m : Arrays) (hm : m.Sound) (extra i n : Nat) (hi : i < m.field.len) :
    (∃ m', m.insertBefore extra i n true = .ok m' ∧ m'.Sound ∧ m'.see m'.field = (m.see m.field).insertIdx i (some n) ∧
      m'.see m.field = if m.field.len < m.field.cap then (m'.see m'.field).take m.field.len else m.see m.field) ∧
    ∃ m', m.insertAfter extra i n true = .ok m' ∧ m'.Sound ∧ m'.see m'.field = (m.see m.field).insertIdx (i + 1) (some n) ∧
      m'.see m.field = if m.field.len < m.field.cap then (m'.see m'.field).take m.field.len else m.see m.field := by
  have key : ∀ j, j ≤ m.field.len → ∃ m', m.insertBefore extra j n true = .ok m' ∧ m'.Sound ∧
      m'.see m'.field = (m.see m.field).insertIdx j (some n) ∧
      m'.see m.field = if m.field.len < m.field.cap then (m'.see m'.field).take m.field.len else m.see m.field := by
    intro j hj
    obtain ⟨m', x, h1, h2, h3, -, h5, h6⟩ := insert_spec hm extra j n true
    rw [if_pos ⟨hj, rfl⟩] at h1
    rw [if_pos hj, h2] at h5
    exact ⟨m', h1, h3, by simpa using h5, h6⟩
  exact ⟨key i (by omega), key (i + 1) (by omega)⟩

/-- With a node of another type the insertions panic, and leave a list that is longer by one element: the element, or the
one after it, is there twice; after the last one there is a nil. -/
theorem C89_wrong_type (m : Arrays) (hm : m.Sound) (extra i n : Nat) (hi : i < m.field.len) :
    (∃ m', m.insertBefore extra i n false = .panic m' ∧ m'.Sound ∧
      m'.see m'.field = (m.see m.field).insertIdx i (((m.see m.field)[i]?).getD none)) ∧
    ∃ m', m.insertAfter extra i n false = .panic m' ∧ m'.Sound ∧
      m'.see m'.field = (m.see m.field).insertIdx (i + 1) (((m.see m.field)[i + 1]?).getD none) := by
  have key : ∀ j, j ≤ m.field.len → ∃ m', m.insertBefore extra j n false = .panic m' ∧ m'.Sound ∧
      m'.see m'.field = (m.see m.field).insertIdx j (((m.see m.field)[j]?).getD none) := by
    intro j hj
    obtain ⟨m', x, h1, h2, h3, -, h5, -⟩ := insert_spec hm extra j n false
    rw [if_neg (by simp)] at h1
    rw [if_pos hj, h2] at h5
    exact ⟨m', h1, h3, by simpa using h5⟩
  exact ⟨key i (by omega), key (i + 1) (by omega)⟩

/-- It is not so that an edit that panics leaves the list as it was: no insertion that panics does. -/
theorem C89_undone_false (m : Arrays) (hm : m.Sound) (extra i n : Nat) (fits : Bool) (m' : Arrays)
    (h : m.insertBefore extra i n fits = .panic m' ∨ m.insertAfter extra i n fits = .panic m') :
    (m'.see m'.field).length = (m.see m.field).length + 1 := by
  have key : ∀ j, m.insertBefore extra j n fits = .panic m' → (m'.see m'.field).length = (m.see m.field).length + 1 := by
    intro j h
    obtain ⟨m1, x, h1, -, h3, h4, -⟩ := insert_spec hm extra j n fits
    rw [h] at h1
    split at h1
    · cases h1
    · cases h1
      rw [Arrays.see_length h3, Arrays.see_length hm, h4]
  rcases h with h | h
  · exact key i h
  · exact key (i + 1) h

/-- However they end, all three leave alone the cells of other arrays, and those cells of the array that the slice cannot
reach; so slices that have no cell in common with this one show what they did. -/
theorem C89_kept (m : Arrays) (hm : m.Sound) (extra i n : Nat) (fits : Bool) :
    m.Kept (m.delete i).arrays ∧ m.Kept (m.insertBefore extra i n fits).arrays ∧
    m.Kept (m.insertAfter extra i n fits).arrays :=
  ⟨delete_kept hm i, insert_kept hm extra i n fits, insert_kept hm extra (i + 1) n fits⟩

/-- The cursor's operations of the model of `Apply` are these, on slices without nil: they panic for the same arguments,
and otherwise leave the same list. -/
theorem C89_model {σ : Type} (c : Cursor) (w : World σ) (f : FName) (as : List Nat) (i n extra : Nat) (m : Arrays)
    (hm : m.Sound) (hc : c.inList = true) (hf : w.heap.field c.parent c.name = some (.list f as)) (hi : w.index = i)
    (hs : m.see m.field = as.map some) :
    let same := fun (a : Option (World σ)) (b : SOut) => match a, b with
      | some w', .ok m' => ∃ bs, w'.heap.field c.parent c.name = some (.list f bs) ∧ m'.see m'.field = bs.map some
      | none, .panic _ => True
      | _, _ => False
    same (c.delete w) (m.delete i) ∧
    same (c.insertBefore n w) (m.insertBefore extra i n (w.heap.assignable c.parent c.name n)) ∧
    same (c.insertAfter n w) (m.insertAfter extra i n (w.heap.assignable c.parent c.name n)) := by
  have hlen : as.length = m.field.len := by
    have := congrArg List.length hs
    rw [Arrays.see_length hm, List.length_map] at this
    exact this.symm
  have hname : f = c.name := (fieldRef_mem hf).2
  have hset : ∀ bs, (w.heap.setField c.parent (.list f bs)).field c.parent c.name = some (.list f bs) := fun bs => by
    rw [field_setField, if_pos (show c.name = (FieldRef.list f bs).name from hname.symm), hf]; rfl
  have hidx : c.idx w = i := by simp [Cursor.idx, hc, hi]
  have hni : ¬ ((i : Int) < 0) := by omega
  have herase : (as.map some).eraseIdx i = (as.eraseIdx i).map some := by
    apply List.ext_getElem?
    intro k
    simp only [List.getElem?_eraseIdx, List.getElem?_map]
    split <;> rfl
  have hins : ∀ j, (as.map some).insertIdx j (some n) = (as.insertIdx j n).map some := fun j => by
    apply List.ext_getElem?
    intro k
    simp only [List.getElem?_insertIdx, List.getElem?_map, List.length_map]
    split
    · rfl
    · split
      · split <;> rfl
      · rfl
  refine ⟨?_, ?_, ?_⟩
  · obtain ⟨h1, h2⟩ := C89_delete m hm i
    simp only [Cursor.delete, hidx, if_neg hni, hf, Int.toNat_natCast, hlen]
    by_cases hl : i < m.field.len
    · obtain ⟨m', e, -, hsee, -⟩ := h1 hl
      rw [if_pos hl, e]
      exact ⟨_, hset _, by rw [hsee, hs, herase]⟩
    · rw [if_neg hl, h2 (by omega)]
      trivial
  · obtain ⟨m', x, h1, h2, -, -, h5, -⟩ := insert_spec hm extra i n (w.heap.assignable c.parent c.name n)
    simp only [Cursor.insertBefore, hidx, if_neg hni, hf, Int.toNat_natCast, hlen]
    rw [h1]
    by_cases hl : i ≤ m.field.len ∧ w.heap.assignable c.parent c.name n = true
    · rw [if_pos hl, if_pos hl]
      rw [if_pos hl.1, h2, if_pos hl.2, hs] at h5
      exact ⟨_, hset _, by rw [h5, hins]⟩
    · rw [if_neg hl, if_neg hl]
      trivial
  · obtain ⟨m', x, h1, h2, -, -, h5, -⟩ := insert_spec hm extra (i + 1) n (w.heap.assignable c.parent c.name n)
    simp only [Cursor.insertAfter, hidx, if_neg hni, hf, Int.toNat_natCast, hlen]
    have h1 : m.insertAfter extra i n (w.heap.assignable c.parent c.name n) = _ := h1
    rw [h1]
    by_cases hl : i < m.field.len ∧ w.heap.assignable c.parent c.name n = true
    · rw [if_pos hl, if_pos ⟨by omega, hl.2⟩]
      rw [if_pos (by omega), h2, if_pos hl.2, hs] at h5
      exact ⟨_, hset _, by rw [h5, hins]⟩
    · rw [if_neg hl, if_neg fun h => hl ⟨by omega, h.2⟩]
      trivial

/-- An edit of the cursor on the slice, at the index `i`; `grow` is the policy of `append`.  `Replace` (rewrite.go:54-60)
sets the element. -/
def Arrays.edit (grow : Nat → Nat) (fits : Nat → Bool) (i : Nat) (m : Arrays) : Edit → SOut
  | .before n => m.insertBefore (grow m.field.len) i n (fits n)
  | .after n => m.insertAfter (grow m.field.len) i n (fits n)
  | .replace n => m.setAt i (some n) (fits n)
  | .delete => m.delete i

/-- One edit after the other; `InsertBefore` moves the index (rewrite.go:99). -/
def Arrays.edits (grow : Nat → Nat) (fits : Nat → Bool) : Nat → List Edit → Arrays → SOut
  | _, [], m => .ok m
  | i, .before n :: es, m => (m.edit grow fits i (.before n)).bind (Arrays.edits grow fits (i + 1) es)
  | i, e :: es, m => (m.edit grow fits i e).bind (Arrays.edits grow fits i es)

/-- Whole sequences of edits by a callback: on the arrays they panic if they panic in the model of `Apply`, and otherwise
leave the same list, whatever `append` does. -/
theorem C89_edits {σ : Type} (c : Cursor) (f : FName) (grow : Nat → Nat) (hc : c.inList = true) (es : List Edit) :
    ∀ (w : World σ) (as : List Nat) (i : Nat) (m : Arrays), m.Sound →
    w.heap.field c.parent c.name = some (.list f as) → w.index = i → m.see m.field = as.map some →
    match c.edits es w, m.edits grow (w.heap.assignable c.parent c.name) i es with
      | some w', .ok m' => ∃ bs, w'.heap.field c.parent c.name = some (.list f bs) ∧ m'.see m'.field = bs.map some
      | none, .panic _ => True
      | _, _ => False := by
  induction es with
  | nil => intro w as i m hm hf hi hs; exact ⟨as, hf, hs⟩
  | cons e es ih =>
    intro w as i m hm hf hi hs
    have hidx : c.idx w = i := by simp [Cursor.idx, hc, hi]
    have hname : f = c.name := (fieldRef_mem hf).2
    have hass : ∀ x, (w.heap.setField c.parent x).assignable c.parent c.name = w.heap.assignable c.parent c.name :=
      fun x => funext fun b => assignable_kinds (setField_kinds (fun _ => rfl) c.parent x) _ _ _
    have hmod := fun n => C89_model c w f as i n (grow m.field.len) m hm hc hf hi hs
    have hni : ¬ ((i : Int) < 0) := by omega
    have hge : (i : Int) ≥ 0 := by omega
    -- what remains to be shown of one edit
    have key : ∀ (j : Nat) (a : Option (World σ)) (b : SOut),
        (match a, b with
          | some w', .ok m' => ∃ bs, w'.heap.field c.parent c.name = some (.list f bs) ∧ m'.see m'.field = bs.map some
          | none, .panic _ => True
          | _, _ => False) →
        (∀ w', a = some w' → (∃ x, w'.heap = w.heap.setField c.parent x) ∧ w'.index = j) →
        (∀ m', b = .ok m' → m'.Sound) →
        match a.bind (c.edits es), b.bind (Arrays.edits grow (w.heap.assignable c.parent c.name) j es) with
          | some w', .ok m' => ∃ bs, w'.heap.field c.parent c.name = some (.list f bs) ∧ m'.see m'.field = bs.map some
          | none, .panic _ => True
          | _, _ => False := by
      intro j a b h1 h2 h3
      cases a with
      | none =>
        cases b with
        | ok m' => exact h1.elim
        | panic m' => trivial
      | some w' =>
        cases b with
        | panic m' => exact h1.elim
        | ok m' =>
          obtain ⟨bs, g1, g2⟩ := h1
          obtain ⟨⟨x, hx⟩, hj⟩ := h2 w' rfl
          have := ih w' bs j m' (h3 m' rfl) g1 hj g2
          rw [hx, hass] at this
          exact this
    have hsound : ∀ k n ft m', m.insertBefore (grow m.field.len) k n ft = .ok m' → m'.Sound := by
      intro k n ft m' he
      obtain ⟨m1, x, h1, -, h3, -⟩ := insert_spec hm (grow m.field.len) k n ft
      rw [he] at h1
      split at h1
      · cases h1; exact h3
      · cases h1
    cases e with
    | before n =>
      refine key (i + 1) _ _ (hmod n).2.1 (fun w' he => ?_) (fun m' he => hsound _ _ _ m' he)
      simp only [Cursor.edit, Cursor.insertBefore, hidx, if_neg hni, hf] at he
      split at he
      · cases he; exact ⟨⟨_, rfl⟩, by simp [hi]⟩
      · cases he
    | after n =>
      refine key i _ _ (hmod n).2.2 (fun w' he => ?_) (fun m' he => hsound (i + 1) _ _ m' he)
      simp only [Cursor.edit, Cursor.insertAfter, hidx, if_neg hni, hf] at he
      split at he
      · cases he; exact ⟨⟨_, rfl⟩, hi⟩
      · cases he
    | delete =>
      refine key i _ _ (hmod 0).1 (fun w' he => ?_) (fun m' he => ?_)
      · simp only [Cursor.edit, Cursor.delete, hidx, if_neg hni, hf] at he
        split at he
        · cases he; exact ⟨⟨_, rfl⟩, hi⟩
        · cases he
      · have he : m.delete i = .ok m' := he
        have := delete_spec hm i
        split at this
        · obtain ⟨m1, h1, h2, -⟩ := this
          rw [h1] at he; cases he; exact h2
        · rw [this] at he; cases he
    | replace n =>
      have hlen : as.length = m.field.len := by
        have := congrArg List.length hs
        rw [Arrays.see_length hm, List.length_map] at this
        exact this.symm
      have hset : ∀ bs, (w.heap.setField c.parent (.list f bs)).field c.parent c.name = some (.list f bs) := fun bs => by
        rw [field_setField, if_pos (show c.name = (FieldRef.list f bs).name from hname.symm), hf]; rfl
      refine key i _ _ ?_ (fun w' he => ?_) (fun m' he => ?_)
      · simp only [Cursor.edit, Cursor.replace, hidx, hf, hge, if_true, Int.toNat_natCast, hlen, Arrays.edit, Arrays.setAt]
        by_cases h1 : w.heap.assignable c.parent c.name n = true
        · rw [if_pos h1]
          by_cases h2 : i < m.field.len
          · rw [if_pos h2, if_pos ⟨h2, h1⟩]
            refine ⟨_, hset _, ?_⟩
            have hcap := hm.cap
            have hle := hm.len
            apply List.ext_getElem?
            intro k
            rw [Arrays.see_get, List.getElem?_map, List.getElem?_set]
            simp only [Arrays.put, if_true]
            rw [List.getElem?_set]
            have hk := congrArg (·[k]?) hs
            simp only [Arrays.see_get, List.getElem?_map] at hk
            by_cases h3 : i = k
            · subst h3
              rw [if_pos h2, if_pos rfl, if_pos (by omega), if_pos rfl, if_pos (by omega)]; rfl
            · rw [if_neg (show ¬ m.field.off + i = m.field.off + k by omega), if_neg h3, hk]
          · rw [if_neg h2, if_neg fun h => h2 h.1]
            trivial
        · rw [if_neg h1, if_neg fun h => h1 h.2]
          trivial
      · simp only [Cursor.edit, Cursor.replace, hidx, hf, hge, if_true] at he
        split at he
        · split at he
          · cases he; exact ⟨⟨_, rfl⟩, hi⟩
          · cases he
        · cases he
      · simp only [Arrays.edit, Arrays.setAt] at he
        split at he
        · cases he
          exact ⟨hm.len, by simpa [Arrays.put] using hm.cap, hm.fresh⟩
        · cases he

/-! ### Examples -/

/-- The list `b.c` of `applySample` as the third and fourth cell of an array with one more cell, or none, left. -/
def sliceSample (spare : Nat) : Arrays :=
  ⟨fun a => if a = 0 then [none, some 7, some 5, some 6] ++ List.replicate spare (some 8) else [], ⟨0, 2, 2, 2 + spare⟩, 1⟩

example : (sliceSample 0).Sound ∧ (sliceSample 1).Sound :=
  ⟨⟨by decide, by decide, by decide⟩, ⟨by decide, by decide, by decide⟩⟩

/-- What the list is and what the old slice shows: after the deletion of the first; after an insertion in front, for a
full array and for one with room; after an insertion at the end that panics. -/
def sliceEnd (m : Arrays) : SOut → Bool × List (Option Nat) × List (Option Nat)
  | .ok m' => (true, m'.see m'.field, m'.see m.field)
  | .panic m' => (false, m'.see m'.field, m'.see m.field)

example :
    sliceEnd (sliceSample 0) ((sliceSample 0).delete 0) = (true, [some 6], [some 6, none]) ∧
    sliceEnd (sliceSample 0) ((sliceSample 0).insertBefore 3 0 9 true) =
      (true, [some 9, some 5, some 6], [some 5, some 6]) ∧
    sliceEnd (sliceSample 1) ((sliceSample 1).insertBefore 3 0 9 true) =
      (true, [some 9, some 5, some 6], [some 9, some 5]) ∧
    sliceEnd (sliceSample 1) ((sliceSample 1).insertAfter 3 1 9 false) =
      (false, [some 5, some 6, none], [some 5, some 6]) := by
  refine ⟨rfl, rfl, rfl, rfl⟩

/-- The cell before the slice stays, the one behind it, which it can reach, does not. -/
example : ((sliceSample 1).insertAfter 3 1 9 false).arrays.mem 0 = [none, some 7, some 5, some 6, none] := rfl

/-- A sequence of edits, with the last one panicking or not. -/
example :
    sliceEnd (sliceSample 1) ((sliceSample 1).edits (fun n => n) (fun n => n != 3) 0 [.before 9, .after 8, .replace 7]) =
      (true, [some 9, some 7, some 8, some 6], [some 9, some 5]) ∧
    sliceEnd (sliceSample 1) ((sliceSample 1).edits (fun n => n) (fun n => n != 3) 0 [.before 9, .delete, .after 3]) =
      (false, [some 9, some 6, none], [some 9, some 6]) := by
  refine ⟨rfl, rfl⟩

/-- The hypotheses of `C89_model` in the memory of `a + b.c`, at the element `c`. -/
example : applySample.heap.field 4 .Idents = some (.list .Idents [5, 6]) ∧
    (sliceSample 1).see (sliceSample 1).field = [5, 6].map some := by
  refine ⟨?_, rfl⟩
  kernel_rfl

end Verif
