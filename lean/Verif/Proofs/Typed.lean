/-
Lemmas for C84: edits keep the memory well typed.
-/
import Verif.Spec.Typed
import Verif.Proofs.Apply

namespace Verif

theorem decl_unique (o : Obj) : ∀ d ∈ o.decl, ∀ e ∈ o.decl, d.name = e.name → d = e := by
  obtain ⟨k, all, fs⟩ := o
  cases k with
  | none => simp [Obj.decl]
  | some k => simp only [Obj.decl]; cases k <;> decide +kernel

theorem decl_find {o : Obj} {d : Field} (hd : d ∈ o.decl) : o.decl.find? (fun e => e.name == d.name) = some d := by
  cases hf : o.decl.find? (fun e => e.name == d.name) with
  | none => exact absurd (List.find?_eq_none.1 hf d hd) (by simp)
  | some e =>
    rw [decl_unique o e (List.mem_of_find?_eq_some hf) d hd (by simpa using List.find?_some hf)]

theorem assignable_iff {h : Heap} {a n : Nat} {d : Field} (hd : d ∈ (h a).decl) :
    h.assignable a d.name n = true ↔ h.Takes d.type n := by
  simp only [Heap.assignable, decl_find hd, Heap.Takes]
  cases (h n).kind <;> simp

theorem cursor_takes_iff {c : Cursor} {h : Heap} {n : Nat} :
    h.assignable c.parent c.name n = true ↔ c.Takes h n := by
  constructor
  · intro ha
    cases hf : (h c.parent).decl.find? (fun d => d.name == c.name) with
    | none => simp [Heap.assignable, hf] at ha
    | some d =>
      have hd := List.mem_of_find?_eq_some hf
      have hn : d.name = c.name := by simpa using List.find?_some hf
      exact ⟨d, hd, hn, (assignable_iff hd).1 (hn ▸ ha)⟩
  · rintro ⟨d, hd, hn, ht⟩
    exact hn ▸ (assignable_iff hd).2 ht

theorem fits_kinds {h g : Heap} (hk : ∀ a, (g a).kind = (h a).kind) {d : Field} {x : FieldRef} (hx : x.Fits h d) :
    x.Fits g d := by
  have ht : ∀ {a}, h.Takes d.type a → g.Takes d.type a := fun ⟨k, h1, h2⟩ => ⟨k, by rw [hk, h1], h2⟩
  cases x with
  | nil f => exact hx
  | one f a => exact ⟨hx.1, hx.2.1, ht hx.2.2⟩
  | list f as => exact ⟨hx.1, hx.2.1, fun a ha => ht (hx.2.2 a ha)⟩

theorem SameStructs.refl (h : Heap) : SameStructs h h := fun _ => ⟨rfl, rfl, rfl, fun _ h => h⟩

theorem SameStructs.trans {h g i : Heap} (h1 : SameStructs h g) (h2 : SameStructs g i) : SameStructs h i :=
  fun a => ⟨(h2 a).1.trans (h1 a).1, (h2 a).2.1.trans (h1 a).2.1, (h2 a).2.2.1.trans (h1 a).2.2.1,
    fun f hf => (h2 a).2.2.2 f ((h1 a).2.2.2 f hf)⟩

theorem kind_setField (h : Heap) (p : Nat) (x : FieldRef) (a : Nat) : ((h.setField p x) a).kind = (h a).kind := by
  by_cases ha : a = p
  · subst ha; simp [Heap.setField, Heap.set]
  · simp [Heap.setField, Heap.set, ha]

theorem typed_setField {h : Heap} (ht : h.Typed) {p : Nat} {x : FieldRef} {d : Field} (hd : d ∈ (h p).decl)
    (hx : x.Fits h d) : (h.setField p x).Typed := by
  have hk := kind_setField h p x
  intro a y hy
  have hdecl : ((h.setField p x) a).decl = (h a).decl := by simp only [Obj.decl, hk]
  rw [hdecl]
  by_cases ha : a = p
  · subst ha
    simp only [Heap.setField, Heap.set, if_true, List.mem_map] at hy
    obtain ⟨z, hz, rfl⟩ := hy
    split
    · exact ⟨d, hd, fits_kinds hk hx⟩
    · obtain ⟨d', h1, h2⟩ := ht a z hz
      exact ⟨d', h1, fits_kinds hk h2⟩
  · have : (h.setField p x) a = h a := by simp [Heap.setField, Heap.set, ha]
    rw [this] at hy
    obtain ⟨d', h1, h2⟩ := ht a y hy
    exact ⟨d', h1, fits_kinds hk h2⟩

theorem ptr_setField_other {h : Heap} {p a : Nat} {x : FieldRef} (ha : a ≠ p) (f : FName) :
    (h.setField p x).ptr a f = h.ptr a f := by
  simp [Heap.ptr, Heap.field, Heap.setField, Heap.set, ha]

theorem same_setField {h : Heap} {p : Nat} {x : FieldRef}
    (hx : h.ptr p x.name ≠ none → ∃ f b, x = .one f b) : SameStructs h (h.setField p x) := by
  intro a
  by_cases ha : a = p
  · subst ha
    refine ⟨by simp [Heap.setField, Heap.set], by simp [Heap.setField, Heap.set], ?_, ?_⟩
    · simp only [Heap.setField, Heap.set, if_true, List.map_map]
      refine List.map_congr_left fun y _ => ?_
      simp only [Function.comp]
      split
      · rename_i hy; exact (by simpa using hy : y.name = x.name).symm
      · rfl
    · intro f hf
      by_cases hfx : f = x.name
      · subst hfx
        obtain ⟨g, b, rfl⟩ := hx hf
        simp only [Heap.ptr, field_setField, if_true]
        cases hfld : h.field a (FieldRef.one g b).name with
        | none => simp [Heap.ptr, hfld] at hf
        | some y => simp
      · simpa only [Heap.ptr, field_setField, if_neg hfx] using hf
  · have : (h.setField p x) a = h a := by simp [Heap.setField, Heap.set, ha]
    exact ⟨by rw [this], by rw [this], by rw [this], fun f hf => by rw [ptr_setField_other ha]; exact hf⟩

theorem fieldRef_mem {h : Heap} {p : Nat} {f : FName} {x : FieldRef} (hf : h.field p f = some x) :
    x ∈ (h p).fields ∧ x.name = f :=
  ⟨List.mem_of_find?_eq_some hf, by simpa using List.find?_some hf⟩

theorem mem_set_or {α : Type} {l : List α} {i : Nat} {x y : α} (h : y ∈ l.set i x) : y = x ∨ y ∈ l :=
  (List.mem_or_eq_of_mem_set h).symm

theorem typed_edit {σ : Type} {c : Cursor} {w w' : World σ} (ht : w.heap.Typed) {e : Edit} (he : c.edit e w = some w') :
    w'.heap.Typed ∧ SameStructs w.heap w'.heap := by
  have key : ∀ (f : FName) (as bs : List Nat), w.heap.field c.parent c.name = some (.list f as) →
      (∀ b ∈ bs, b ∈ as ∨ w.heap.assignable c.parent c.name b = true) →
      (w.heap.setField c.parent (.list f bs)).Typed ∧ SameStructs w.heap (w.heap.setField c.parent (.list f bs)) := by
    intro f as bs hf hb
    obtain ⟨hm, hn⟩ := fieldRef_mem hf
    obtain ⟨d, hd, h1, h2, h3⟩ := ht c.parent _ hm
    have hfn : f = c.name := hn
    subst hfn
    refine ⟨typed_setField ht hd ⟨h1, h2, fun b hbb => ?_⟩, same_setField fun hp => ?_⟩
    · rcases hb b hbb with h | h
      · exact h3 b h
      · rw [h1] at h; exact (assignable_iff hd).1 h
    · simp [FieldRef.name, Heap.ptr, hf] at hp
  cases e with
  | before n =>
    simp only [Cursor.edit, Cursor.insertBefore] at he
    split at he
    · cases he
    · split at he
      · rename_i f as hf
        split at he
        · rename_i hc
          cases he
          refine key f as _ hf fun b hb => ?_
          rcases (List.mem_insertIdx hc.1).1 hb with rfl | hb
          · exact .inr hc.2
          · exact .inl hb
        · cases he
      · cases he
  | after n =>
    simp only [Cursor.edit, Cursor.insertAfter] at he
    split at he
    · cases he
    · split at he
      · rename_i f as hf
        split at he
        · rename_i hc
          cases he
          refine key f as _ hf fun b hb => ?_
          rcases (List.mem_insertIdx hc.1).1 hb with rfl | hb
          · exact .inr hc.2
          · exact .inl hb
        · cases he
      · cases he
  | delete =>
    simp only [Cursor.edit, Cursor.delete] at he
    split at he
    · cases he
    · split at he
      · rename_i f as hf
        split at he
        · cases he
          exact key f as _ hf fun b hb => .inl (List.mem_of_mem_eraseIdx hb)
        · cases he
      · cases he
  | replace n =>
    simp only [Cursor.edit, Cursor.replace] at he
    cases hf : w.heap.field c.parent c.name with
    | none => rw [hf] at he; cases he
    | some x =>
      rw [hf] at he
      simp only [] at he
      split at he
      · rename_i ha
        obtain ⟨hm, hn⟩ := fieldRef_mem hf
        split at he
        · cases x with
          | nil => cases he
          | one => cases he
          | list f as =>
            simp only [] at he
            split at he
            · cases he
              refine key f as _ hf fun b hb => ?_
              rcases mem_set_or hb with rfl | hb
              · exact .inr ha
              · exact .inl hb
            · cases he
        · obtain ⟨d, hd, hfit⟩ := ht c.parent _ hm
          have : w' = { w with heap := w.heap.setField c.parent (.one c.name n) } ∧ c.name = d.name ∧ d.slice = false := by
            cases x with
            | list => cases he
            | nil f => cases he; cases hn; exact ⟨rfl, hfit.1, hfit.2⟩
            | one f b => cases he; cases hn; exact ⟨rfl, hfit.1, hfit.2.1⟩
          obtain ⟨rfl, h1, h2⟩ := this
          exact ⟨typed_setField ht hd ⟨h1, h2, (assignable_iff hd).1 (h1 ▸ ha)⟩, same_setField fun _ => ⟨_, _, rfl⟩⟩
      · cases he

theorem typed_edits {σ : Type} {c : Cursor} : ∀ (es : List Edit) {w w' : World σ}, w.heap.Typed →
    c.edits es w = some w' → w'.heap.Typed ∧ SameStructs w.heap w'.heap
  | [], w, w', ht, he => by cases he; exact ⟨ht, .refl _⟩
  | e :: es, w, w', ht, he => by
    simp only [Cursor.edits] at he
    cases h1 : c.edit e w with
    | none => rw [h1] at he; cases he
    | some w1 =>
      rw [h1] at he
      obtain ⟨ht1, hs1⟩ := typed_edit ht h1
      obtain ⟨ht2, hs2⟩ := typed_edits es ht1 he
      exact ⟨ht2, hs1.trans hs2⟩

/-- The memory stays well typed. -/
def KeepsTyped {σ : Type} (h : Heap) (o : AOut σ) : Prop :=
  match o with
  | .ok w | .abort w | .panic w | .oof w => w.heap.Typed ∧ SameStructs h w.heap

theorem KeepsTyped.bind {σ : Type} {h : Heap} {o : AOut σ} {f : World σ → AOut σ} (ho : KeepsTyped h o)
    (hf : ∀ w, w.heap.Typed → KeepsTyped w.heap (f w)) : KeepsTyped h (o.bind f) := by
  cases o with
  | ok w =>
    have := hf w ho.1
    simp only [AOut.bind]
    cases hfw : f w <;> (rw [hfw] at this; exact ⟨this.1, ho.2.trans this.2⟩)
  | abort w => exact ho
  | panic w => exact ho
  | oof w => exact ho

theorem KeepsTyped.after {σ : Type} {h g : Heap} {o : AOut σ} (hs : SameStructs h g) (ho : KeepsTyped g o) : KeepsTyped h o := by
  cases o <;> exact ⟨ho.1, hs.trans ho.2⟩

theorem keeps_listLoop {σ : Type} {ap : Option Nat → World σ → AOut σ} {p : Nat} {f : FName}
    (hap : ∀ x w, w.heap.Typed → KeepsTyped w.heap (ap x w)) (n : Nat) :
    ∀ w : World σ, w.heap.Typed → KeepsTyped w.heap (listLoop ap p f n w) := by
  induction n with
  | zero => intro w hw; exact ⟨hw, .refl _⟩
  | succ n ih =>
    intro w hw
    rw [listLoop]
    split
    · split
      · exact ⟨hw, .refl _⟩
      · split
        · exact ⟨hw, .refl _⟩
        · exact KeepsTyped.bind (hap _ { w with step := 1 } hw) fun w' hw' => ih { w' with index := w'.index + w'.step } hw'
    · exact ⟨hw, .refl _⟩

theorem keeps_applySteps {σ : Type} {ap : FName → Bool → Option Nat → World σ → AOut σ}
    (hap : ∀ name l x w, w.heap.Typed → KeepsTyped w.heap (ap name l x w)) (a n : Nat) (ss : List AStep) :
    ∀ w : World σ, w.heap.Typed → KeepsTyped w.heap (applySteps ap a n ss w) := by
  induction ss with
  | nil => intro w hw; exact ⟨hw, .refl _⟩
  | cons s ss ih =>
    intro w hw
    refine KeepsTyped.bind ?_ ih
    cases s with
    | one name f => exact hap _ _ _ _ hw
    | opt name f =>
      simp only [applyStep]
      split
      · exact hap _ _ _ _ hw
      · exact ⟨hw, .refl _⟩
    | list f =>
      exact KeepsTyped.bind (keeps_listLoop (hap f true) n { w with index := 0 } hw) fun w' hw' => ⟨hw', .refl _⟩
    | unlessAll name f =>
      simp only [applyStep]
      split
      · exact ⟨hw, .refl _⟩
      · exact hap _ _ _ _ hw

theorem keeps_callback {σ : Type} {cb : Callback σ} (hcb : Through cb) (c : Cursor) (w : World σ) (hw : w.heap.Typed) :
    match cb c w with
    | .ret _ w' | .panic w' => w'.heap.Typed ∧ SameStructs w.heap w'.heap := by
  obtain ⟨es, w1, he, h1⟩ := hcb c w
  obtain ⟨ht, hs⟩ := typed_edits es hw he
  cases hr : cb c w <;> (rw [hr] at h1; simp only [] at h1 ⊢; rw [h1.1]; exact ⟨ht, hs⟩)

theorem keeps_apply {σ : Type} {pre post : Callback σ} (hpre : Through pre) (hpost : Through post) (n : Nat) :
    ∀ (c : Cursor) (w : World σ), w.heap.Typed → KeepsTyped w.heap (apply pre post n c w) := by
  induction n with
  | zero => intro c w hw; exact ⟨hw, .refl _⟩
  | succ n ih =>
    intro c w hw
    have h1 := keeps_callback hpre c w hw
    rw [apply]
    cases hp : pre c w with
    | panic w1 => rw [hp] at h1; exact h1
    | ret b w1 =>
      rw [hp] at h1
      simp only [] at h1
      cases b with
      | false => exact h1
      | true =>
        simp only []
        obtain ⟨hw1, hs1⟩ := h1
        refine KeepsTyped.after hs1 ?_
        split
        · exact ⟨hw1, .refl _⟩
        · rename_i a _
          split
          · exact ⟨hw1, .refl _⟩
          · refine KeepsTyped.bind (keeps_applySteps (fun name l x w hw => ih ⟨a, name, l, x⟩ w hw) a n _ w1 hw1)
              fun w2 hw2 => ?_
            have h2 := keeps_callback hpost c w2 hw2
            cases hq : post c w2 with
            | panic w3 => rw [hq] at h2; exact h2
            | ret b w3 =>
              rw [hq] at h2
              cases b <;> exact h2

/-- With the struct that `Apply` makes for the root. -/
theorem typed_root {h : Heap} {r root : Nat} (ht : h.Typed) (hroot : (h root).kind ≠ none) (hr : (h r).kind = none) :
    (h.set r ⟨none, false, [.one .Node root]⟩).Typed := by
  have hk : ∀ a, ((h.set r ⟨none, false, [.one .Node root]⟩) a).kind = (h a).kind := by
    intro a
    by_cases ha : a = r
    · subst ha; simp [Heap.set, hr]
    · simp [Heap.set, ha]
  intro a x hx
  have hdecl : ((h.set r ⟨none, false, [.one .Node root]⟩) a).decl = (h a).decl := by simp only [Obj.decl, hk]
  by_cases ha : a = r
  · subst ha
    simp only [Heap.set, if_true, List.mem_singleton] at hx
    subst hx
    refine ⟨⟨.Node, false, .iface .Node⟩, by simp [Heap.set, Obj.decl], rfl, rfl, ?_⟩
    cases hkr : (h root).kind with
    | none => exact absurd hkr hroot
    | some k => exact ⟨k, by rw [hk, hkr], by simp [FTy.accepts, Kind.implements]⟩
  · rw [hdecl]
    have : (h.set r ⟨none, false, [.one .Node root]⟩) a = h a := by simp [Heap.set, ha]
    rw [this] at hx
    obtain ⟨d, h1, h2⟩ := ht a x hx
    exact ⟨d, h1, fits_kinds hk h2⟩

end Verif
