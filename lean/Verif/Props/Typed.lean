/-
C84: edits through the cursor keep the memory well typed, and when they panic.
-/
import Verif.Proofs.Typed
import Verif.Props.Alike
import Verif.Props.Replace
set_option maxRecDepth 100000

namespace Verif

/-- Whatever edits the callbacks of `Apply` make through their cursors, and however it ends - also if it panics in the
middle - every field of every struct in memory holds what its declaration says, and no struct has lost a field or a
set pointer.  The result of `Apply` is a node. -/
theorem C84_typed {σ : Type} (pre post : Callback σ) (hpre : Through pre) (hpost : Through post) (n r root : Nat) (u : σ)
    (h : Heap) (ht : h.Typed) (hroot : (h root).kind ≠ none) (hr : (h r).kind = none) :
    match applyRoot pre post n r root u h with
    | .result o w => (w.heap.Typed ∧ SameStructs (h.set r ⟨none, false, [.one .Node root]⟩) w.heap) ∧
        ∃ b, o = some b ∧ (w.heap b).kind ≠ none
    | .panic w | .oof w => w.heap.Typed ∧ SameStructs (h.set r ⟨none, false, [.one .Node root]⟩) w.heap := by
  have ht0 := typed_root ht hroot hr
  have hs := keeps_apply hpre hpost n ⟨r, .Node, false, some root⟩ ⟨u, h.set r ⟨none, false, [.one .Node root]⟩, 0, 0⟩ ht0
  have hres : ∀ w : World σ, w.heap.Typed → SameStructs (h.set r ⟨none, false, [.one .Node root]⟩) w.heap →
      ∃ b, w.heap.ptr r .Node = some b ∧ (w.heap b).kind ≠ none := by
    intro w hw hsw
    have hne := (hsw r).2.2.2 .Node (by simp [Heap.ptr, Heap.field, Heap.set, FieldRef.name])
    cases hf : w.heap.field r .Node with
    | none => simp [Heap.ptr, hf] at hne
    | some x =>
      cases x with
      | nil => simp [Heap.ptr, hf] at hne
      | list => simp [Heap.ptr, hf] at hne
      | one g b =>
        refine ⟨b, by simp [Heap.ptr, hf], ?_⟩
        obtain ⟨d, _, _, _, k, h1, _⟩ := hw r _ (fieldRef_mem hf).1
        rw [h1]; simp
  simp only [applyRoot]
  cases ha : apply pre post n ⟨r, .Node, false, some root⟩ ⟨u, h.set r ⟨none, false, [.one .Node root]⟩, 0, 0⟩ <;>
    (rw [ha] at hs; simp only [] at hs ⊢)
  · exact ⟨hs, hres _ hs.1 hs.2⟩
  · exact ⟨hs, hres _ hs.1 hs.2⟩
  · exact hs
  · exact hs

/-- When an edit panics, for a cursor that says where its node is: `Delete` if the node is not in a list, `Replace` if
the field does not take the type of the new node, and the insertions in both cases. -/
theorem C84_panics {σ : Type} (c : Cursor) (w : World σ) (hc : c.node ≠ none) (hx : c.Exact w.heap w.index) (n : Nat) :
    (c.delete w = none ↔ c.inList = false) ∧
    (c.replace n w = none ↔ ¬ c.Takes w.heap n) ∧
    (c.insertBefore n w = none ↔ c.inList = false ∨ ¬ c.Takes w.heap n) ∧
    (c.insertAfter n w = none ↔ c.inList = false ∨ ¬ c.Takes w.heap n) := by
  rw [← cursor_takes_iff]
  cases hl : c.inList with
  | false =>
    simp only [Cursor.Exact, hl, Bool.false_eq_true, if_false, Heap.ptr] at hx
    cases hf : w.heap.field c.parent c.name with
    | none => rw [hf] at hx; exact absurd hx.symm hc
    | some x =>
      rw [hf] at hx
      cases x with
      | nil => exact absurd hx.symm hc
      | list => exact absurd hx.symm hc
      | one g b =>
        cases ha : w.heap.assignable c.parent c.name n <;>
          simp [Cursor.delete, Cursor.replace, Cursor.insertBefore, Cursor.insertAfter, Cursor.idx, hl, hf, ha]
  | true =>
    simp only [Cursor.Exact, hl, if_true] at hx
    obtain ⟨g, as, hf, hi, has, hn⟩ := hx
    have hlt : w.index.toNat < as.length := by
      cases Nat.lt_or_ge w.index.toNat as.length with
      | inl h => exact h
      | inr h => exact absurd (List.getElem?_eq_none h) (has ▸ hn)
    have hle := Nat.le_of_lt hlt
    have hni : ¬ w.index < 0 := by omega
    cases ha : w.heap.assignable c.parent c.name n <;>
      simp [Cursor.delete, Cursor.replace, Cursor.insertBefore, Cursor.insertAfter, Cursor.idx, hl, hf, ha, hni, hlt, hle, hi]

/-- A tree whose nodes are well typed, alone in memory: the memory is well typed. -/
theorem C84_tree (t : Tree) (hw : ∀ u, Occurs t u → u.WellTyped) (hh : t.heap.Has t) : t.heap.Typed := by
  intro a x hx
  cases hf : t.nodes.find? (fun u => u.id == a) with
  | none => simp only [Tree.heap, hf] at hx; cases hx
  | some u =>
    have ho : Occurs t u := (mem_nodes_iff _ _).1 (List.mem_of_find?_eq_some hf)
    have ha : t.heap a = ⟨some u.kind, u.all, u.fields.map FieldVal.ref⟩ := by simp only [Tree.heap, hf]
    rw [ha] at hx ⊢
    obtain ⟨v, hv, rfl⟩ := List.mem_map.1 hx
    obtain ⟨d, hd, hfit⟩ := (fitsAll_both (hw u ho).1).2 v hv
    have ht : ∀ c ∈ v.nodes, d.type.accepts c.kind = true → t.heap.Takes d.type c.id := fun c hc hk =>
      ⟨c.kind, by rw [hh c (ho.trans (.child (List.mem_flatMap.2 ⟨v, hv, hc⟩) (.refl c)))], hk⟩
    refine ⟨d, hd, ?_⟩
    cases v with
    | nil f =>
      simp only [FieldVal.fits, Bool.and_eq_true, beq_iff_eq, Bool.not_eq_true'] at hfit
      exact ⟨hfit.1.1, hfit.1.2⟩
    | one f c =>
      simp only [FieldVal.fits, Bool.and_eq_true, beq_iff_eq, Bool.not_eq_true'] at hfit
      exact ⟨hfit.1.1, hfit.1.2, ht c (by simp [FieldVal.nodes]) hfit.2⟩
    | list f cs =>
      simp only [FieldVal.fits, Bool.and_eq_true, beq_iff_eq, List.all_eq_true] at hfit
      refine ⟨hfit.1.1, hfit.1.2, fun b hb => ?_⟩
      obtain ⟨c, hc, rfl⟩ := List.mem_map.1 hb
      exact ht c hc (hfit.2 c hc)

/-- The tree of any file: whatever edits are made with `Apply`, the memory is well typed at the end, and what is
returned is a node. -/
theorem C84_file (f : File) (t : Tree) (hta : t.anon = f.tree) (hh : t.heap.Has t)
    {σ : Type} (pre post : Callback σ) (hpre : Through pre) (hpost : Through post) (m r : Nat) (hr : r ∉ t.ids) (u : σ) :
    match applyRoot pre post m r t.id u t.heap with
    | .result o w => w.heap.Typed ∧ ∃ b, o = some b ∧ (w.heap b).kind ≠ none
    | .panic w | .oof w => w.heap.Typed := by
  have ht := C84_tree t (fun u hu =>
    Tree.WellTyped.of_anon (wtB_all (File.tree_wt f) (by rw [← hta]; exact hu.anon))) hh
  have := C84_typed pre post hpre hpost m r t.id u t.heap ht (by rw [hh t (.refl t)]; simp) (by
    have : t.nodes.find? (fun u => u.id == r) = none := List.find?_eq_none.2 fun v hv he =>
      hr (List.mem_map.2 ⟨v, hv, by simpa using he⟩)
    simp only [Tree.heap, this])
  cases ha : applyRoot pre post m r t.id u t.heap <;> (rw [ha] at this; simp only [] at this ⊢)
  · exact ⟨this.1.1, this.2⟩
  · exact this.1
  · exact this.1

/-- Callbacks that edit nodes are such callbacks. -/
theorem C84_through {σ : Type} (E : Nat → List Edit) : Through (editing E : Callback σ) := by
  intro c w
  simp only [editing]
  cases c.node with
  | none => exact ⟨[], w, rfl, rfl, rfl, rfl⟩
  | some a =>
    simp only []
    cases he : c.edits (E a) w with
    | none => exact ⟨[], w, rfl, rfl, rfl, rfl⟩
    | some w' => exact ⟨E a, w', he, rfl, rfl, rfl⟩

/-- In `a + b.c`: the operator replaced by the node `e`; `b` inserted before `c`, then `c` deleted. -/
def typedEdits (e : Nat) : Nat → List Edit := fun a =>
  if a = 3 then [.replace e] else if a = 6 then [.before 5, .delete] else []

/-- The hypotheses of `C84_typed`; those of `C84_file` are met by the text of the example for `C81_parsed`. -/
example : applySample.heap.Typed ∧ (applySample.heap 1).kind ≠ none ∧ (applySample.heap 0).kind = none := by
  refine ⟨?_, by decide, by decide⟩
  exact
  C84_tree _ (fun u hu => (applySample_good u hu).1) (fun u hu => (applySample_nodes u ((mem_nodes_iff _ _).2 hu)).2)

/-- An identifier in place of the operator: a panic; the operator in its own place: none. -/
example : (match applyRoot idle (editing (typedEdits 2)) 50 0 1 () applySample.heap with
      | .panic w => some ((w.heap 1).fields)
      | _ => none) = some [.one .Left 2, .one .Op 3, .one .Right 4] ∧
    (match applyRoot idle (editing (typedEdits 3)) 50 0 1 () applySample.heap with
      | .result o w => some (o, (w.heap 4).fields)
      | _ => none) = some (some 1, [.list .Idents [5, 5]]) := by
  refine ⟨?_, ?_⟩ <;> kernel_rfl

example : Cursor.Exact ⟨1, .Op, false, some 3⟩ applySample.heap 0 ∧ Cursor.Takes ⟨1, .Op, false, some 3⟩ applySample.heap 3 ∧
    ¬ Cursor.Takes ⟨1, .Op, false, some 3⟩ applySample.heap 2 := by
  refine ⟨by show applySample.heap.ptr 1 .Op = some 3; kernel_rfl, cursor_takes_iff.1 (by kernel_rfl), fun h => ?_⟩
  have := cursor_takes_iff.2 h
  revert this
  decide +kernel

end Verif
