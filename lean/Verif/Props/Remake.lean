/-
C88: the tree after `Apply` with callbacks that edit the tree as they go.
-/
import Verif.Proofs.Remake
import Verif.Props.Rewrite
set_option maxRecDepth 100000

namespace Verif

/-- `Apply` as in C87.  If each node that was put in is the root of a tree of its own, `N` (outside of the tree, and not the
struct that `Apply` makes), then what the result points to is a tree again: the one with the edits made, in which the trees
`N` stand where they were put. -/
theorem C88_tree {σ : Type} (spre spost : Cursor → World σ → Script σ)
    (hpre : ∀ c w, DeleteLast (spre c w).edits ∧ ((spre c w).answer = true → Edit.delete ∉ (spre c w).edits))
    (hpost : ∀ c w, DeleteLast (spost c w).edits) (t : Tree) (n r : Nat) (hn : sizeOf t ≤ n) (u : σ) (h : Heap)
    (hh : h.Has t) (hr : r ∉ t.ids) (hg : ∀ v, Occurs t v → v.WellTyped) (hd : t.ids.Nodup)
    (N : Nat → Tree) (o : Option Nat) (w : World (σ × List (Bool × Nat × List Edit)))
    (hw : applyRoot (noted false spre) (noted true spost) n r t.id (u, []) h = .result o w)
    (hN : ∀ x ∈ w.user.2, ∀ e ∈ x.2.2, ∀ b, e.node? = some b →
      (N b).id = b ∧ h.Has (N b) ∧ r ∉ (N b).ids ∧ ∀ a ∈ (N b).ids, a ∉ t.ids) :
    o = some (t.remadeRoot (madeAt w.user.2) N).id ∧ w.heap.Has (t.remadeRoot (madeAt w.user.2) N) := by
  have self : ∀ s : Tree, s.id ∈ s.ids := fun s => by rw [Tree.ids_eq]; exact List.mem_cons_self ..
  have hc := C87_memory spre spost hpre hpost t n r hn u h hh hr hg hd
  rw [hw] at hc
  obtain ⟨ho, hm⟩ := hc
  have hN' : ∀ a, ∀ e ∈ madeAt w.user.2 a, ∀ b, e.node? = some b → (N b).id = b ∧ b ∉ t.ids ∧ w.heap.Has (N b) := by
    intro a e he b hb
    simp only [madeAt, List.mem_flatMap] at he
    obtain ⟨x, hx, he⟩ := he
    split at he
    · obtain ⟨h1, h2, h3, h4⟩ := hN x hx e he b hb
      refine ⟨h1, fun hbt => h4 b (by have := self (N b); rwa [h1] at this) hbt, h2.out fun c hc => ?_⟩
      rw [hm c (fun e => h3 (e ▸ hc)), if_neg (h4 c hc)]
    · cases he
  have hroot := has_remade (N := N) hh (fun a ha => by rw [hm a (fun e => hr (e ▸ ha)), if_pos ha])
    (fun a _ => hN' a) _ t (Nat.le_refl _) (.refl t)
  rw [ho, Tree.remadeRoot]
  split
  · rename_i he
    exact ⟨by rw [he, Tree.remade_id], hroot⟩
  · rename_i hne
    obtain ⟨e, he, hb⟩ := newOne_mem hne
    have := hN' _ e he _ hb
    exact ⟨by rw [this.1], this.2.2⟩

/-- The tree of any file. -/
theorem C88_file (f : File) (t : Tree) (hta : t.anon = f.tree) {σ : Type} (spre spost : Cursor → World σ → Script σ)
    (hpre : ∀ c w, DeleteLast (spre c w).edits ∧ ((spre c w).answer = true → Edit.delete ∉ (spre c w).edits))
    (hpost : ∀ c w, DeleteLast (spost c w).edits) (n r : Nat) (hn : sizeOf t ≤ n) (u : σ) (h : Heap)
    (hh : h.Has t) (hr : r ∉ t.ids) (hd : t.ids.Nodup)
    (N : Nat → Tree) (o : Option Nat) (w : World (σ × List (Bool × Nat × List Edit)))
    (hw : applyRoot (noted false spre) (noted true spost) n r t.id (u, []) h = .result o w)
    (hN : ∀ x ∈ w.user.2, ∀ e ∈ x.2.2, ∀ b, e.node? = some b →
      (N b).id = b ∧ h.Has (N b) ∧ r ∉ (N b).ids ∧ ∀ a ∈ (N b).ids, a ∉ t.ids) :
    o = some (t.remadeRoot (madeAt w.user.2) N).id ∧ w.heap.Has (t.remadeRoot (madeAt w.user.2) N) :=
  C88_tree spre spost hpre hpost t n r hn u h hh hr (fun v hv =>
    Tree.WellTyped.of_anon (wtB_all (File.tree_wt f) (by rw [← hta]; exact hv.anon))) hd N o w hw hN

/-- In lists, adds the node 9 of `replaceHeap` before or after the element, in turns; elsewhere replaces the node of an
Ident by 8. -/
def adding : Cursor → World Nat → Script Nat := fun c w =>
  if c.inList then ⟨if w.user % 2 = 1 then [.after 9, .delete] else [.before 9], true, w.user + 1⟩
  else if c.node.bind (fun a => (w.heap a).kind) = some .Ident then ⟨[.replace 8], true, w.user⟩ else ⟨[], true, w.user⟩

/-- The new nodes. -/
def addable (a : Nat) : Tree := if a = 8 then .mk .LongValue 8 false [] else .mk .Ident 9 false []

def addedLog : List (Bool × Nat × List Edit) :=
  [(false, 1, []), (false, 2, []), (false, 3, []), (true, 3, [.replace 8]), (true, 2, []), (false, 4, []), (true, 4, []),
    (false, 5, []), (false, 6, []), (true, 6, [.before 9]), (false, 7, []), (true, 7, [.after 9, .delete]), (true, 5, []),
    (true, 1, [])]

/-- `(a) + b.c` becomes `(1) + d.b.d`. -/
example (o : Option Nat) (w : World (Nat × List (Bool × Nat × List Edit)))
    (hw : applyRoot (noted false still) (noted true adding) (sizeOf replaceSample) 0 1 (0, []) replaceHeap = .result o w)
    (hl : w.user.2 = addedLog) : o = some 1 ∧
    w.heap.Has (.mk .BinaryExpr 1 false [.one .Left (.mk .Nested 2 false [.one .AST (.mk .LongValue 8 false [])]),
      .one .Op (.mk .Operator 4 false []),
      .one .Right (.mk .CompoundIdent 5 false [.list .Idents [.mk .Ident 9 false [], .mk .Ident 6 false [],
        .mk .Ident 9 false []]])]) := by
  have hleaf : ∀ k i, replaceHeap i = ⟨some k, false, []⟩ → replaceHeap.Has (.mk k (i : Nat) false []) := by
    intro k i h v hv
    cases hv with
    | refl => exact h
    | child hc => cases hc
  have nil : DeleteLast [] := fun p q h => by cases p <;> cases h
  have := C88_tree still adding (fun _ _ => ⟨nil, fun _ h => by cases h⟩)
    (by
      intro c w p q h
      unfold adding at h
      split at h
      · simp only at h
        split at h
        · rcases p with _ | ⟨x, _ | ⟨y, p⟩⟩
          · simp at h
          · simp at h; exact h.2
          · simp at h
        · rcases p with _ | ⟨x, p⟩ <;> simp at h
      · split at h
        · rcases p with _ | ⟨x, p⟩ <;> simp at h
        · rcases p with _ | ⟨x, p⟩ <;> simp at h)
    replaceSample _ 0 (Nat.le_refl _) 0 _
    (fun u hu => (replaceSample_nodes u ((mem_nodes_iff _ _).2 hu)).2) (by rw [replaceSample_ids]; decide)
    (fun u hu => (replaceSample_good u hu).1) (by rw [replaceSample_ids]; decide) addable o w hw
    (by
      rw [hl, replaceSample_ids]
      intro x hx e he b hb
      have : b = 8 ∨ b = 9 := by
        have : (addedLog.all fun x => x.2.2.all fun e => e.node?.all fun b => b == 8 || b == 9) = true := by kernel_rfl
        simp only [List.all_eq_true] at this
        have := this x hx e he
        simpa [hb] using this
      rcases this with rfl | rfl
      · exact ⟨rfl, hleaf _ 8 rfl, by decide, by decide⟩
      · exact ⟨rfl, hleaf _ 9 rfl, by decide, by decide⟩)
  rw [hl, show replaceSample.remadeRoot (madeAt addedLog) addable =
    .mk .BinaryExpr 1 false [.one .Left (.mk .Nested 2 false [.one .AST (.mk .LongValue 8 false [])]),
      .one .Op (.mk .Operator 4 false []),
      .one .Right (.mk .CompoundIdent 5 false [.list .Idents [.mk .Ident 9 false [], .mk .Ident 6 false [],
        .mk .Ident 9 false []]])] by kernel_rfl] at this
  exact this

example : (match applyRoot (noted false still) (noted true adding) (sizeOf replaceSample) 0 1 (0, []) replaceHeap with
    | .result o w => some (o, w.user.2)
    | _ => none) = some (some 1, addedLog) := by kernel_rfl

end Verif
