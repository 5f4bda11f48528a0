/-
C85: `Apply` does not panic by itself.
-/
import Verif.Proofs.Ready
import Verif.Props.Typed
set_option maxRecDepth 100000

namespace Verif

/-- If the memory is well typed, `Apply` can cope with all structs in it, and the callbacks do not panic and together
delete a node at most once, `Apply` does not panic, whatever the callbacks do to the tree with their cursors.  (It need
not return: the memory may have cycles.) -/
theorem C85_no_panic {σ : Type} (pre post : Callback σ) {k1 k2 : Nat} (hpre : Mild k1 pre) (hpost : Mild k2 post)
    (hk : k1 + k2 ≤ 1) (n r root : Nat) (u : σ) (h : Heap) (ht : h.Typed) (hy : h.Ready) (hroot : (h root).kind ≠ none)
    (hr : (h r).kind = none) : ∀ w, applyRoot pre post n r root u h ≠ .panic w := by
  have hne : ∀ {a}, (h a).kind ≠ none → a ≠ r := fun ha hb => ha (hb ▸ hr)
  have ht0 := typed_root ht hroot hr
  have hy0 : (h.set r ⟨none, false, [.one .Node root]⟩).Ready := by
    intro a k hka
    by_cases ha : a = r
    · subst ha; simp [Heap.set] at hka
    · have e : (h.set r ⟨none, false, [.one .Node root]⟩) a = h a := by simp [Heap.set, ha]
      rw [e] at hka ⊢
      simp only [Heap.ptr, Heap.field, e]
      exact hy a k hka
  have hs := safe_apply hpre hpost hk n ⟨r, .Node, false, some root⟩ ⟨u, h.set r ⟨none, false, [.one .Node root]⟩, 0, 0⟩
    ht0 hy0 ⟨root, rfl, by simp only [Heap.set, if_neg (hne hroot)]; exact hroot⟩
  intro w hw
  simp only [applyRoot] at hw
  cases ha : apply pre post n ⟨r, .Node, false, some root⟩ ⟨u, h.set r ⟨none, false, [.one .Node root]⟩, 0, 0⟩ with
  | panic w' => rw [ha] at hs; exact hs
  | ok w' => rw [ha] at hw; cases hw
  | abort w' => rw [ha] at hw; cases hw
  | oof w' => rw [ha] at hw; cases hw

/-- A tree without the exceptions of `Tree.Regular` and with node types that `Apply` knows, alone in memory: `Apply` can
cope with it. -/
theorem C85_tree (t : Tree) (hg : t.Good) (hk : ∀ v, Occurs t v → v.kind ∉ applyUnknownKinds) : t.heap.Ready := by
  intro a k hka
  cases hf : t.nodes.find? (fun u => u.id == a) with
  | none => simp only [Tree.heap, hf] at hka; cases hka
  | some u =>
    have ho : Occurs t u := (mem_nodes_iff _ _).1 (List.mem_of_find?_eq_some hf)
    have ha : t.heap a = ⟨some u.kind, u.all, u.fields.map FieldVal.ref⟩ := by simp only [Tree.heap, hf]
    rw [ha] at hka
    simp only [Option.some.injEq] at hka
    subst hka
    obtain ⟨hw, hreg⟩ := hg u ho
    have hnames := fitsAll_names hw.1
    have hfield : ∀ d ∈ u.kind.fields, d.slice = false → FieldVal.nil d.name ∉ u.fields →
        t.heap.ptr a d.name ≠ none := by
      intro d hd hsl hnil
      have hm : d.name ∈ u.fields.map FieldVal.name := hnames ▸ List.mem_map_of_mem hd
      obtain ⟨x, hx, hxn⟩ := List.mem_map.1 hm
      simp only [Heap.ptr, Heap.field, ha]
      cases hfd : (u.fields.map FieldVal.ref).find? (fun x => x.name == d.name) with
      | none =>
        exact absurd (List.find?_eq_none.1 hfd x.ref (List.mem_map_of_mem hx)) (by simp [hxn])
      | some y =>
        obtain ⟨z, hz, rfl⟩ := List.mem_map.1 (List.mem_of_find?_eq_some hfd)
        have hzn : z.name = d.name := by simpa using List.find?_some hfd
        obtain ⟨d', hd', hfit⟩ := (fitsAll_both hw.1).2 z hz
        have hz' : z.name = d'.name := by
          cases z <;> (simp only [FieldVal.fits, Bool.and_eq_true, beq_iff_eq] at hfit; exact hfit.1.1)
        obtain rfl := decl_unique ⟨some u.kind, u.all, []⟩ d' hd' d hd (hz'.symm.trans hzn)
        cases z with
        | nil f => cases hzn; exact absurd hz hnil
        | one f c => simp [FieldVal.ref]
        | list f cs =>
          simp only [FieldVal.fits, Bool.and_eq_true] at hfit
          have := hfit.1.2
          rw [hsl] at this; cases this
    refine ⟨hk u ho, by rw [ha]; simp only [List.map_map]; rw [← hnames]; exact List.map_congr_left fun x _ => by simp,
      fun d hd hsl hopt => hfield d hd hsl fun hnil => ?_, fun hl hall => ?_⟩
    · obtain ⟨d', hd', hfit⟩ := (fitsAll_both hw.1).2 _ hnil
      simp only [FieldVal.fits, Bool.and_eq_true, beq_iff_eq] at hfit
      have hun := hopt (by simpa using hfit.2)
      exact hreg.2.2 _ hnil hun rfl
    · rw [ha] at hall
      have hall' : u.all = false := hall
      refine hfield ⟨.LimitValue, false, .ptr .LongValue⟩ (by rw [hl]; decide) rfl fun hnil => ?_
      have := (hw.2 hl).2 hnil
      rw [hall'] at this; cases this

/-- Callbacks that make edits where that is possible, at most one deletion for a node. -/
theorem C85_mild {σ : Type} (E : Nat → List Edit) (k : Nat) (hE : ∀ a, deletions (E a) ≤ k) :
    Mild k (trying E : Callback σ) := by
  intro c w
  simp only [trying]
  cases c.node with
  | none => exact ⟨[], w, false, w.user, rfl, Nat.zero_le _, rfl⟩
  | some a =>
    simp only []
    cases he : c.edits (E a) w with
    | none => exact ⟨[], w, true, w.user, rfl, Nat.zero_le _, rfl⟩
    | some w' => exact ⟨E a, w', true, w'.user, he, hE a, rfl⟩

/-- In `a + b.c`: `pre` puts `c` before and after `b`, `post` deletes everything that is in a list. -/
def bothEdits : Nat → List Edit := fun a => if a = 5 then [.before 6, .after 6] else []
def allDeleted : Nat → List Edit := fun _ => [.delete]

example : ∀ n w, applyRoot (trying bothEdits) (trying allDeleted) n 0 1 () applySample.heap ≠ .panic w := fun n =>
  C85_no_panic _ _ (C85_mild bothEdits 0 (by intro a; unfold bothEdits; split <;> decide))
    (C85_mild allDeleted 1 (fun _ => Nat.le_refl 1)) (Nat.le_refl _) n 0 1 () applySample.heap
    (C84_tree _ (fun u hu => (applySample_good u hu).1) fun u hu => (applySample_nodes u ((mem_nodes_iff _ _).2 hu)).2)
    (C85_tree _ applySample_good fun u hu => (applySample_nodes u ((mem_nodes_iff _ _).2 hu)).1.2.2.1)
    (by decide) (by decide)

example : (match applyRoot (trying bothEdits) (trying allDeleted) 50 0 1 () applySample.heap with
    | .result o w => some (o, (w.heap 4).fields)
    | _ => none) = some (some 1, [.list .Idents [6, 6]]) := by kernel_rfl

/-- With two deletions for one node, one by `pre` and one by `post`, `Apply` panics although neither callback does: the
second one removes the next element and the index becomes negative. -/
theorem C85_twice_false : (match applyRoot (trying allDeleted) (trying allDeleted) 50 0 1 () applySample.heap with
    | .panic w => some (w.heap 4).fields
    | _ => none) = some [.list .Idents []] := by kernel_rfl

end Verif
