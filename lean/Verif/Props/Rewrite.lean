/-
C87: the memory after `Apply` with callbacks that edit the tree as they go.
-/
import Verif.Proofs.Rewrite
import Verif.Props.Tour
set_option maxRecDepth 100000

namespace Verif

/-- `Apply` on a tree whose nodes have distinct addresses, with callbacks that make any edits through their cursors and
write them down; the edits may depend on everything (cursor, memory, history).  `pre` deletes only nodes below which it
does not go, and no callback touches a node after its deletion.  Then, however `Apply` ends, each struct of the tree has the
fields that it had at the beginning with the edits of its children made, all other memory is left alone, and the result is
the root or what replaced it. -/
theorem C87_memory {σ : Type} (spre spost : Cursor → World σ → Script σ)
    (hpre : ∀ c w, DeleteLast (spre c w).edits ∧ ((spre c w).answer = true → Edit.delete ∉ (spre c w).edits))
    (hpost : ∀ c w, DeleteLast (spost c w).edits) (t : Tree) (n r : Nat) (hn : sizeOf t ≤ n) (u : σ) (h : Heap)
    (hh : h.Has t) (hr : r ∉ t.ids) (hg : ∀ v, Occurs t v → v.WellTyped) (hd : t.ids.Nodup) :
    match applyRoot (noted false spre) (noted true spost) n r t.id (u, []) h with
    | .result o w => o = some (newOne (madeAt w.user.2) t.id) ∧
        ∀ a, a ≠ r → w.heap a = if a ∈ t.ids then (h a).edited (madeAt w.user.2) else h a
    | .panic w => ∀ a, a ≠ r → w.heap a = if a ∈ t.ids then (h a).edited (madeAt w.user.2) else h a
    | .oof _ => False := by
  have hset : ∀ a, a ≠ r → (h.set r ⟨none, false, [.one .Node t.id]⟩) a = h a := fun a ha => by simp [Heap.set, ha]
  have hfld : (h.set r ⟨none, false, [.one .Node t.id]⟩).field r .Node = some (.one .Node t.id) := by
    simp [Heap.field, Heap.set, FieldRef.name]
  obtain ⟨h1, h2, -⟩ := rev_apply hpre hpost n t hn hg hd r hr .Node false
    ⟨(u, []), h.set r ⟨none, false, [.one .Node t.id]⟩, 0, 0⟩ (hh.out fun a ha => hset a fun he => hr (he ▸ ha))
  obtain ⟨lg, a1, -, a3, -⟩ := h2 ⟨rfl, .inl hfld⟩
  have a3 := a3 hfld
  have key : ∀ w : World (σ × EditLog), Wrote r [t] (h.set r ⟨none, false, [.one .Node t.id]⟩) [] w lg →
      w.heap.field r .Node = some (.one .Node (newOne (madeAt lg) t.id)) →
      w.heap.ptr r .Node = some (newOne (madeAt w.user.2) t.id) ∧
        ∀ a, a ≠ r → w.heap a = if a ∈ t.ids then (h a).edited (madeAt w.user.2) else h a := by
    intro w a1 a3
    have hlog : w.user.2 = lg := by simpa using a1.log
    refine ⟨by rw [hlog]; simp [Heap.ptr, a3], fun a ha => ?_⟩
    have := a1.other (madeAt lg) (fun _ _ => rfl) a ha
    rw [this, hset a ha, hlog]
    simp
  simp only [applyRoot]
  cases ha : apply (noted false spre) (noted true spost) n ⟨r, .Node, false, some t.id⟩
      ⟨(u, []), h.set r ⟨none, false, [.one .Node t.id]⟩, 0, 0⟩ with
  | ok w => simp only [ha] at a1 a3; exact key w a1 a3
  | abort w => simp only [ha] at a1 a3; exact key w a1 a3
  | panic w => simp only [ha] at a1 a3; exact (key w a1 a3).2
  | oof w => exact h1 w ha

/-- The tree of any file, wherever its nodes are in memory.  (For a USING, a CASE without operand and an UPDATE without
WHERE `Apply` panics, here as in C81: the callbacks do not expect nil.  What was edited until then is in memory.) -/
theorem C87_file (f : File) (t : Tree) (hta : t.anon = f.tree) {σ : Type} (spre spost : Cursor → World σ → Script σ)
    (hpre : ∀ c w, DeleteLast (spre c w).edits ∧ ((spre c w).answer = true → Edit.delete ∉ (spre c w).edits))
    (hpost : ∀ c w, DeleteLast (spost c w).edits) (n r : Nat) (hn : sizeOf t ≤ n) (u : σ) (h : Heap)
    (hh : h.Has t) (hr : r ∉ t.ids) (hd : t.ids.Nodup) :
    match applyRoot (noted false spre) (noted true spost) n r t.id (u, []) h with
    | .result o w => o = some (newOne (madeAt w.user.2) t.id) ∧
        ∀ a, a ≠ r → w.heap a = if a ∈ t.ids then (h a).edited (madeAt w.user.2) else h a
    | .panic w => ∀ a, a ≠ r → w.heap a = if a ∈ t.ids then (h a).edited (madeAt w.user.2) else h a
    | .oof _ => False :=
  C87_memory spre spost hpre hpost t n r hn u h hh hr (fun v hv =>
    Tree.WellTyped.of_anon (wtB_all (File.tree_wt f) (by rw [← hta]; exact hv.anon))) hd

/-- In lists, adds a node before or after the element, in turns. -/
def everySecond : Cursor → World Nat → Script Nat := fun c w =>
  if c.inList then ⟨if w.user % 2 = 1 then [.after 2] else [.before 2], true, w.user + 1⟩ else ⟨[], true, w.user⟩

/-- Replaces and deletes the first list element whose index is more than one, then stops. -/
def deleteMoved : Cursor → World Nat → Script Nat := fun c w =>
  if c.inList && decide (w.index > 1) then ⟨[.replace 2, .delete], false, w.user⟩ else ⟨[], true, w.user⟩

/-- No edits. -/
def still : Cursor → World Nat → Script Nat := fun _ w => ⟨[], true, w.user⟩

theorem everySecond_ok (c : Cursor) (w : World Nat) : DeleteLast (everySecond c w).edits ∧
    ((everySecond c w).answer = true → Edit.delete ∉ (everySecond c w).edits) := by
  have h : Edit.delete ∉ (everySecond c w).edits := by
    unfold everySecond; split
    · simp only; split <;> simp
    · simp
  exact ⟨fun p q he => absurd (he ▸ by simp) h, fun _ => h⟩

theorem deleteMoved_ok (c : Cursor) (w : World Nat) : DeleteLast (deleteMoved c w).edits := by
  intro p q he
  unfold deleteMoved at he
  split at he
  · cases p with
    | nil => simp at he
    | cons x p =>
      cases p with
      | nil => simp at he; exact he.2
      | cons y p => simp at he
  · simp at he

example : match applyRoot (noted false everySecond) (noted true deleteMoved) (sizeOf applySample) 0 1 (0, [])
      applySample.heap with
    | .result o w => o = some (newOne (madeAt w.user.2) 1) ∧
        ∀ a, a ≠ 0 → w.heap a = if a ∈ applySample.ids then (applySample.heap a).edited (madeAt w.user.2)
          else applySample.heap a
    | .panic w => ∀ a, a ≠ 0 → w.heap a = if a ∈ applySample.ids then (applySample.heap a).edited (madeAt w.user.2)
          else applySample.heap a
    | .oof _ => False :=
  C87_memory _ _ everySecond_ok deleteMoved_ok applySample _ 0 (Nat.le_refl _) 0 _
    (fun u hu => (applySample_nodes u ((mem_nodes_iff _ _).2 hu)).2) (by decide)
    (fun u hu => (applySample_good u hu).1) (by decide)

/-- The element 5 gets a node before it, and 6 one after it; then 6 is replaced and deleted. -/
example : (match applyRoot (noted false everySecond) (noted true deleteMoved) 50 0 1 (0, []) applySample.heap with
    | .result o w => some (o, (w.heap 4).fields, madeAt w.user.2 5, madeAt w.user.2 6)
    | _ => none) =
    some (some 1, [.list .Idents [2, 5, 2]], [.before 2], [.after 2, .replace 2, .delete]) := by kernel_rfl

def usingSrc : Str := str% "SELECT a.b FROM t JOIN u USING (x);"

/-- The hypotheses of `C87_file` are met by this text, whose tree `Apply` does not go through. -/
example (fns : FloatFns) : ∃ toks f s t, tokenize genericDialect true (usingSrc.length + 1) usingSrc = .ok toks ∧
    parseFile fns (3 * toks.length + 3) true (newParser toks) = .ok f s ∧ t.anon = f.tree ∧ t.heap.Has t ∧
    0 ∉ t.ids ∧ t.ids.Nodup ∧ ∃ u, Occurs t u ∧ u.kind = .NamedColumnsJoin := by
  have h : ((fileOf fns usingSrc).map fun x => inMemory (x.2.tree.number 1).1 && decide (x.2.tree.number 1).1.ids.Nodup &&
      (x.2.tree.number 1).1.nodes.any fun u => u.kind == .NamedColumnsJoin) = some true := by kernel_rfl
  have ha : ((fileOf fns usingSrc).map fun x => x.2.tree.anon) = (fileOf fns usingSrc).map fun x => x.2.tree := by
    kernel_rfl
  obtain ⟨toks, f, s, h1, h2, h3⟩ := fileOf_some (p := fun _ f => inMemory (f.tree.number 1).1 &&
    decide (f.tree.number 1).1.ids.Nodup && (f.tree.number 1).1.nodes.any fun u => u.kind == .NamedColumnsJoin) h
  have hf : fileOf fns usingSrc = some (toks, f) := by simp only [fileOf, h1, h2]
  rw [hf] at ha
  simp only [Bool.and_eq_true, List.any_eq_true, beq_iff_eq, decide_eq_true_eq] at h3
  obtain ⟨⟨h3, h4⟩, v, hv, hk⟩ := h3
  refine ⟨toks, f, s, _, h1, h2, (Tree.number_anon 1 f.tree).trans (by simpa using ha), (inMemory_has h3).1, ?_, h4,
    v, (mem_nodes_iff _ _).1 hv, hk⟩
  intro h0
  obtain ⟨v, hv, he⟩ := List.mem_map.1 h0
  exact (inMemory_has h3).2 v ((mem_nodes_iff _ _).1 hv) he

/-- Puts each list element before itself. -/
def doubling : Cursor → World Nat → Script Nat := fun c w =>
  ⟨match c.inList, c.node with | true, some a => [.before a] | _, _ => [], true, w.user⟩

/-- The edits before the panic, in its tree. -/
example (fns : FloatFns) : ((fileOf fns usingSrc).bind fun x =>
    match applyRoot (noted false doubling) (noted true still) 500 0 1 (0, []) (x.2.tree.number 1).1.heap with
    | .panic w => some (w.user.2.filter fun x => x.2.2 != [])
    | _ => none) = some ([2, 4, 6, 7, 8, 12, 17].map fun a => (false, a, [.before a])) := by kernel_rfl

end Verif
