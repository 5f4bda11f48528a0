/-
C86: which nodes `Apply` visits when the callbacks edit the tree.
-/
import Verif.Proofs.Tour
import Verif.Props.Ready
set_option maxRecDepth 100000

namespace Verif

/-- `Apply` on a tree whose nodes have distinct addresses, with any callbacks that edit through the cursor and touch no
node after its deletion: it ends, it calls the callbacks for the nodes of the tree as it was at the beginning, in the
order of the tree, whatever they insert, replace and delete meanwhile, and stops early only if `post` answers false; it
panics only if a callback does.  Memory outside of the tree is left alone. -/
theorem C86_tour {σ : Type} (pre post : Callback σ) (hpre : Orderly false pre) (hpost : Orderly true post) (t : Tree)
    (n r : Nat) (hn : sizeOf t ≤ n) (u : σ) (h : Heap) (hh : h.Has t) (hr : r ∉ t.ids) (hg : t.Good)
    (hk : ∀ v, Occurs t v → v.kind ∉ applyUnknownKinds) (hd : t.ids.Nodup) :
    match applyRoot (recorded false pre) (recorded true post) n r t.id (u, []) h with
    | .result _ w => (Tour [t] w.user.2 none ∨ Tour [t] w.user.2 (some (some false))) ∧
        ∀ a, a ≠ r → a ∉ t.ids → w.heap a = h a
    | .panic w => Tour [t] w.user.2 (some none)
    | .oof _ => False := by
  have hset : ∀ a, a ≠ r → (h.set r ⟨none, false, [.one .Node t.id]⟩) a = h a := fun a ha => by simp [Heap.set, ha]
  obtain ⟨h1, -⟩ := visit_apply hpre hpost n t hn hg hk hd r hr .Node false
    ⟨(u, []), h.set r ⟨none, false, [.one .Node t.id]⟩, 0, 0⟩ (hh.out fun a ha => hset a fun he => hr (he ▸ ha))
  simp only [applyRoot]
  cases ha : apply (recorded false pre) (recorded true post) n ⟨r, .Node, false, some t.id⟩
      ⟨(u, []), h.set r ⟨none, false, [.one .Node t.id]⟩, 0, 0⟩ with
  | ok w =>
    simp only [ha] at h1
    obtain ⟨⟨l, e, ht⟩, ho⟩ := h1
    refine ⟨.inl (by rw [e]; exact ht), fun a har hat => ?_⟩
    rw [ho.other a har (by simpa using hat), hset a har]
  | abort w =>
    simp only [ha] at h1
    obtain ⟨⟨l, e, ht⟩, ho⟩ := h1
    refine ⟨.inr (by rw [e]; exact ht), fun a har hat => ?_⟩
    rw [ho a har (by simpa using hat), hset a har]
  | panic w =>
    simp only [ha] at h1
    obtain ⟨l, e, ht⟩ := h1
    simp only []
    rw [e]; exact ht
  | oof w => simp only [ha] at h1; exact h1

/-- On a tour only nodes of the trees are visited: nodes that callbacks put into the tree are not, unless they were in it
before.  And each callback is called for a node at most once. -/
theorem C86_once {ks : List Tree} {l : List CbCall} {e : Option (Option Bool)} (h : Tour ks l e) :
    (∀ c ∈ l, ∃ a ∈ ks.flatMap Tree.ids, c.node = some a) ∧
    ((ks.flatMap Tree.ids).Nodup → (l.map fun c => (c.post, c.node)).Nodup) := by
  have up : ∀ {t : Tree} {rest ks : List Tree} {a : Nat}, ks.Perm t.children → a ∈ ks.flatMap Tree.ids →
      a ∈ t.ids := by
    intro t rest ks a hp ha
    rw [Tree.ids_eq]
    exact List.mem_cons_of_mem _ ((hp.flatMap_right Tree.ids).mem_iff.1 ha)
  have self : ∀ t : Tree, t.id ∈ t.ids := fun t => by rw [Tree.ids_eq]; exact List.mem_cons_self ..
  have down : ∀ {t : Tree} {ks : List Tree}, ks.Perm t.children → t.ids.Nodup →
      t.id ∉ ks.flatMap Tree.ids ∧ (ks.flatMap Tree.ids).Nodup := by
    intro t ks hp hn
    rw [Tree.ids_eq, List.nodup_cons] at hn
    exact ⟨fun h => hn.1 ((hp.flatMap_right Tree.ids).mem_iff.1 h), (hp.flatMap_right Tree.ids).nodup_iff.2 hn.2⟩
  have notin : ∀ {l : List CbCall} {ids : List Nat} {b : Bool} {a : Nat},
      (∀ c ∈ l, ∃ a ∈ ids, c.node = some a) → a ∉ ids → (b, some a) ∉ l.map fun c => (c.post, c.node) := by
    intro l ids b a h ha hm
    obtain ⟨c, hc, he⟩ := List.mem_map.1 hm
    obtain ⟨a', ha', hn⟩ := h c hc
    simp only [Prod.mk.injEq, hn, Option.some.injEq] at he
    exact ha (he.2 ▸ ha')
  induction h with
  | done => exact ⟨fun c hc => (by cases hc), fun _ => List.nodup_nil⟩
  | @pruned t rest l e _ ih =>
    refine ⟨fun c hc => ?_, fun hn => ?_⟩
    · rcases List.mem_cons.1 hc with rfl | hc
      · exact ⟨t.id, by simp [self], rfl⟩
      · obtain ⟨a, ha, he⟩ := ih.1 c hc
        exact ⟨a, by rw [List.flatMap_cons]; exact List.mem_append_right _ ha, he⟩
    · simp only [List.flatMap_cons, List.nodup_append] at hn
      simp only [List.map_cons, List.nodup_cons]
      exact ⟨notin ih.1 fun h => hn.2.2 _ (self t) _ h rfl, ih.2 hn.2.1⟩
  | @node t rest ks l1 l2 e hp ho _ _ ih1 ih2 =>
    refine ⟨fun c hc => ?_, fun hn => ?_⟩
    · simp only [List.mem_cons, List.mem_append] at hc
      rcases hc with rfl | hc | rfl | hc
      · exact ⟨t.id, by simp [self], rfl⟩
      · obtain ⟨a, ha, he⟩ := ih1.1 c hc
        exact ⟨a, by rw [List.flatMap_cons]; exact List.mem_append_left _ (up (rest := rest) hp ha), he⟩
      · exact ⟨t.id, by simp [self], rfl⟩
      · obtain ⟨a, ha, he⟩ := ih2.1 c hc
        exact ⟨a, by rw [List.flatMap_cons]; exact List.mem_append_right _ ha, he⟩
    · simp only [List.flatMap_cons, List.nodup_append] at hn
      obtain ⟨d1, d2⟩ := down hp hn.1
      have hr : t.id ∉ rest.flatMap Tree.ids := fun h => hn.2.2 _ (self t) _ h rfl
      simp only [List.map_cons, List.map_append, List.nodup_cons, List.mem_append, List.mem_cons, not_or,
        List.nodup_append]
      refine ⟨⟨notin ih1.1 d1, by simp, notin ih2.1 hr⟩, ih1.2 d2, ⟨notin ih2.1 hr, ih2.2 hn.2.1⟩, ?_⟩
      intro x hx y hy hxy
      subst hxy
      rcases hy with rfl | hy
      · exact notin ih1.1 d1 hx
      · obtain ⟨c, hc, rfl⟩ := List.mem_map.1 hx
        obtain ⟨a, ha, he⟩ := ih1.1 c hc
        rw [he] at hy
        exact notin ih2.1 (fun h => hn.2.2 _ (up (rest := rest) hp ha) _ h rfl) hy
  | @fails t rest =>
    refine ⟨fun c hc => ?_, fun _ => by simp⟩
    simp only [List.mem_singleton] at hc
    subst hc
    exact ⟨t.id, by simp [self], rfl⟩
  | @inside t rest ks l e hp ho _ ih =>
    refine ⟨fun c hc => ?_, fun hn => ?_⟩
    · rcases List.mem_cons.1 hc with rfl | hc
      · exact ⟨t.id, by simp [self], rfl⟩
      · obtain ⟨a, ha, he⟩ := ih.1 c hc
        exact ⟨a, by rw [List.flatMap_cons]; exact List.mem_append_left _ (up (rest := rest) hp ha), he⟩
    · simp only [List.flatMap_cons, List.nodup_append] at hn
      obtain ⟨d1, d2⟩ := down hp hn.1
      simp only [List.map_cons, List.nodup_cons]
      exact ⟨notin ih.1 d1, ih.2 d2⟩
  | @stops t rest ks l e hp ho _ _ ih =>
    refine ⟨fun c hc => ?_, fun hn => ?_⟩
    · simp only [List.mem_cons, List.mem_append, List.not_mem_nil, or_false] at hc
      rcases hc with rfl | hc | rfl
      · exact ⟨t.id, by simp [self], rfl⟩
      · obtain ⟨a, ha, he⟩ := ih.1 c hc
        exact ⟨a, by rw [List.flatMap_cons]; exact List.mem_append_left _ (up (rest := rest) hp ha), he⟩
      · exact ⟨t.id, by simp [self], rfl⟩
    · simp only [List.flatMap_cons, List.nodup_append] at hn
      obtain ⟨d1, d2⟩ := down hp hn.1
      simp only [List.map_cons, List.map_append, List.map_nil, List.nodup_cons, List.mem_append, List.mem_cons,
        List.not_mem_nil, or_false, not_or, List.nodup_append, not_false_eq_true, List.nodup_nil, and_true, true_and]
      refine ⟨⟨notin ih.1 d1, by simp⟩, ih.2 d2, ?_⟩
      intro x hx y hy hxy
      subst hxy; subst hy
      exact notin ih.1 d1 hx

/-- If the callbacks always answer true, every node of the tree is visited. -/
theorem C86_all {ks : List Tree} {l : List CbCall} {e : Option (Option Bool)} (h : Tour ks l e)
    (ha : ∀ c ∈ l, c.answer = some true) : e = none ∧ PassAny ks l := by
  induction h with
  | done => exact ⟨rfl, .done⟩
  | pruned => exact absurd (ha _ (List.mem_cons_self ..)) (by simp)
  | node hp _ _ _ ih1 ih2 =>
    obtain ⟨-, h1⟩ := ih1 fun c hc => ha c (by simp [hc])
    obtain ⟨he, h2⟩ := ih2 fun c hc => ha c (by simp [hc])
    exact ⟨he, .node hp h1 h2⟩
  | fails => exact absurd (ha _ (List.mem_cons_self ..)) (by simp)
  | inside hp _ _ ih =>
    obtain ⟨h, -⟩ := ih fun c hc => ha c (by simp [hc])
    cases h
  | stops _ _ _ hne _ => exact absurd (ha _ (by simp; exact .inr (.inr rfl))) hne

/-- Callbacks that make edits where that is possible. -/
theorem C86_orderly {σ : Type} (b : Bool) (E : Nat → List Edit) (hE : ∀ a, DeleteLast (E a))
    (hb : b = false → ∀ a, Edit.delete ∉ E a) : Orderly b (trying E : Callback σ) := by
  intro c w
  have nil : DeleteLast [] := fun p q h => by cases p <;> cases h
  simp only [trying]
  cases c.node with
  | none => exact ⟨[], w, rfl, rfl, rfl, rfl, nil, fun _ _ h => by cases h⟩
  | some a =>
    simp only []
    cases he : c.edits (E a) w with
    | none => exact ⟨[], w, rfl, rfl, rfl, rfl, nil, fun _ _ h => by cases h⟩
    | some w' => exact ⟨E a, w', he, rfl, rfl, rfl, hE a, fun h _ => hb h a⟩

example : match applyRoot (recorded false (trying bothEdits)) (recorded true (trying allDeleted)) (sizeOf applySample) 0 1
      ((), []) applySample.heap with
    | .result _ w => (Tour [applySample] w.user.2 none ∨ Tour [applySample] w.user.2 (some (some false))) ∧
        ∀ a, a ≠ 0 → a ∉ applySample.ids → w.heap a = applySample.heap a
    | .panic w => Tour [applySample] w.user.2 (some none)
    | .oof _ => False :=
  C86_tour _ _ (C86_orderly false bothEdits
      (by
        intro a p q h
        have : Edit.delete ∈ bothEdits a := by rw [h]; simp
        unfold bothEdits at this; split at this <;> simp at this)
      (by intro _ a h; unfold bothEdits at h; split at h <;> simp at h))
    (C86_orderly true allDeleted (by
      intro a p q h
      cases p with
      | nil => simpa [allDeleted] using h.symm
      | cons x p => simp [allDeleted] at h) (by intro h; cases h))
    applySample _ 0 (Nat.le_refl _) () _
    (fun u hu => (applySample_nodes u ((mem_nodes_iff _ _).2 hu)).2) (by decide) applySample_good
    (fun u hu => (applySample_nodes u ((mem_nodes_iff _ _).2 hu)).1.2.2.1) (by decide)

example : (resultOf (applyRoot (recorded false (trying bothEdits)) (recorded true (trying allDeleted)) 50 0 1 ((), [])
      applySample.heap)).map (fun x => (x.1, x.2.map fun c => (c.post, c.node.getD 0))) =
    some (some 1, [(false, 1), (false, 2), (true, 2), (false, 3), (true, 3), (false, 4), (false, 5), (true, 5),
      (false, 6), (true, 6), (true, 4), (true, 1)]) := by kernel_rfl

/-- `a.b.c.d` -/
def fourParts : Tree :=
  .mk .CompoundIdent 1 false [.list .Idents [.mk .Ident 2 false [], .mk .Ident 3 false [], .mk .Ident 4 false [],
    .mk .Ident 5 false []]]

/-- With a `post` that deletes the second element twice, the first one is visited again and the third one never is: the
tour needs callbacks that leave a node alone after its deletion. -/
theorem C86_twice_false : (resultOf (applyRoot (recorded false idle)
      (recorded true (trying fun a => if a = 3 then [.delete, .delete] else [])) 50 0 1 ((), []) fourParts.heap)).map
      (fun x => (x.1, x.2.map fun c => (c.post, c.node.getD 0))) =
    some (some 1, [(false, 1), (false, 2), (true, 2), (false, 3), (true, 3), (false, 2), (true, 2), (false, 5),
      (true, 5), (true, 1)]) := by kernel_rfl

/-- `(a, b, c)` -/
def threeValues : Tree :=
  .mk .RowValueExpr 1 false [.list .Values [.mk .Ident 2 false [], .mk .Ident 3 false [], .mk .Ident 4 false []]]

/-- At the second value: puts the whole row before it, then deletes two values. -/
def rowIntoItself (a : Nat) : List Edit := if a = 3 then [.before 1, .delete, .delete] else []

theorem leaf_apply (n a : Nat) (p : Nat) (name : FName) (l : Bool) (w : World Unit) (ha : a ≠ 3)
    (hk : (w.heap a).kind = some .Ident) :
    apply idle (trying rowIntoItself) (n + 1) ⟨p, name, l, some a⟩ w = .ok w := by
  have : Kind.apply .Ident = some [] := rfl
  simp [apply, idle, hk, this, applySteps, AOut.bind, trying, rowIntoItself, ha, Cursor.edits]

theorem row_apply (n : Nat) : ∀ (p : Nat) (name : FName) (l : Bool) (w : World Unit),
    w.heap 1 = ⟨some .RowValueExpr, false, [.list .Values [2, 1]]⟩ → (w.heap 2).kind = some .Ident →
    ∃ w', apply idle (trying rowIntoItself) n ⟨p, name, l, some 1⟩ w = .oof w' := by
  induction n with
  | zero => intro p name l w _ _; exact ⟨w, rfl⟩
  | succ n ih =>
    intro p name l w h1 h2
    have hk : Kind.apply .RowValueExpr = some [.list .Values] := rfl
    have e : ∀ w', listLoop (fun b => apply idle (trying rowIntoItself) n ⟨1, .Values, true, b⟩) 1 .Values n
        { w with index := 0 } = .oof w' → apply idle (trying rowIntoItself) (n + 1) ⟨p, name, l, some 1⟩ w = .oof w' := by
      intro w' hw
      simp [apply, idle, h1, hk, applySteps, applyStep, applyList, hw, AOut.bind]
    suffices h : ∃ w', listLoop (fun b => apply idle (trying rowIntoItself) n ⟨1, .Values, true, b⟩) 1 .Values n
        { w with index := 0 } = .oof w' from h.imp e
    cases n with
    | zero => exact ⟨_, rfl⟩
    | succ n =>
      have hf : ∀ (w' : World Unit), w'.heap = w.heap → w'.heap.field 1 .Values = some (.list .Values [2, 1]) := by
        intro w' hw; simp [Heap.field, hw, h1, FieldRef.name]
      rw [listLoop, hf _ rfl]
      simp only [List.length_cons, List.length_nil]
      rw [if_neg (by decide), if_neg (by decide)]
      simp only [Int.toNat_zero, List.getElem?_cons_zero]
      rw [leaf_apply n 2 1 .Values true ⟨w.user, w.heap, 0, 1⟩ (by decide) h2, AOut.bind_ok]
      cases n with
      | zero => exact ⟨_, rfl⟩
      | succ n =>
        rw [listLoop, hf _ rfl]
        simp only [List.length_cons, List.length_nil]
        rw [if_neg (by decide), if_neg (by decide)]
        obtain ⟨w', hw⟩ := ih 1 .Values true ⟨w.user, w.heap, 0 + 1, 1⟩ h1 h2
        refine ⟨w', ?_⟩
        have : ([2, 1] : List Nat)[((0 : Int) + 1).toNat]? = some 1 := rfl
        simp only [this, hw, AOut.bind]

/-- With such a `post`, `Apply` does not end: after the two deletions it goes back to what was put in, the row itself,
which now is one of its own values. -/
theorem C86_endless_false : ∀ n, ∃ w, applyRoot idle (trying rowIntoItself) n 0 1 () threeValues.heap = .oof w := by
  intro n
  have hk : Kind.apply .RowValueExpr = some [.list .Values] := rfl
  let h0 := threeValues.heap.set 0 ⟨none, false, [.one .Node 1]⟩
  suffices h : ∃ w, apply idle (trying rowIntoItself) n ⟨0, .Node, false, some 1⟩ ⟨(), h0, 0, 0⟩ = .oof w by
    obtain ⟨w, hw⟩ := h
    exact ⟨w, by simp only [applyRoot]; rw [hw]⟩
  have h1 : h0 1 = ⟨some .RowValueExpr, false, [.list .Values [2, 3, 4]]⟩ := by kernel_rfl
  have h2 : (h0 2).kind = some .Ident := by kernel_rfl
  have h3 : (h0 3).kind = some .Ident := by kernel_rfl
  cases n with
  | zero => exact ⟨_, rfl⟩
  | succ n =>
    have e : ∀ w', listLoop (fun b => apply idle (trying rowIntoItself) n ⟨1, .Values, true, b⟩) 1 .Values n
        ⟨(), h0, 0, 0⟩ = .oof w' → apply idle (trying rowIntoItself) (n + 1) ⟨0, .Node, false, some 1⟩ ⟨(), h0, 0, 0⟩ = .oof w' := by
      intro w' hw
      simp [apply, idle, h1, hk, applySteps, applyStep, applyList, hw, AOut.bind]
    suffices h : ∃ w', listLoop (fun b => apply idle (trying rowIntoItself) n ⟨1, .Values, true, b⟩) 1 .Values n
        ⟨(), h0, 0, 0⟩ = .oof w' from h.imp e
    have hf : h0.field 1 .Values = some (.list .Values [2, 3, 4]) := by simp [Heap.field, h1, FieldRef.name]
    cases n with
    | zero => exact ⟨_, rfl⟩
    | succ n =>
      rw [listLoop, hf]
      simp only [List.length_cons, List.length_nil]
      rw [if_neg (by decide), if_neg (by decide)]
      simp only [Int.toNat_zero, List.getElem?_cons_zero]
      rw [leaf_apply n 2 1 .Values true ⟨(), h0, 0, 1⟩ (by decide) h2, AOut.bind_ok]
      cases n with
      | zero => exact ⟨_, rfl⟩
      | succ n =>
        rw [listLoop, hf]
        simp only [List.length_cons, List.length_nil]
        rw [if_neg (by decide), if_neg (by decide)]
        have : ([2, 3, 4] : List Nat)[((0 : Int) + 1).toNat]? = some 3 := rfl
        simp only [this]
        -- the edits
        obtain ⟨w3, hw3, g1, g2, g3, g4⟩ : ∃ w3 : World Unit,
            apply idle (trying rowIntoItself) (n + 1 + 1) ⟨1, .Values, true, some 3⟩ ⟨(), h0, 0 + 1, 1⟩ = .ok w3 ∧
            w3.heap 1 = ⟨some .RowValueExpr, false, [.list .Values [2, 1]]⟩ ∧ (w3.heap 2).kind = some .Ident ∧
            w3.index = 2 ∧ w3.step = -1 := by
          cases he : Cursor.edits ⟨1, .Values, true, some 3⟩ [.before 1, .delete, .delete]
              (⟨(), h0, 0 + 1, 1⟩ : World Unit) with
          | none =>
            have : (Cursor.edits ⟨1, .Values, true, some 3⟩ [.before 1, .delete, .delete]
              (⟨(), h0, 0 + 1, 1⟩ : World Unit)).isSome = true := by kernel_rfl
            rw [he] at this; cases this
          | some w3 =>
            have hki : Kind.apply .Ident = some [] := rfl
            refine ⟨w3, ?_, ?_⟩
            · simp only [apply, idle, h3, Option.bind_some, hki, applySteps, AOut.bind, trying, rowIntoItself, if_true, he]
            · have : (Cursor.edits ⟨1, .Values, true, some 3⟩ [.before 1, .delete, .delete]
                (⟨(), h0, 0 + 1, 1⟩ : World Unit)).map (fun w => (w.heap 1, (w.heap 2).kind, w.index, w.step)) =
                some (⟨some .RowValueExpr, false, [.list .Values [2, 1]]⟩, some .Ident, 2, -1) := by kernel_rfl
              rw [he] at this
              simp only [Option.map_some, Option.some.injEq, Prod.mk.injEq] at this
              exact this
        rw [hw3, AOut.bind_ok]
        cases n with
        | zero => exact ⟨_, rfl⟩
        | succ n =>
          have hf3 : w3.heap.field 1 .Values = some (.list .Values [2, 1]) := by simp [Heap.field, g1, FieldRef.name]
          rw [listLoop]
          simp only [hf3, g3, g4, List.length_cons, List.length_nil]
          rw [if_neg (by decide), if_neg (by decide)]
          obtain ⟨w', hw⟩ := row_apply (n + 1 + 1 + 1) 1 .Values true ⟨w3.user, w3.heap, 2 + -1, 1⟩ g1 g2
          refine ⟨w', ?_⟩
          have : ([2, 1] : List Nat)[((2 : Int) + -1).toNat]? = some 1 := rfl
          simp only [this, hw, AOut.bind]

end Verif
