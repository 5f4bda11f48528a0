/-
C40 - C43: `Apply` and its cursor.

`recorded` callbacks write down their calls; `C42_record` says that this changes nothing.
-/
import Verif.Proofs.Apply
import Verif.Proofs.Embed
import Verif.Proofs.KernelRfl
set_option maxRecDepth 100000

namespace Verif

/-- The tree in a heap that holds nothing else. -/
def Tree.heap (t : Tree) : Heap := fun a =>
  match t.nodes.find? (fun u => u.id == a) with
  | some u => ⟨some u.kind, u.all, u.fields.map FieldVal.ref⟩
  | none => ⟨none, false, []⟩

/-- A callback that returns true and does nothing. -/
def idle : Callback Unit := fun _ w => .ret true w

/-- The result of `Apply` and the record of the calls. -/
def resultOf {σ : Type} : ApplyResult (σ × List CbCall) → Option (Option Nat × List CbCall)
  | .result x w => some (x, w.user.2)
  | .panic _ => none
  | .oof _ => none

/-! ### C40 -/

/-- Callbacks that return true and make no edits never change the heap, whatever is in it and however `Apply` ends. -/
theorem C40_unchanged {σ : Type} (pre post : Callback σ) (hpre : Quiet pre) (hpost : Quiet post) (n r root : Nat)
    (u : σ) (h : Heap) :
    match applyRoot pre post n r root u h with
    | .result _ w | .panic w | .oof w => ∀ a, a ≠ r → w.heap a = h a := by
  have hs := same_apply (g := fun _ => ()) (bad := fun _ => False) (pre := pre) (post := post)
    (fun c w _ => by obtain ⟨u, hu⟩ := hpre c w; exact ⟨true, u, hu, rfl⟩)
    (fun c w _ => by obtain ⟨u, hu⟩ := hpost c w; exact ⟨true, u, hu, rfl⟩) n ⟨r, .Node, false, some root⟩
    ⟨u, h.set r ⟨none, false, [.one .Node root]⟩, 0, 0⟩ rfl (fun h => h) (fun _ _ _ _ _ _ _ h => h)
  have hset : ∀ a, a ≠ r → (h.set r ⟨none, false, [.one .Node root]⟩) a = h a := fun a ha => by
    simp [Heap.set, ha]
  simp only [applyRoot]
  cases hr : apply pre post n ⟨r, .Node, false, some root⟩ ⟨u, h.set r ⟨none, false, [.one .Node root]⟩, 0, 0⟩ with
  | ok w => rw [hr] at hs; intro a ha; simp only [hs.1]; exact hset a ha
  | abort w => rw [hr] at hs; intro a ha; simp only [show w.heap = _ from hs]; exact hset a ha
  | panic w => rw [hr] at hs; intro a ha; simp only [show w.heap = _ from hs]; exact hset a ha
  | oof w => rw [hr] at hs; intro a ha; simp only [show w.heap = _ from hs]; exact hset a ha

theorem root_aux {σ : Type} (pre post : Callback σ) (hpre : Quiet pre) (hpost : Quiet post) (t : Tree) (n r : Nat)
    (hn : sizeOf t ≤ n) (u : σ) (h : Heap) (hh : h.Has t) (hr : ∀ v, Occurs t v → v.id ≠ r) (hg : t.Good)
    (hk : ∀ v, Occurs t v → v.kind ∉ applyUnknownKinds) :
    ∃ w, applyRoot (recorded false pre) (recorded true post) n r t.id (u, []) h = .result (some t.id) w ∧
      (∀ a, a ≠ r → w.heap a = h a) ∧ PassW [t] w.user.2 := by
  have hset : ∀ a, a ≠ r → (h.set r ⟨none, false, [.one .Node t.id]⟩) a = h a := fun a ha => by
    simp [Heap.set, ha]
  obtain ⟨w', l, e1, e2, e3, e4, e5, e6⟩ := runs_apply hpre hpost
    (h := h.set r ⟨none, false, [.one .Node t.id]⟩) n t hn
    (fun v hv => by rw [hset _ (hr v hv)]; exact hh v hv) hg hk r .Node false
    ⟨(u, []), h.set r ⟨none, false, [.one .Node t.id]⟩, 0, 0⟩ rfl
  refine ⟨w', ?_, ?_, ?_⟩
  · simp only [applyRoot, e1]
    rw [e2]
    simp [Heap.ptr, Heap.field, Heap.set, FieldRef.name]
  · intro a ha; rw [e2]; exact hset a ha
  · simp only [List.nil_append] at e5
    rw [e5]; exact e6

/-- With such callbacks `Apply` returns the root, and the callbacks are called for each node of the tree: `pre`
before and `post` after the calls for its children.  `r` is the address of the local variable of `Apply`, which is
not a node of the tree. -/
theorem C40_calls {σ : Type} (pre post : Callback σ) (hpre : Quiet pre) (hpost : Quiet post) (t : Tree) (n r : Nat)
    (hn : sizeOf t ≤ n) (u : σ) (h : Heap) (hh : h.Has t) (hr : ∀ v, Occurs t v → v.id ≠ r) (hg : t.Good)
    (hk : ∀ v, Occurs t v → v.kind ∉ applyUnknownKinds) :
    ∃ w, applyRoot (recorded false pre) (recorded true post) n r t.id (u, []) h = .result (some t.id) w ∧
      (∀ a, a ≠ r → w.heap a = h a) ∧ PassAny [t] w.user.2 := by
  obtain ⟨w, h1, h2, h3⟩ := root_aux pre post hpre hpost t n r hn u h hh hr hg hk
  exact ⟨w, h1, h2, passW_any h3 (by intro c hc; simp at hc; subst hc; exact hg)⟩

/-- Without CTE and CROSS JOIN nodes the children come in the order of the declaration. -/
theorem C40_order {σ : Type} (pre post : Callback σ) (hpre : Quiet pre) (hpost : Quiet post) (t : Tree) (n r : Nat)
    (hn : sizeOf t ≤ n) (u : σ) (h : Heap) (hh : h.Has t) (hr : ∀ v, Occurs t v → v.id ≠ r) (hg : t.Good)
    (hk : ∀ v, Occurs t v → v.kind ∉ applyUnknownKinds) (ho : ∀ v, Occurs t v → v.kind ∉ reorderedKinds) :
    ∃ w, applyRoot (recorded false pre) (recorded true post) n r t.id (u, []) h = .result (some t.id) w ∧
      (∀ a, a ≠ r → w.heap a = h a) ∧ Pass [t] w.user.2 := by
  obtain ⟨w, h1, h2, h3⟩ := root_aux pre post hpre hpost t n r hn u h hh hr hg hk
  exact ⟨w, h1, h2, passW_ordered h3 (by intro c hc; simp at hc; subst hc; exact ⟨hg, ho⟩)⟩

/-- `a + b.c` -/
def applySample : Tree :=
  .mk .BinaryExpr 1 false [.one .Left (.mk .Ident 2 false []), .one .Op (.mk .Operator 3 false []),
    .one .Right (.mk .CompoundIdent 4 false [.list .Idents [.mk .Ident 5 false [], .mk .Ident 6 false []]])]

theorem applySample_nodes : ∀ u ∈ applySample.nodes,
    (wtLocal u.kind u.all u.fields = true ∧ u.kind ∉ reorderedKinds ∧ u.kind ∉ applyUnknownKinds ∧
    (u.fields.all fun x => !unwalkedFields.contains (u.kind, x.name) &&
      !uncheckedFields.contains (u.kind, x.name)) = true ∧ u.id ≠ 0) ∧
    applySample.heap u.id = ⟨some u.kind, u.all, u.fields.map FieldVal.ref⟩ := by
  simp only [applySample, Tree.nodes, Tree.nodesFields, Tree.nodesField, Tree.nodesList,
    List.cons_append, List.nil_append, List.append_nil, List.mem_cons, List.not_mem_nil, or_false]
  rintro u (rfl | rfl | rfl | rfl | rfl | rfl) <;>
    exact ⟨⟨rfl, by decide, by decide, rfl, by decide⟩, rfl⟩

theorem applySample_good : applySample.Good := by
  intro u hu
  obtain ⟨⟨h1, _, h3, h4, _⟩, _⟩ := applySample_nodes u ((mem_nodes_iff _ _).2 hu)
  refine ⟨?_, fun h => h3 (List.mem_cons_of_mem _ h), ?_, ?_⟩
  · cases u; exact wtLocal_wellTyped h1
  · intro x hx hm
    have := List.all_eq_true.1 h4 x hx
    simp only [Bool.and_eq_true, Bool.not_eq_true'] at this
    have h5 : unwalkedFields.contains (u.kind, x.name) = true := by simpa using hm
    rw [this.1] at h5; cases h5
  · intro x hx hm
    have := List.all_eq_true.1 h4 x hx
    simp only [Bool.and_eq_true, Bool.not_eq_true'] at this
    have h5 : uncheckedFields.contains (u.kind, x.name) = true := by simpa using hm
    rw [this.2] at h5; cases h5

example : ∃ w, applyRoot (recorded false idle) (recorded true idle) (sizeOf applySample) 0 1 ((), [])
    applySample.heap = .result (some 1) w ∧ (∀ a, a ≠ 0 → w.heap a = applySample.heap a) ∧
    Pass [applySample] w.user.2 :=
  C40_order idle idle (fun _ _ => ⟨_, rfl⟩) (fun _ _ => ⟨_, rfl⟩) applySample _ 0 (Nat.le_refl _) () _
    (fun u hu => (applySample_nodes u ((mem_nodes_iff _ _).2 hu)).2)
    (fun u hu => (applySample_nodes u ((mem_nodes_iff _ _).2 hu)).1.2.2.2.2) applySample_good
    (fun u hu => (applySample_nodes u ((mem_nodes_iff _ _).2 hu)).1.2.2.1)
    (fun u hu => (applySample_nodes u ((mem_nodes_iff _ _).2 hu)).1.2.1)

example : (resultOf (applyRoot (recorded false idle) (recorded true idle) 50 0 1 ((), []) applySample.heap)).map
    (fun x => (x.1, x.2.map fun c => (c.post, c.node.getD 0))) =
    some (some 1, [(false, 1), (false, 2), (true, 2), (false, 3), (true, 3), (false, 4), (false, 5), (true, 5),
      (false, 6), (true, 6), (true, 4), (true, 1)]) := by kernel_rfl

/-! ### C41 -/

/-- The loop of `Apply` over the list `f` of the struct at `p`, starting in any state of the program, with callbacks
that make arbitrary edits on the elements of that list: if the loop ends normally, each element that was in the list
was presented once to `pre` and, unless that returned false, once to `post`, in order; nothing that the edits put
into the list was presented; the list is the old one with exactly the edits made; and nothing else has changed.

The edits may depend on the element and on a state of the callbacks.  Excluded is what makes no sense: editing an
element after deleting it (`DeleteLast`; a `pre` that deletes must return false, as `post` would be called
otherwise), and elements through which the list itself can be reached.  Other nodes are not edited here. -/
theorem C41_edits {σ : Type} (p : Nat) (f : FName) (spre spost : Nat → σ → Script σ)
    (opre opost : Cursor → σ → Bool × σ)
    (hpre : ∀ x u, DeleteLast (spre x u).edits ∧ (Edit.delete ∈ (spre x u).edits → (spre x u).answer = false))
    (hpost : ∀ x u, DeleteLast (spost x u).edits) (m n : Nat) (xs : List Nat)
    (w w' : World (σ × List (Bool × Nat × List Edit)))
    (hlist : w.heap.field p f = some (.list f xs)) (hleads : ∀ x ∈ xs, ¬ Leads w.heap x p)
    (h : applyList (fun b => apply (scripted false p f spre opre) (scripted true p f spost opost) m ⟨p, f, true, b⟩)
      p f n w = .ok w') :
    ∃ log ys, w'.user.2 = w.user.2 ++ log ∧ Edited xs log ys ∧ w'.heap.field p f = some (.list f ys) ∧
      Frame w.heap p f w'.heap ∧ w'.index = w.index ∧ w'.step = w.step := by
  simp only [applyList] at h
  cases hr : listLoop (fun b => apply (scripted false p f spre opre) (scripted true p f spost opost) m ⟨p, f, true, b⟩)
      p f n { w with index := 0 } with
  | panic => simp only [hr] at h; simp at h
  | abort => simp only [hr] at h; simp at h
  | oof => simp only [hr] at h; simp at h
  | ok w1 =>
    simp only [hr, AOut.bind_ok, AOut.ok.injEq] at h
    subst h
    obtain ⟨l, ys, h1, h2, h3, h4⟩ := loop_edited hpre hpost m n xs [] { w with index := 0 } w1 hleads hlist rfl
      (Frame.refl _ _ _) hr
    exact ⟨l, ys, h1, h2, by simpa using h3, h4, rfl, rfl⟩

/-- The loop does end normally if `pre` always returns false and puts only nodes into the list that its element type
allows; the budget has to exceed the length of the list. -/
theorem C41_returns {σ : Type} (p : Nat) (f : FName) (spre spost : Nat → σ → Script σ)
    (opre opost : Cursor → σ → Bool × σ) (m n : Nat) (xs : List Nat)
    (w : World (σ × List (Bool × Nat × List Edit)))
    (hpre : ∀ x u, DeleteLast (spre x u).edits ∧ (spre x u).answer = false ∧
      ∀ e ∈ (spre x u).edits, ∀ n, e.node? = some n → w.heap.assignable p f n = true)
    (hlist : w.heap.field p f = some (.list f xs)) (hn : xs.length < n) :
    ∃ w', applyList (fun b => apply (scripted false p f spre opre) (scripted true p f spost opost) (m + 1)
      ⟨p, f, true, b⟩) p f n w = .ok w' := by
  obtain ⟨w1, h1⟩ := loop_total (σ := σ) (p := p) (f := f) (h0 := w.heap) (spre := spre) (spost := spost)
    (opre := opre) (opost := opost) hpre m n xs [] { w with index := 0 } hn hlist rfl (Frame.refl _ _ _)
  exact ⟨_, by simp only [applyList, h1, AOut.bind_ok]; rfl⟩

/-- In `a.b`: put 7 and 8 before and 9 after the first element, delete the second one. -/
def editScript : Nat → Unit → Script Unit
  | 5, _ => ⟨[.before 7, .before 8, .after 9], true, ()⟩
  | 6, _ => ⟨[.delete], false, ()⟩
  | _, _ => ⟨[], true, ()⟩

/-- The identifiers 5 and 6 in the list `Idents` of 4; 7, 8, 9 are spare identifiers. -/
def editHeap : Heap := fun a =>
  if a = 4 then ⟨some .CompoundIdent, false, [.list .Idents [5, 6]]⟩ else ⟨some .Ident, false, []⟩

/-- `post` replaces the first element by 10. -/
def editRun : AOut (Unit × List (Bool × Nat × List Edit)) :=
  applyList (fun b => apply (scripted false 4 .Idents editScript (fun _ _ => (true, ())))
    (scripted true 4 .Idents (fun x _ => ⟨if x = 5 then [.replace 10] else [], true, ()⟩) (fun _ _ => (true, ())))
      9 ⟨4, .Idents, true, b⟩) 4 .Idents 9 ⟨((), []), editHeap, 0, 0⟩

example : (match editRun with
    | .ok w => some (w.heap.field 4 .Idents, w.user.2)
    | _ => none) =
    some (some (.list .Idents [7, 8, 10, 9]), [(false, 5, [.before 7, .before 8, .after 9]), (true, 5, [.replace 10]),
      (false, 6, [.delete])]) := by kernel_rfl

example : ∃ w' log ys, editRun = .ok w' ∧ w'.user.2 = log ∧ Edited [5, 6] log ys ∧
    w'.heap.field 4 .Idents = some (.list .Idents ys) := by
  have hleads : ∀ x ∈ [5, 6], ¬ Leads editHeap x 4 := by
    intro x hx hl
    have key : ∀ a b, Leads editHeap a b → a ≠ 4 → b = a := by
      intro a b hl ha
      have hfs : (editHeap a).fields = [] := by simp [editHeap, ha]
      cases hl with
      | refl => rfl
      | one hm => rw [hfs] at hm; cases hm
      | list hm => rw [hfs] at hm; cases hm
    simp only [List.mem_cons, List.not_mem_nil, or_false] at hx
    rcases hx with rfl | rfl
    · exact absurd (key _ _ hl (by decide)) (by decide)
    · exact absurd (key _ _ hl (by decide)) (by decide)
  have hdl : ∀ es : List Edit, es.dropLast.all (· != .delete) = true → DeleteLast es := by
    intro es he a b hab
    subst hab
    cases b with
    | nil => rfl
    | cons c b =>
      have := List.all_eq_true.1 he .delete (by
        rw [List.dropLast_append_of_ne_nil (by simp)]
        exact List.mem_append_right _ (by simp [List.dropLast]))
      simp at this
  have hok : (match editRun with | .ok _ => true | _ => false) = true := by kernel_rfl
  cases hr : editRun with
  | panic => rw [hr] at hok; cases hok
  | abort => rw [hr] at hok; cases hok
  | oof => rw [hr] at hok; cases hok
  | ok w' =>
    obtain ⟨log, ys, h1, h2, h3, _⟩ := C41_edits 4 .Idents editScript
      (fun x _ => ⟨if x = 5 then [.replace 10] else [], true, ()⟩) (fun _ _ => (true, ())) (fun _ _ => (true, ()))
      (by
        intro x u
        unfold editScript
        split
        · exact ⟨hdl _ rfl, by decide⟩
        · exact ⟨hdl _ rfl, by simp⟩
        · exact ⟨hdl _ rfl, by simp⟩)
      (by intro x u; apply hdl; by_cases hx : x = 5 <;> simp [hx]) 9 9 [5, 6] ⟨((), []), editHeap, 0, 0⟩ w' rfl
      hleads hr
    exact ⟨w', log, ys, rfl, h1, h2, h3⟩

/-! ### C42 -/

/-- Keeping the record does not change what `apply` does. -/
theorem C42_record {σ : Type} (pre post : Callback σ) (n : Nat) (c : Cursor) (w : World (σ × List CbCall)) :
    (apply (recorded false pre) (recorded true post) n c w).map Prod.fst = apply pre post n c (w.map Prod.fst) :=
  map_apply pre post n c w

/-- If a call of `post` returns false it is the last call of any callback and `Apply` returns, namely what its local
variable holds then; if there is no such call, `Apply` returns too (the same) unless a callback or `apply` panics. -/
theorem C42_stop {σ : Type} (pre post : Callback σ) (n r root : Nat) (u : σ) (h : Heap) :
    match applyRoot (recorded false pre) (recorded true post) n r root (u, []) h with
    | .result x w => x = w.heap.ptr r .Node ∧
        ((∀ c ∈ w.user.2, ¬ (c.post = true ∧ c.answer = some false)) ∨
          ∃ l last, w.user.2 = l ++ [last] ∧ (last.post = true ∧ last.answer = some false) ∧
            ∀ c ∈ l, ¬ (c.post = true ∧ c.answer = some false))
    | .panic w | .oof w => ∀ c ∈ w.user.2, ¬ (c.post = true ∧ c.answer = some false) := by
  have hs := stops_apply pre post n ⟨r, .Node, false, some root⟩
    ⟨(u, []), h.set r ⟨none, false, [.one .Node root]⟩, 0, 0⟩
  simp only [applyRoot]
  cases hr : apply (recorded false pre) (recorded true post) n ⟨r, .Node, false, some root⟩
    ⟨(u, []), h.set r ⟨none, false, [.one .Node root]⟩, 0, 0⟩ with
  | ok w =>
    rw [hr] at hs
    obtain ⟨l, h1, h2⟩ := hs
    exact ⟨rfl, .inl (by rw [h1]; simpa [CbCall.stops] using h2)⟩
  | abort w =>
    rw [hr] at hs
    obtain ⟨l, last, h1, h2, h3⟩ := hs
    exact ⟨rfl, .inr ⟨l, last, by rw [h1]; simp, h3, h2⟩⟩
  | panic w => rw [hr] at hs; obtain ⟨l, h1, h2⟩ := hs; show ∀ c ∈ w.user.2, _; rw [h1]; simpa [CbCall.stops] using h2
  | oof w => rw [hr] at hs; obtain ⟨l, h1, h2⟩ := hs; show ∀ c ∈ w.user.2, _; rw [h1]; simpa [CbCall.stops] using h2

/-- Replace the root by 2 in `pre`, stop at 5. -/
example : (resultOf (applyRoot
    (recorded false fun c w => if c.node = some 1 then
      (match c.replace 2 w with | some w' => .ret true w' | none => .panic w) else .ret true w)
    (recorded true fun c w => .ret (c.node != some 5) w) 50 0 1 ((), []) applySample.heap)).map
    (fun x => (x.1, x.2.map fun c => (c.post, c.node.getD 0))) =
    some (some 2, [(false, 1), (false, 2), (true, 2), (false, 3), (true, 3), (false, 4), (false, 5),
      (true, 5)]) := by kernel_rfl

/-! ### C43 -/

/-- With arbitrary callbacks, each call of `pre` gets a cursor that says where its node is - in the field of the
parent with the name given by the cursor, for lists at the current index - unless that name is "QueryStmt". -/
theorem C43_cursor_partial {σ : Type} (pre post : Callback σ) (n r root : Nat) (u : σ) (h : Heap) :
    match applyRoot (witnessed pre) (unwitnessed post) n r root (u, []) h with
    | .result _ w | .panic w | .oof w =>
      ∀ e ∈ w.user.2, e.1.name = .QueryStmt ∨ e.1.Exact e.2.1 e.2.2 := by
  have hs := exact_apply pre (unwitnessed post)
    (by
      intro c w
      simp only [unwitnessed]
      cases post c ⟨w.user.1, w.heap, w.index, w.step⟩ <;> rfl) n ⟨r, .Node, false, some root⟩
    ⟨(u, []), h.set r ⟨none, false, [.one .Node root]⟩, 0, 0⟩ (by intro e he; cases he)
    (.inr (by simp [Cursor.Exact, Heap.ptr, Heap.field, Heap.set, FieldRef.name]))
  simp only [applyRoot]
  cases hr : apply (witnessed pre) (unwitnessed post) n ⟨r, .Node, false, some root⟩
    ⟨(u, []), h.set r ⟨none, false, [.one .Node root]⟩, 0, 0⟩ <;> (rw [hr] at hs; exact hs)

/-- `Replace` with a cursor for a single-valued field stores the node in that field of the parent and changes nothing
else. -/
theorem C43_replace {σ : Type} (c : Cursor) (a n : Nat) (w : World σ) (hl : c.inList = false)
    (hc : c.node = some a) (hx : c.Exact w.heap w.index)
    (hn : w.heap.assignable c.parent c.name n = true) :
    ∃ w', c.replace n w = some w' ∧ w'.heap.ptr c.parent c.name = some n ∧
      Frame w.heap c.parent c.name w'.heap ∧ w'.user = w.user ∧ w'.index = w.index ∧ w'.step = w.step := by
  simp only [Cursor.Exact, hl, Bool.false_eq_true, if_false, hc, Heap.ptr] at hx
  have hi : ¬ (c.idx w ≥ 0) := by simp [Cursor.idx, hl]
  cases hf : w.heap.field c.parent c.name with
  | none => rw [hf] at hx; simp at hx
  | some x =>
    rw [hf] at hx
    cases x with
    | nil => simp at hx
    | list => simp at hx
    | one g b =>
      have hg : g = c.name := by
        have := List.find?_some hf
        simpa [FieldRef.name] using this
      subst hg
      simp only [Cursor.replace, hf, hn, if_true, if_neg hi]
      refine ⟨_, rfl, ?_, frame_setField (x := .one c.name n), rfl, rfl, rfl⟩
      simp only [Heap.ptr, field_setField, FieldRef.name, if_true, hf, Option.map_some]

example : ∃ w', Cursor.replace (σ := Unit) ⟨1, .Left, false, some 2⟩ 4 ⟨(), applySample.heap, 0, 0⟩ = some w' ∧
    w'.heap.ptr 1 .Left = some 4 ∧ w'.heap.ptr 1 .Right = some 4 := ⟨_, rfl, rfl, rfl⟩

/-- The five node types with the wrong name: their child is passed with the name "QueryStmt", which is not the name
of any of their fields. -/
theorem C43_false : ∀ k ∈ [Kind.Exists, .SubQuery, .CTE, .QueryExpr, .CreateViewStmt],
    (∃ st f, st ∈ k.apply.getD [] ∧ st = .one .QueryStmt f ∧ f ≠ .QueryStmt) ∧
    ∀ {σ : Type} (h : Heap) (a b n : Nat) (u : σ) (i s : Int), (h a).kind = some k →
      (h a).fields.map FieldRef.name = k.fields.map Field.name →
      Cursor.replace ⟨a, .QueryStmt, false, some b⟩ n ⟨u, h, i, s⟩ = none := by
  intro k hk
  have hfields : ∀ d ∈ k.fields, d.name ≠ .QueryStmt := by
    revert k; decide +kernel
  refine ⟨?_, ?_⟩
  · simp only [List.mem_cons, List.not_mem_nil, or_false] at hk
    rcases hk with rfl | rfl | rfl | rfl | rfl <;>
      exact ⟨_, .Query, by decide, rfl, by decide⟩
  · intro σ h a b n u i s _ hf
    have hnone : h.field a .QueryStmt = none := by
      simp only [Heap.field, List.find?_eq_none]
      intro x hx hq
      have : x.name ∈ k.fields.map Field.name := hf ▸ List.mem_map_of_mem hx
      obtain ⟨d, hd, hdn⟩ := List.mem_map.1 this
      exact hfields d hd (by rw [hdn]; simpa using hq)
    simp only [Cursor.replace, hnone]

/-- `EXISTS (SELECT)`: replacing the query by itself panics, whether in `pre` or in `post`. -/
def existsTree : Tree :=
  .mk .Exists 1 false [.one .Query (.mk .QueryStmt 2 false [.list .CTEs [],
    .one .Body (.mk .SQLSelect 3 false [.list .Projection [], .list .FromClause [], .nil .WhereClause,
      .list .GroupByClause [], .nil .HavingClause]), .list .OrderBy [], .nil .Limit])]

/-- A callback that replaces the node `a` by itself. -/
def replaceSelf (a : Nat) : Callback Unit := fun c w =>
  if c.node = some a then match c.replace a w with
    | some w' => .ret true w'
    | none => .panic w
  else .ret true w

theorem C43_exists_false :
    (resultOf (applyRoot (recorded false (replaceSelf 2)) (recorded true idle) 50 0 1 ((), []) existsTree.heap) = none ∧
     resultOf (applyRoot (recorded false idle) (recorded true (replaceSelf 2)) 50 0 1 ((), []) existsTree.heap) = none) ∧
    (resultOf (applyRoot (recorded false (replaceSelf 3)) (recorded true idle) 50 0 1 ((), [])
      existsTree.heap)).isSome := by
  refine ⟨⟨?_, ?_⟩, ?_⟩ <;> kernel_rfl

end Verif
