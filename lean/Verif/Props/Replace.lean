/-
C82, C83: rewriting a tree with `Apply` and the methods of the cursor.
-/
import Verif.Proofs.Replace
import Verif.Props.Apply
set_option maxRecDepth 100000

namespace Verif

/-- `Apply` with a `post` that makes edits anywhere in the tree, `E`: the nodes of the tree hold what the edits say,
in lists the nodes inserted and not deleted, elsewhere the last replacement; and nothing else in memory changes.  The
result is the root or what replaces it.  The new nodes may be anywhere, also in the tree. -/
theorem C83_edit {σ : Type} (E : Nat → List Edit) (pre : Callback σ) (hpre : Quiet pre) (t : Tree) (n r : Nat)
    (hn : sizeOf t ≤ n) (u : σ) (h : Heap) (hh : h.Has t) (hr : r ∉ t.ids) (hg : t.Good)
    (hk : ∀ v, Occurs t v → v.kind ∉ applyUnknownKinds) (hd : t.ids.Nodup) (ha : Editable E h t)
    (hE : ∀ a, ∀ e ∈ E a, e.node? ≠ some r)
    (hroot : ∀ e ∈ E t.id, ∃ b, e = .replace b ∧ (h b).kind ≠ none) :
    ∃ w, applyRoot pre (editing E) n r t.id u h = .result (some (newOne E t.id)) w ∧
      ∀ a, a ≠ r → w.heap a = if a ∈ t.ids then (h a).edited E else h a := by
  have hset : ∀ a, a ≠ r → (h.set r ⟨none, false, [.one .Node t.id]⟩) a = h a := fun a ha => by simp [Heap.set, ha]
  have hid : ∀ v, Occurs t v → v.id ≠ r := fun v hv he =>
    hr (he ▸ List.mem_map.2 ⟨v, (mem_nodes_iff _ _).2 hv, rfl⟩)
  have hne : ∀ {a e b}, e ∈ E a → e.node? = some b → b ≠ r := fun he hb hbr => hE _ _ he (hbr ▸ hb)
  obtain ⟨w, e1, _, _, e2, e3⟩ := rep_apply (E := E) hpre (h := h.set r ⟨none, false, [.one .Node t.id]⟩) n t hn hg hk hd
    (fun v hv x hx c hc hb => by
      obtain ⟨h1, h2, h3⟩ := ha v hv x hx c hc hb
      refine ⟨fun e he b hb => ?_, h2, h3⟩
      simp only [Heap.assignable, hset _ (hid v hv), hset b (hne he hb)]
      exact h1 e he b hb)
    r hr .Node false [] ⟨u, h.set r ⟨none, false, [.one .Node t.id]⟩, 0, 0⟩ (fun _ => rfl)
    (fun v hv => by simp only [hset _ (hid v hv)]; exact hh v hv)
    (fun _ => by
      refine ⟨⟨fun e he b hb => ?_, ?_, fun _ e he => ?_⟩, by simp [Heap.field, Heap.set, FieldRef.name, spotRef],
        fun hl => by cases hl⟩
      · obtain ⟨b', rfl, h1⟩ := hroot e he
        obtain rfl : b' = b := Option.some.inj hb
        simp only [Heap.assignable, hset b' (hne he hb)]
        cases hkb : (h b').kind with
        | none => exact absurd hkb h1
        | some k => simp [Heap.set, Obj.decl, FTy.accepts, Kind.implements]
      · intro l1 l2 hl
        obtain ⟨b, hb, _⟩ := hroot .delete (by rw [hl]; simp)
        cases hb
      · obtain ⟨b, hb, _⟩ := hroot e he
        exact ⟨b, hb⟩)
  refine ⟨w, ?_, ?_⟩
  · simp only [applyRoot, e1]
    congr 1
    simp only [Heap.ptr, Heap.field, e3, putAt]
    by_cases hb : E t.id = []
    · simp [Heap.set, FieldRef.name, newOne_nil hb, hb]
    · simp [Heap.setField, Heap.set, FieldRef.name, hb, spotNew]
  · intro a haa
    rw [e2 a haa]
    simp only [hset a haa]

/-- Deleting: if some elements of lists, in any lists of the tree, are deleted, what `Apply` returns is the tree without
them. -/
theorem C83_delete {σ : Type} (P : Nat → Bool) (pre : Callback σ) (hpre : Quiet pre) (t : Tree) (n r : Nat)
    (hn : sizeOf t ≤ n) (u : σ) (h : Heap) (hh : h.Has t) (hr : r ∉ t.ids) (hg : t.Good)
    (hk : ∀ v, Occurs t v → v.kind ∉ applyUnknownKinds) (hd : t.ids.Nodup) (hroot : P t.id = false)
    (ha : ∀ v, Occurs t v → ∀ f c, .one f c ∈ v.fields → P c.id = false) :
    ∃ w, applyRoot pre (deleting P) n r t.id u h = .result (some t.id) w ∧ w.heap.Has (t.prune P) ∧
      ∀ a, a ≠ r → a ∉ t.ids → w.heap a = h a := by
  have hP : ∀ {a}, deleteEdits P a ≠ [] → P a = true := by
    intro a h
    cases hp : P a with
    | true => rfl
    | false => simp [deleteEdits, hp] at h
  have hcb : (deleting P : Callback σ) = editing (deleteEdits P) := by
    funext c w
    obtain ⟨p, name, l, o⟩ := c
    cases o with
    | none => rfl
    | some a =>
      simp only [deleting, editing, deleteEdits]
      cases P a with
      | false => rfl
      | true =>
        simp only [if_true, Cursor.edits, Cursor.edit]
        cases Cursor.delete ⟨p, name, l, some a⟩ w <;> rfl
  obtain ⟨w, e1, e2⟩ := C83_edit (deleteEdits P) pre hpre t n r hn u h hh hr hg hk hd
    (fun v hv x hx c hc hb => by
      refine ⟨fun e he b hb' => ?_, ?_, ?_⟩
      · simp only [deleteEdits, hP hb, if_true, List.mem_singleton] at he
        subst he; cases hb'
      · intro l1 l2 hl
        simp only [deleteEdits, hP hb, if_true] at hl
        cases l1 with
        | nil => simpa using hl.symm
        | cons => simp at hl
      · rintro ⟨f, rfl⟩
        have := ha v hv f c hx
        rw [hP hb] at this; cases this)
    (fun a e he => by
      by_cases hp : P a = true
      · simp only [deleteEdits, hp, if_true, List.mem_singleton] at he
        subst he; simp [Edit.node?]
      · simp [deleteEdits, hp] at he)
    (fun e he => by simp [deleteEdits, hroot] at he)
  refine ⟨w, by rw [hcb, e1, newOne_delete], ?_, fun a har hat => by rw [e2 a har, if_neg hat]⟩
  exact has_prune hh (fun a hat => by rw [e2 a (fun he => hr (he ▸ hat)), if_pos hat]) _ t (Nat.le_refl _) (.refl t)

/-- `Apply` with a `post` that replaces nodes by others, `ρ`: every pointer to a replaced node that a node of the tree
holds is changed to the new one, and nothing else in memory changes; the result is the root or what replaces it. -/
theorem C82_replace {σ : Type} (ρ : Nat → Option Nat) (pre : Callback σ) (hpre : Quiet pre) (t : Tree) (n r : Nat)
    (hn : sizeOf t ≤ n) (u : σ) (h : Heap) (hh : h.Has t) (hr : r ∉ t.ids) (hg : t.Good)
    (hk : ∀ v, Occurs t v → v.kind ∉ applyUnknownKinds) (hd : t.ids.Nodup) (ha : Allowed ρ h t) (hρ : ∀ a, ρ a ≠ some r)
    (hroot : ∀ b, ρ t.id = some b → (h b).kind ≠ none) :
    ∃ w, applyRoot pre (replacing ρ) n r t.id u h = .result (some (newAddr ρ t.id)) w ∧
      ∀ a, a ≠ r → w.heap a = if a ∈ t.ids then (h a).replaced ρ else h a := by
  have hmem : ∀ {a e}, e ∈ replaceEdits ρ a → ∃ b, ρ a = some b ∧ e = .replace b := by
    intro a e he
    simp only [replaceEdits] at he
    cases hb : ρ a with
    | none => rw [hb] at he; cases he
    | some b => rw [hb] at he; exact ⟨b, rfl, by simpa using he⟩
  obtain ⟨w, e1, e2⟩ := C83_edit (replaceEdits ρ) pre hpre t n r hn u h hh hr hg hk hd
    (fun v hv x hx c hc _ => by
      refine ⟨fun e he b hb => ?_, ?_, fun ho => ?_⟩
      · obtain ⟨b', h1, rfl⟩ := hmem he
        obtain rfl : b' = b := Option.some.inj hb
        exact (ha v hv x hx c hc b' h1).1
      · intro l1 l2 hl
        obtain ⟨b, _, hb⟩ := hmem (a := c.id) (e := .delete) (by rw [hl]; simp)
        cases hb
      · cases hb : ρ c.id with
        | none => simp [replaceEdits, hb] at *
        | some b =>
          refine ⟨(ha v hv x hx c hc b hb).2 ho, fun e he => ?_⟩
          obtain ⟨b', _, h1⟩ := hmem he
          exact ⟨b', h1⟩)
    (fun a e he => by
      obtain ⟨b, h1, rfl⟩ := hmem he
      intro hb
      exact hρ a (by rw [h1]; exact hb))
    (fun e he => by
      obtain ⟨b, h1, rfl⟩ := hmem he
      exact ⟨b, rfl, hroot b h1⟩)
  refine ⟨w, by rw [← editing_replace, e1, newOne_replace], fun a har => ?_⟩
  rw [e2 a har, edited_replace]

/-- The same for trees: if nodes of the tree are replaced by trees of their own, what `Apply` returns is the tree with
these subtrees in place of the nodes.  Nodes inside a node that is replaced are of no importance. -/
theorem C82_tree {σ : Type} (R : Nat → Option Tree) (pre : Callback σ) (hpre : Quiet pre) (t : Tree) (n r : Nat)
    (hn : sizeOf t ≤ n) (u : σ) (h : Heap) (hh : h.Has t) (hr : r ∉ t.ids) (hg : t.Good)
    (hk : ∀ v, Occurs t v → v.kind ∉ applyUnknownKinds) (hd : t.ids.Nodup)
    (hR : ∀ a s, R a = some s → h.Has s ∧ r ∉ s.ids ∧ ∀ b ∈ s.ids, b ∉ t.ids)
    (ha : ∀ v, Occurs t v → ∀ d ∈ v.kind.fields, ∀ x ∈ v.fields, x.name = d.name → ∀ c ∈ x.nodes, ∀ s,
      R c.id = some s → d.type.accepts s.kind = true ∧ ((∃ f, x = .one f c) → c.kind ≠ .QueryStmt)) :
    ∃ w, applyRoot pre (replacing (fun a => (R a).map Tree.id)) n r t.id u h = .result (some (t.subst R).id) w ∧
      w.heap.Has (t.subst R) := by
  have hself : ∀ s : Tree, s.id ∈ s.ids := fun s => by rw [Tree.ids_eq]; exact List.mem_cons_self ..
  obtain ⟨w, e1, e2⟩ := C82_replace (fun a => (R a).map Tree.id) pre hpre t n r hn u h hh hr hg hk hd
    (fun v hv x hx c hc b hb => by
      obtain ⟨s, hs, rfl⟩ := Option.map_eq_some_iff.1 hb
      obtain ⟨d, hdm, hfit⟩ := (fitsAll_both (hg v hv).1.1).2 x hx
      have hname := fits_name hfit
      obtain ⟨h1, h2⟩ := ha v hv d hdm x hx hname c hc s hs
      refine ⟨?_, h2⟩
      have hnd : (v.kind.fields.map Field.name).Nodup := by
        simpa [fieldNamesDistinct] using table_names v.kind (Kind.mem_all _)
      have hfind : ∀ ds : List Field, (ds.map Field.name).Nodup → d ∈ ds →
          ds.find? (fun e => e.name == d.name) = some d := by
        intro ds
        induction ds with
        | nil => intro _ h; cases h
        | cons e ds ih =>
          intro hnd hm
          simp only [List.map_cons, List.nodup_cons] at hnd
          rcases List.mem_cons.1 hm with rfl | hm
          · simp
          · have : (e.name == d.name) = false := by
              rw [beq_eq_false_iff_ne]
              intro he
              exact hnd.1 (he ▸ List.mem_map_of_mem hm)
            simp [this, ih hnd.2 hm]
      simp only [Heap.assignable, hh v hv, Obj.decl, hname, hfind _ hnd hdm, (hR _ s hs).1 s (.refl s), h1])
    (fun a he => by
      obtain ⟨s, hs, hb⟩ := Option.map_eq_some_iff.1 he
      exact (hR a s hs).2.1 (hb ▸ hself s))
    (fun b hb => by
      obtain ⟨s, hs, rfl⟩ := Option.map_eq_some_iff.1 hb
      rw [(hR _ s hs).1 s (.refl s)]
      simp)
  refine ⟨w, by rw [e1, Tree.subst_id], ?_⟩
  refine has_subst hh (fun a hat => ?_) (fun a _ s hs v hv => ?_) _ t (Nat.le_refl _) (.refl t)
  · rw [e2 a (fun he => hr (he ▸ hat)), if_pos hat]
  · have hv' : v.id ∈ s.ids := List.mem_map.2 ⟨v, (mem_nodes_iff _ _).2 hv, rfl⟩
    obtain ⟨h1, h2, h3⟩ := hR a s hs
    rw [e2 _ (fun he => h2 (he ▸ hv')), if_neg (h3 _ hv')]
    exact h1 v hv

/-! ### Examples -/

/-- `(a) + b.c` -/
def replaceSample : Tree :=
  .mk .BinaryExpr 1 false [.one .Left (.mk .Nested 2 false [.one .AST (.mk .Ident 3 false [])]),
    .one .Op (.mk .Operator 4 false []),
    .one .Right (.mk .CompoundIdent 5 false [.list .Idents [.mk .Ident 6 false [], .mk .Ident 7 false []]])]

/-- It, and the nodes `1` and `d`. -/
def replaceHeap : Heap := fun a =>
  if a = 8 then ⟨some .LongValue, false, []⟩ else if a = 9 then ⟨some .Ident, false, []⟩ else replaceSample.heap a

theorem replaceSample_nodes : ∀ u ∈ replaceSample.nodes,
    (wtLocal u.kind u.all u.fields = true ∧ u.kind ∉ applyUnknownKinds ∧
    (u.fields.all fun x => !unwalkedFields.contains (u.kind, x.name) &&
      !uncheckedFields.contains (u.kind, x.name)) = true) ∧
    replaceHeap u.id = ⟨some u.kind, u.all, u.fields.map FieldVal.ref⟩ := by
  simp only [replaceSample, Tree.nodes, Tree.nodesFields, Tree.nodesField, Tree.nodesList,
    List.cons_append, List.nil_append, List.append_nil, List.mem_cons, List.not_mem_nil, or_false]
  rintro u (rfl | rfl | rfl | rfl | rfl | rfl | rfl) <;>
    exact ⟨⟨rfl, by decide, rfl⟩, rfl⟩

theorem replaceSample_good : replaceSample.Good := by
  intro u hu
  obtain ⟨⟨h1, h3, h4⟩, _⟩ := replaceSample_nodes u ((mem_nodes_iff _ _).2 hu)
  refine ⟨?_, fun h => h3 (List.mem_cons_of_mem _ h), ?_, ?_⟩
  · cases u; exact wtLocal_wellTyped h1
  · intro x hx hm
    have := List.all_eq_true.1 h4 x hx
    simp only [Bool.and_eq_true, Bool.not_eq_true'] at this
    have h5 : unwalkedFields.contains (u.kind, x.name) = true := by simpa using hm
    rw [this.1] at h5; cases h5
  · intro x hx hm
    have := List.all_eq_true.1 h4 x hx
    simp only [Bool.and_eq_true, Bool.not_eq_true'] at this
    have h5 : uncheckedFields.contains (u.kind, x.name) = true := by simpa using hm
    rw [this.2] at h5; cases h5

theorem replaceSample_ids : replaceSample.ids = [1, 2, 3, 4, 5, 6, 7] := by kernel_rfl

/-- Removing the parentheses: the Nested is replaced by what is in it. -/
def unwrap (a : Nat) : Option Nat := if a = 2 then some 3 else none

example : ∃ w, applyRoot idle (replacing unwrap) (sizeOf replaceSample) 0 1 () replaceHeap = .result (some 1) w ∧
    ∀ a, a ≠ 0 → w.heap a = if a ∈ replaceSample.ids then (replaceHeap a).replaced unwrap else replaceHeap a :=
  C82_replace unwrap idle (fun _ _ => ⟨_, rfl⟩) replaceSample _ 0 (Nat.le_refl _) () _
    (fun u hu => (replaceSample_nodes u ((mem_nodes_iff _ _).2 hu)).2) (by rw [replaceSample_ids]; decide)
    replaceSample_good (fun u hu => (replaceSample_nodes u ((mem_nodes_iff _ _).2 hu)).1.2.1)
    (by rw [replaceSample_ids]; decide)
    (by
      intro u hu x hx c hc b hb
      have : (replaceSample.nodes.all fun u => u.fields.all fun x => x.nodes.all fun c => match unwrap c.id with
        | some b => replaceHeap.assignable u.id x.name b && c.kind != .QueryStmt
        | none => true) = true := by kernel_rfl
      simp only [List.all_eq_true] at this
      have := this u ((mem_nodes_iff _ _).2 hu) x hx c hc
      simp only [hb, Bool.and_eq_true, bne_iff_ne] at this
      exact ⟨this.1, fun _ => this.2⟩)
    (by intro a; unfold unwrap; split <;> simp) (by intro b hb; cases hb)

example : (replaceHeap 1).replaced unwrap =
    ⟨some .BinaryExpr, false, [.one .Left 3, .one .Op 4, .one .Right 5]⟩ := by decide

/-- Replacing `a` by `1` and `c` by `d`. -/
def rename (a : Nat) : Option Tree :=
  if a = 3 then some (.mk .LongValue 8 false []) else if a = 7 then some (.mk .Ident 9 false []) else none

example : ∃ w, applyRoot idle (replacing (fun a => (rename a).map Tree.id)) (sizeOf replaceSample) 0 1 () replaceHeap =
      .result (some 1) w ∧
    w.heap.Has (.mk .BinaryExpr 1 false [.one .Left (.mk .Nested 2 false [.one .AST (.mk .LongValue 8 false [])]),
      .one .Op (.mk .Operator 4 false []),
      .one .Right (.mk .CompoundIdent 5 false [.list .Idents [.mk .Ident 6 false [], .mk .Ident 9 false []]])]) :=
  C82_tree rename idle (fun _ _ => ⟨_, rfl⟩) replaceSample _ 0 (Nat.le_refl _) () _
    (fun u hu => (replaceSample_nodes u ((mem_nodes_iff _ _).2 hu)).2) (by rw [replaceSample_ids]; decide)
    replaceSample_good (fun u hu => (replaceSample_nodes u ((mem_nodes_iff _ _).2 hu)).1.2.1)
    (by rw [replaceSample_ids]; decide)
    (by
      intro a s hs
      have hleaf : ∀ k i, replaceHeap i = ⟨some k, false, []⟩ → replaceHeap.Has (.mk k (i : Nat) false []) := by
        intro k i h v hv
        cases hv with
        | refl => exact h
        | child hc => cases hc
      rw [replaceSample_ids]
      simp only [rename] at hs
      split at hs
      · cases hs; exact ⟨hleaf _ 8 rfl, by decide, by decide⟩
      · split at hs
        · cases hs; exact ⟨hleaf _ 9 rfl, by decide, by decide⟩
        · cases hs)
    (by
      intro u hu d hd x hx hn c hc s hs
      have : (replaceSample.nodes.all fun u => u.kind.fields.all fun d => u.fields.all fun x => x.name != d.name ||
        x.nodes.all fun c => match rename c.id with
          | some s => d.type.accepts s.kind && c.kind != .QueryStmt
          | none => true) = true := by kernel_rfl
      simp only [List.all_eq_true] at this
      have := this u ((mem_nodes_iff _ _).2 hu) d hd x hx
      simp only [hn, bne_self_eq_false, Bool.false_or, List.all_eq_true] at this
      have := this c hc
      simp only [hs, Bool.and_eq_true, bne_iff_ne] at this
      exact ⟨this.1, fun _ => this.2⟩)

/-- `CASE a WHEN b THEN c END` -/
def caseSample : Tree :=
  .mk .CaseExpr 1 false [.one .Operand (.mk .Ident 2 false []), .list .Conditions [.mk .Ident 3 false []],
    .list .Results [.mk .Ident 4 false []], .nil .ElseResult]

/-- What is not visited is not replaced: the operand is, the conditions and results are not. -/
theorem C82_case_false :
    (match applyRoot idle (replacing fun a => if a = 2 ∨ a = 3 ∨ a = 4 then some 6 else none) 100 0 1 ()
        (caseSample.heap.set 6 ⟨some .Ident, false, []⟩) with
      | .result x w => some (x, w.heap 1)
      | _ => none) =
    some (some 1, ⟨some .CaseExpr, false, [.one .Operand 6, .list .Conditions [3], .list .Results [4],
      .nil .ElseResult]⟩) := by
  kernel_rfl

/-- Inserting, deleting and replacing at once: `(1) + d.b.d`, from `(a) + b.c`. -/
def editSample (a : Nat) : List Edit :=
  if a = 3 then [.replace 8] else if a = 6 then [.before 9] else if a = 7 then [.after 9, .delete] else []

example : ∃ w, applyRoot idle (editing editSample) (sizeOf replaceSample) 0 1 () replaceHeap = .result (some 1) w ∧
    ∀ a, a ≠ 0 → w.heap a = if a ∈ replaceSample.ids then (replaceHeap a).edited editSample else replaceHeap a := by
  have hall : (replaceSample.nodes.all fun u => u.fields.all fun x => x.nodes.all fun c =>
      (editSample c.id).all (fun e => match e.node? with
        | some b => replaceHeap.assignable u.id x.name b && b != 0
        | none => true) && (match x with
        | .one .. => c.kind != .QueryStmt && (editSample c.id).all fun e => match e with
          | .replace _ => true
          | _ => false
        | _ => true)) = true := by kernel_rfl
  simp only [List.all_eq_true, Bool.and_eq_true] at hall
  refine C83_edit editSample idle (fun _ _ => ⟨_, rfl⟩) replaceSample _ 0 (Nat.le_refl _) () _
    (fun u hu => (replaceSample_nodes u ((mem_nodes_iff _ _).2 hu)).2) (by rw [replaceSample_ids]; decide)
    replaceSample_good (fun u hu => (replaceSample_nodes u ((mem_nodes_iff _ _).2 hu)).1.2.1)
    (by rw [replaceSample_ids]; decide) (fun u hu x hx c hc _ => ?_) (fun a e he => ?_) (by intro e he; cases he)
  · obtain ⟨h1, h2⟩ := hall u ((mem_nodes_iff _ _).2 hu) x hx c hc
    refine ⟨fun e he b hb => ?_, ?_, ?_⟩
    · have := h1 e he
      simp only [hb, Bool.and_eq_true] at this
      exact this.1
    · intro l1 l2 hl
      simp only [editSample] at hl
      split at hl
      · cases l1 with
        | nil => simp at hl
        | cons => simp at hl
      · split at hl
        · cases l1 with
          | nil => simp at hl
          | cons => simp at hl
        · split at hl
          · rcases l1 with _ | ⟨_, _ | _⟩ <;> simp_all
          · simp at hl
    · rintro ⟨f, rfl⟩
      simp only [Bool.and_eq_true, bne_iff_ne, List.all_eq_true] at h2
      refine ⟨h2.1, fun e he => ?_⟩
      have := h2.2 e he
      cases e with
      | replace b => exact ⟨b, rfl⟩
      | before | after | delete => cases this
  · simp only [editSample] at he
    intro hb
    split at he
    · simp at he; subst he; cases hb
    · split at he
      · simp at he; subst he; cases hb
      · split at he
        · simp at he; rcases he with rfl | rfl <;> cases hb
        · simp at he

example : (replaceHeap 5).edited editSample = ⟨some .CompoundIdent, false, [.list .Idents [9, 6, 9]]⟩ := by decide

/-- Deleting `b` from `b.c`. -/
example : ∃ w, applyRoot idle (deleting fun a => a == 6) (sizeOf replaceSample) 0 1 () replaceHeap = .result (some 1) w ∧
    w.heap.Has (.mk .BinaryExpr 1 false [.one .Left (.mk .Nested 2 false [.one .AST (.mk .Ident 3 false [])]),
      .one .Op (.mk .Operator 4 false []),
      .one .Right (.mk .CompoundIdent 5 false [.list .Idents [.mk .Ident 7 false []]])]) ∧
    ∀ a, a ≠ 0 → a ∉ replaceSample.ids → w.heap a = replaceHeap a := by
  have hall : (replaceSample.nodes.all fun u => u.fields.all fun x => match x with
      | .one _ c => c.id != 6
      | _ => true) = true := by kernel_rfl
  simp only [List.all_eq_true] at hall
  exact C83_delete (fun a => a == 6) idle (fun _ _ => ⟨_, rfl⟩) replaceSample _ 0 (Nat.le_refl _) () _
    (fun u hu => (replaceSample_nodes u ((mem_nodes_iff _ _).2 hu)).2) (by rw [replaceSample_ids]; decide)
    replaceSample_good (fun u hu => (replaceSample_nodes u ((mem_nodes_iff _ _).2 hu)).1.2.1)
    (by rw [replaceSample_ids]; decide) rfl (fun u hu f c hx => by
      have := hall u ((mem_nodes_iff _ _).2 hu) _ hx
      simpa using this)

end Verif
