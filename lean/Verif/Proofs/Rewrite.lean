/-
Rewriting a tree with `Apply` and callbacks whose edits depend on what they see: proofs.
-/
import Verif.Spec.Rewrite
import Verif.Proofs.Tour

namespace Verif

/-- The log of edits. -/
abbrev EditLog := List (Bool × Nat × List Edit)

theorem madeAt_append (l1 l2 : EditLog) (a : Nat) : madeAt (l1 ++ l2) a = madeAt l1 a ++ madeAt l2 a := by
  simp [madeAt]

theorem madeAt_none {l : EditLog} {a : Nat} (h : ∀ x ∈ l, x.2.1 ≠ a) : madeAt l a = [] := by
  simp only [madeAt, List.flatMap_eq_nil_iff]
  intro x hx
  rw [if_neg (h x hx)]

/-- Where the action ended. -/
def AOut.world {σ : Type} : AOut σ → World σ
  | .ok w | .abort w | .panic w | .oof w => w

theorem flatMap_eq {α β : Type} {f g : α → List β} : ∀ {l : List α}, (∀ x ∈ l, f x = g x) → l.flatMap f = l.flatMap g
  | [], _ => rfl
  | x :: xs, h => by
    rw [List.flatMap_cons, List.flatMap_cons, h x (List.mem_cons_self ..), flatMap_eq fun y hy => h y (List.mem_cons_of_mem _ hy)]

/-! ### Structs that are not edited -/

theorem below_ids {t v : Tree} (hv : Occurs t v) {c : Tree} (hc : c ∈ v.children) : c.id ∈ t.children.flatMap Tree.ids := by
  have self : ∀ t : Tree, t.id ∈ t.ids := fun t => by rw [Tree.ids_eq]; exact List.mem_cons_self ..
  induction hv with
  | refl t => exact List.mem_flatMap.2 ⟨c, hc, self c⟩
  | child hd _ ih =>
    refine List.mem_flatMap.2 ⟨_, hd, ?_⟩
    rw [Tree.ids_eq]
    exact List.mem_cons_of_mem _ (ih hc)

theorem ref_edited_congr {E E' : Nat → List Edit} {x : FieldVal} (h : ∀ c ∈ x.nodes, E c.id = E' c.id) :
    x.ref.edited E = x.ref.edited E' := by
  cases x with
  | nil => rfl
  | one f c => simp only [FieldVal.ref, FieldRef.edited, newOne, h c (by simp [FieldVal.nodes])]
  | list f ts =>
    simp only [FieldVal.ref, FieldRef.edited, List.flatMap_map]
    congr 1
    exact flatMap_eq fun c hc => by simp only [newList, h c hc]

theorem ref_edited_none {E : Nat → List Edit} {x : FieldVal} (h : ∀ c ∈ x.nodes, E c.id = []) : x.ref.edited E = x.ref := by
  rw [ref_edited_congr (E' := fun _ => []) h]
  cases x with
  | nil => rfl
  | one f c => simp [FieldVal.ref, FieldRef.edited, newOne_nil]
  | list f ts =>
    simp only [FieldVal.ref, FieldRef.edited, List.flatMap_map]
    congr 1
    rw [flatMap_eq (f := fun a : Tree => newList (fun _ => []) a.id) (g := fun c => [c.id]) (fun c _ => newList_nil rfl),
      ← List.map_eq_flatMap]

theorem has_edited_none {E : Nat → List Edit} {h : Heap} {t : Tree} (hh : h.Has t)
    (hE : ∀ b ∈ t.children.flatMap Tree.ids, E b = []) {a : Nat} (ha : a ∈ t.ids) : (h a).edited E = h a := by
  obtain ⟨v, hv, rfl⟩ := List.mem_map.1 ha
  have hv := (mem_nodes_iff _ _).1 hv
  rw [hh v hv, Obj.edited]
  simp only [List.map_map]
  congr 1
  apply List.map_congr_left
  intro x hx
  exact ref_edited_none fun c hc => hE _ (below_ids hv (List.mem_flatMap.2 ⟨x, hx, hc⟩))

/-! ### What a part of the run writes -/

/-- The action, started with the memory `h` and the log `l0` and now at `w'`, has made and written down the edits `lg`, all
at nodes of `ks`, children of the struct at `i`.  Fields of the struct at `i` itself are left open. -/
structure Wrote {σ : Type} (i : Nat) (ks : List Tree) (h : Heap) (l0 : EditLog) (w' : World (σ × EditLog)) (lg : EditLog) :
    Prop where
  log : w'.user.2 = l0 ++ lg
  ids : ∀ x ∈ lg, x.2.1 ∈ ks.flatMap Tree.ids
  other : ∀ E : Nat → List Edit, (∀ a ∈ ks.flatMap Tree.ids, E a = madeAt lg a) →
    ∀ a, a ≠ i → w'.heap a = if a ∈ ks.flatMap Tree.ids then (h a).edited E else h a
  kind : (w'.heap i).kind = (h i).kind
  all : (w'.heap i).all = (h i).all
  names : (w'.heap i).fields.map FieldRef.name = (h i).fields.map FieldRef.name

theorem Wrote.quiet {σ : Type} {i : Nat} {ks : List Tree} {h0 : Heap} {l0 lg : EditLog} {w : World (σ × EditLog)}
    (h : Wrote i ks h0 l0 w lg) {a : Nat} (ha : a ∉ ks.flatMap Tree.ids) : madeAt lg a = [] :=
  madeAt_none fun x hx he => ha (he ▸ h.ids x hx)

theorem Wrote.nil {σ : Type} {i : Nat} (w : World (σ × EditLog)) : Wrote i [] w.heap w.user.2 w [] :=
  ⟨by simp, by simp, fun E _ a _ => by simp, rfl, rfl, rfl⟩

theorem Wrote.trans {σ : Type} {i : Nat} {ks1 ks2 : List Tree} {h : Heap} {l0 : EditLog} {w1 w2 : World (σ × EditLog)}
    {lg1 lg2 : EditLog} (h1 : Wrote i ks1 h l0 w1 lg1) (h2 : Wrote i ks2 w1.heap w1.user.2 w2 lg2)
    (hd : ∀ a ∈ ks1.flatMap Tree.ids, a ∉ ks2.flatMap Tree.ids) : Wrote i (ks1 ++ ks2) h l0 w2 (lg1 ++ lg2) := by
  refine ⟨by rw [h2.log, h1.log, List.append_assoc], fun x hx => ?_, fun E hE a ha => ?_, h2.kind.trans h1.kind,
    h2.all.trans h1.all, h2.names.trans h1.names⟩
  · rw [List.flatMap_append]
    rcases List.mem_append.1 hx with hx | hx
    · exact List.mem_append_left _ (h1.ids x hx)
    · exact List.mem_append_right _ (h2.ids x hx)
  · simp only [List.flatMap_append, List.mem_append] at hE ⊢
    have e1 := h1.other E (fun b hb => by
      rw [hE b (.inl hb), madeAt_append, h2.quiet (hd b hb), List.append_nil]) a ha
    have e2 := h2.other E (fun b hb => by
      rw [hE b (.inr hb), madeAt_append, h1.quiet (fun hb' => hd b hb' hb), List.nil_append]) a ha
    rw [e2]
    by_cases ha2 : a ∈ ks2.flatMap Tree.ids
    · rw [if_pos ha2, if_pos (.inr ha2), e1, if_neg (fun h => hd a h ha2)]
    · rw [if_neg ha2, e1]
      simp only [ha2, or_false]

theorem Wrote.rest {σ : Type} {i : Nat} {ks1 ks2 : List Tree} {h : Heap} {l0 : EditLog} {w1 : World (σ × EditLog)}
    {lg1 : EditLog} (h1 : Wrote i ks1 h l0 w1 lg1) (hh : ∀ c ∈ ks2, h.Has c)
    (hd : ∀ a ∈ ks1.flatMap Tree.ids, a ∉ ks2.flatMap Tree.ids) : Wrote i (ks1 ++ ks2) h l0 w1 lg1 := by
  refine ⟨h1.log, fun x hx => ?_, fun E hE a ha => ?_, h1.kind, h1.all, h1.names⟩
  · rw [List.flatMap_append]; exact List.mem_append_left _ (h1.ids x hx)
  · simp only [List.flatMap_append, List.mem_append] at hE ⊢
    rw [h1.other E (fun b hb => hE b (.inl hb)) a ha]
    by_cases ha1 : a ∈ ks1.flatMap Tree.ids
    · rw [if_pos ha1, if_pos (.inl ha1)]
    · rw [if_neg ha1]
      by_cases ha2 : a ∈ ks2.flatMap Tree.ids
      · rw [if_pos (.inr ha2)]
        obtain ⟨c, hc, hac⟩ := List.mem_flatMap.1 ha2
        refine (has_edited_none (hh c hc) (fun b hb => ?_) hac).symm
        have hb' : b ∈ ks2.flatMap Tree.ids := List.mem_flatMap.2 ⟨c, hc, by
          rw [Tree.ids_eq]; exact List.mem_cons_of_mem _ hb⟩
        rw [hE b (.inr hb'), h1.quiet fun hb1 => hd b hb1 hb']
      · rw [if_neg (by simp [ha1, ha2])]

theorem Wrote.field_none {σ : Type} {i : Nat} {ks : List Tree} {h : Heap} {l0 : EditLog} {w : World (σ × EditLog)}
    {lg : EditLog} (h1 : Wrote i ks h l0 w lg) {g : FName} (hg : h.field i g = none) : w.heap.field i g = none := by
  simp only [Heap.field, List.find?_eq_none, beq_iff_eq] at hg ⊢
  intro x hx hn
  have : g ∈ (h i).fields.map FieldRef.name := by rw [← h1.names]; exact hn ▸ List.mem_map_of_mem hx
  obtain ⟨y, hy, hyn⟩ := List.mem_map.1 this
  exact hg y hy hyn

/-- The visit of the child `c` of the struct at `i`. -/
def Revise {σ : Type} (i : Nat) (c : Tree)
    (act : FName → Bool → Option Nat → World (σ × EditLog) → AOut (σ × EditLog)) : Prop :=
  ∀ name l w, w.heap.Has c → (∀ w', act name l (some c.id) w ≠ .oof w') ∧
    ((l = false ∧ (w.heap.field i name = some (.one name c.id) ∨ w.heap.field i name = none) →
      ∃ lg, Wrote i [c] w.heap w.user.2 (act name l (some c.id) w).world lg ∧
        (∀ g, g ≠ name → (act name l (some c.id) w).world.heap.field i g = w.heap.field i g) ∧
        (w.heap.field i name = some (.one name c.id) →
          (act name l (some c.id) w).world.heap.field i name = some (.one name (newOne (madeAt lg) c.id))) ∧
        (w.heap.field i name = none → madeAt lg c.id = []) ∧
        ∀ w', act name l (some c.id) w = .ok w' → w'.index = w.index ∧ w'.step = w.step)) ∧
    (l = true → ∀ done rest, w.heap.field i name = some (.list name (done ++ c.id :: rest)) →
      w.index = (done.length : Int) → w.step = 1 →
      ∃ lg, Wrote i [c] w.heap w.user.2 (act name l (some c.id) w).world lg ∧
        (∀ g, g ≠ name → (act name l (some c.id) w).world.heap.field i g = w.heap.field i g) ∧
        (act name l (some c.id) w).world.heap.field i name =
          some (.list name (done ++ newList (madeAt lg) c.id ++ rest)) ∧
        ∀ w', act name l (some c.id) w = .ok w' →
          w'.index + w'.step = ((done ++ newList (madeAt lg) c.id).length : Int))

theorem rev_listLoop {σ : Type} {i : Nat} {f : FName}
    {act : FName → Bool → Option Nat → World (σ × EditLog) → AOut (σ × EditLog)} :
    ∀ (rest : List Tree), (∀ c ∈ rest, Revise i c act) → (rest.flatMap Tree.ids).Nodup → i ∉ rest.flatMap Tree.ids →
      ∀ n, rest.length < n → ∀ (done : List Nat) (w : World (σ × EditLog)), (∀ c ∈ rest, w.heap.Has c) →
      w.heap.field i f = some (.list f (done ++ rest.map Tree.id)) → w.index = (done.length : Int) →
      (∀ w', listLoop (act f true) i f n w ≠ .oof w') ∧
      ∃ lg, Wrote i rest w.heap w.user.2 (listLoop (act f true) i f n w).world lg ∧
        (∀ g, g ≠ f → (listLoop (act f true) i f n w).world.heap.field i g = w.heap.field i g) ∧
        (listLoop (act f true) i f n w).world.heap.field i f =
          some (.list f (done ++ rest.flatMap fun c => newList (madeAt lg) c.id)) := by
  have self : ∀ t : Tree, t.id ∈ t.ids := fun t => by rw [Tree.ids_eq]; exact List.mem_cons_self ..
  intro rest
  induction rest with
  | nil =>
    intro _ _ _ n hn done w _ hf hi
    cases n with
    | zero => simp at hn
    | succ n =>
      have e : listLoop (act f true) i f (n + 1) w = .ok w := by
        rw [listLoop, hf]
        simp only [hi, List.map_nil, List.append_nil, ge_iff_le, Int.le_refl, if_true]
      simp only [e]
      exact ⟨fun _ h => (by cases h), [], .nil w, fun _ _ => rfl, by simpa [AOut.world] using hf⟩
  | cons c rest ih =>
    intro hv hnd hi n hn done w hhas hf hidx
    cases n with
    | zero => simp at hn
    | succ n =>
      simp only [List.flatMap_cons, List.nodup_append, List.mem_append, not_or] at hnd hi
      have h1 : ¬ (w.index ≥ ((done ++ (c :: rest).map Tree.id).length : Int)) := by
        rw [hidx]; simp only [List.length_append, List.length_map, List.length_cons]; omega
      have h2 : ¬ (w.index < 0) := by rw [hidx]; omega
      have hget : (done ++ (c :: rest).map Tree.id)[w.index.toNat]? = some c.id := by
        rw [hidx, Int.toNat_natCast]; simp
      have e : listLoop (act f true) i f (n + 1) w = (act f true (some c.id) { w with step := 1 }).bind fun w =>
          listLoop (act f true) i f n { w with index := w.index + w.step } := by
        rw [listLoop, hf]
        simp only [h1, h2, if_false, hget]
      have hdis : ∀ a ∈ [c].flatMap Tree.ids, a ∉ rest.flatMap Tree.ids := by
        intro a ha hb
        simp only [List.flatMap_cons, List.flatMap_nil, List.append_nil] at ha
        exact hnd.2.2 a ha a hb rfl
      have hrest : ∀ d ∈ rest, d.id ∈ rest.flatMap Tree.ids := fun d hd => List.mem_flatMap.2 ⟨d, hd, self d⟩
      obtain ⟨a1, -, a2⟩ := hv c (List.mem_cons_self ..) f true { w with step := 1 } (hhas c (List.mem_cons_self ..))
      obtain ⟨lg, hw, hg, hfl, hit⟩ := a2 rfl done (rest.map Tree.id) hf hidx rfl
      rw [e]
      -- the rest is not reached
      have stop : ∃ lg, Wrote i (c :: rest) w.heap w.user.2 (act f true (some c.id) { w with step := 1 }).world lg ∧
          (∀ g, g ≠ f → (act f true (some c.id) { w with step := 1 }).world.heap.field i g = w.heap.field i g) ∧
          (act f true (some c.id) { w with step := 1 }).world.heap.field i f =
            some (.list f (done ++ (c :: rest).flatMap fun c => newList (madeAt lg) c.id)) := by
        refine ⟨lg, hw.rest (ks2 := rest) (fun d hd => hhas d (List.mem_cons_of_mem _ hd)) hdis, hg, ?_⟩
        rw [hfl]
        have : rest.flatMap (fun c => newList (madeAt lg) c.id) = rest.map Tree.id := by
          have hq : ∀ d ∈ rest, newList (madeAt lg) d.id = [d.id] := fun d hd =>
            newList_nil (hw.quiet fun h => hdis _ h (hrest d hd))
          rw [flatMap_eq (g := fun c => [c.id]) hq, ← List.map_eq_flatMap]
        simp [this]
      cases hr : act f true (some c.id) { w with step := 1 } with
      | oof w1 => exact absurd hr (a1 w1)
      | panic w1 => rw [hr] at stop; exact ⟨fun _ h => (by cases h), stop⟩
      | abort w1 => rw [hr] at stop; exact ⟨fun _ h => (by cases h), stop⟩
      | ok w1 =>
        clear stop
        rw [hr] at hw hg hfl
        simp only [AOut.world] at hw hg hfl
        have hEx := hw.other (madeAt lg) fun _ _ => rfl
        obtain ⟨b1, lg2, b2, b3, b4⟩ := ih (fun c hc => hv c (List.mem_cons_of_mem _ hc)) hnd.2.1 hi.2 n
          (by simp at hn; omega) (done ++ newList (madeAt lg) c.id) { w1 with index := w1.index + w1.step }
          (fun d hd => (hhas d (List.mem_cons_of_mem _ hd)).out fun a ha => by
            have har : a ∈ rest.flatMap Tree.ids := List.mem_flatMap.2 ⟨d, hd, ha⟩
            simp only []
            rw [hEx a (fun he => hi.2 (he ▸ har)), if_neg (fun h => hdis a h har)])
          hfl (hit w1 hr)
        rw [AOut.bind_ok]
        refine ⟨b1, lg ++ lg2, hw.trans (ks2 := rest) b2 hdis, fun g hgf => (b3 g hgf).trans (hg g hgf), ?_⟩
        rw [b4]
        have e1 : newList (madeAt (lg ++ lg2)) c.id = newList (madeAt lg) c.id := by
          simp only [newList, madeAt_append, b2.quiet (hdis c.id (by simp [self])), List.append_nil]
        have e2 : rest.flatMap (fun c => newList (madeAt (lg ++ lg2)) c.id) =
            rest.flatMap (fun c => newList (madeAt lg2) c.id) := by
          have hq : ∀ d ∈ rest, newList (madeAt (lg ++ lg2)) d.id = newList (madeAt lg2) d.id := fun d hd => by
            simp only [newList, madeAt_append, hw.quiet fun h => hdis _ h (hrest d hd), List.nil_append]
          exact flatMap_eq hq
        rw [List.flatMap_cons, e1, e2, List.append_assoc]

theorem rev_step {σ : Type} {i n : Nat} {all : Bool} {fs : List FieldVal}
    {act : FName → Bool → Option Nat → World (σ × EditLog) → AOut (σ × EditLog)}
    (hn : (fs.map FieldVal.name).Nodup) (hlen : ∀ f ts, FieldVal.list f ts ∈ fs → ts.length < n) {x : FieldVal} (hx : x ∈ fs)
    (st : AStep) (hfx : x.name = st.toW.field)
    (hkids : st.toW.kids all fs = x.nodes.map some ∨ x.nodes = [] ∧ ∃ name f, st = .one name f)
    (hlist : ∀ f, st = .list f → ∃ ts, fs.find? (fun x => x.name == f) = some (.list f ts))
    (hnone : ∀ name l w, act name l none w = .panic w) (hv : ∀ c ∈ x.nodes, Revise i c act) (hnd : (x.nodes.flatMap Tree.ids).Nodup)
    (hi : i ∉ x.nodes.flatMap Tree.ids) (w : World (σ × EditLog)) (hall : (w.heap i).all = all)
    (hf : w.heap.field i x.name = some x.ref) (hlab : st.label = x.name ∨ w.heap.field i st.label = none)
    (hhas : ∀ c ∈ x.nodes, w.heap.Has c) :
    (∀ w', applyStep act i n st w ≠ .oof w') ∧
    ∃ lg, Wrote i x.nodes w.heap w.user.2 (applyStep act i n st w).world lg ∧
      (∀ g, g ≠ x.name → (applyStep act i n st w).world.heap.field i g = w.heap.field i g) ∧
      (applyStep act i n st w).world.heap.field i x.name = some (x.ref.edited (madeAt lg)) ∧
      ∀ w', applyStep act i n st w = .ok w' → w'.index = w.index ∧ w'.step = w.step := by
  have hfind : fs.find? (fun y => y.name == x.name) = some x := find_of_nodup hn hx
  have hptr : w.heap.ptr i x.name = match x with
      | .one _ t => some t.id
      | _ => none := by
    simp only [Heap.ptr, hf]
    cases x <;> rfl
  rcases hkids with hkids | ⟨hnil, name, f, rfl⟩
  case inr =>
    have hxf : x.name = f := hfx
    have e : applyStep act i n (.one name f) w = .panic w := by
      simp only [applyStep]
      rw [← hxf, hptr, ← hnone name false w]
      cases x with
      | one => simp [FieldVal.nodes] at hnil
      | nil => rfl
      | list => rfl
    rw [e, hnil]
    exact ⟨fun _ h => (by cases h), [], .nil w, fun _ _ => rfl, by rw [AOut.world, hf, ref_edited_nil hnil],
      fun _ h => (by cases h)⟩
  have skip : x.nodes = [] → (∀ w', (AOut.ok w : AOut (σ × EditLog)) ≠ .oof w') ∧
      ∃ lg, Wrote i x.nodes w.heap w.user.2 (AOut.ok w : AOut (σ × EditLog)).world lg ∧
        (∀ g, g ≠ x.name → (AOut.ok w : AOut (σ × EditLog)).world.heap.field i g = w.heap.field i g) ∧
        (AOut.ok w : AOut (σ × EditLog)).world.heap.field i x.name = some (x.ref.edited (madeAt lg)) ∧
        ∀ w', (AOut.ok w : AOut (σ × EditLog)) = .ok w' → w'.index = w.index ∧ w'.step = w.step := by
    intro he
    refine ⟨fun _ h => (by cases h), [], ?_, fun _ _ => rfl, ?_, fun w' h => by cases h; exact ⟨rfl, rfl⟩⟩
    · rw [he]; exact .nil w
    · rw [ref_edited_nil he]; exact hf
  have one : ∀ f c, x = .one f c → (∀ w', act st.label false (some c.id) w ≠ .oof w') ∧
      ∃ lg, Wrote i x.nodes w.heap w.user.2 (act st.label false (some c.id) w).world lg ∧
        (∀ g, g ≠ x.name → (act st.label false (some c.id) w).world.heap.field i g = w.heap.field i g) ∧
        (act st.label false (some c.id) w).world.heap.field i x.name = some (x.ref.edited (madeAt lg)) ∧
        ∀ w', act st.label false (some c.id) w = .ok w' → w'.index = w.index ∧ w'.step = w.step := by
    rintro f c rfl
    have hc : c ∈ FieldVal.nodes (.one f c) := by simp [FieldVal.nodes]
    simp only [FieldVal.name, FieldVal.ref] at hf hlab ⊢
    obtain ⟨a1, a2, -⟩ := hv c hc st.label false w (hhas c hc)
    obtain ⟨lg, b1, b2, b3, b4, b5⟩ := a2 ⟨rfl, hlab.imp (fun h => by rw [h]; exact hf) id⟩
    refine ⟨a1, lg, b1, fun g hg => ?_, ?_, b5⟩
    · rcases hlab with h | h
      · exact b2 g (by rw [h]; exact hg)
      · by_cases hgl : g = st.label
        · rw [hgl, b1.field_none h, h]
        · exact b2 g hgl
    · rcases hlab with h | h
      · rw [h] at b3 ⊢; exact b3 hf
      · by_cases hgl : f = st.label
        · rw [← hgl, hf] at h; cases h
        · rw [b2 f hgl, hf]
          simp only [FieldRef.edited, newOne_nil (b4 h)]
  cases st with
  | one name f =>
    simp only [AStep.toW, WStep.field] at hfx
    subst hfx
    simp only [AStep.toW, WStep.kids, hfind] at hkids
    cases x with
    | nil => simp [FieldVal.nodes] at hkids
    | list g ts => cases ts <;> simp [FieldVal.nodes] at hkids
    | one g c =>
      simp only at hptr
      simp only [applyStep, hptr]
      exact one g c rfl
  | opt name f =>
    simp only [AStep.toW, WStep.field] at hfx
    subst hfx
    simp only [AStep.toW, WStep.kids, hfind] at hkids
    cases x with
    | nil => simp only at hptr; simp only [applyStep, hptr]; exact skip rfl
    | list g ts => simp only at hptr; simp only [applyStep, hptr]; exact skip (by simpa using hkids.symm)
    | one g c =>
      simp only at hptr
      simp only [applyStep, hptr]
      exact one g c rfl
  | unlessAll name f =>
    simp only [AStep.toW, WStep.field] at hfx
    subst hfx
    simp only [AStep.toW, WStep.kids, hfind] at hkids
    cases all with
    | true => simp only [applyStep, hall, if_true]; exact skip (by simpa using hkids.symm)
    | false =>
      simp only [Bool.false_eq_true, if_false] at hkids
      cases x with
      | nil => simp [FieldVal.nodes] at hkids
      | list g ts => cases ts <;> simp [FieldVal.nodes] at hkids
      | one g c =>
        simp only at hptr
        simp only [applyStep, hptr, hall, Bool.false_eq_true, if_false]
        exact one g c rfl
  | list f =>
    simp only [AStep.toW, WStep.field] at hfx
    obtain ⟨ts, hts⟩ := hlist _ rfl
    rw [← hfx, hfind, hfx] at hts
    obtain rfl : x = .list f ts := Option.some.inj hts
    clear one skip hptr
    obtain ⟨a1, lg, a2, a3, a4⟩ := rev_listLoop (f := f) ts hv hnd hi n (hlen f ts hx) [] { w with index := 0 } hhas
      (by simpa [FieldVal.ref, FieldVal.name] using hf) rfl
    simp only [applyStep, applyList]
    have hw : ((listLoop (act f true) i f n { w with index := 0 }).bind fun w' =>
        .ok { w' with index := w.index, step := w.step }).world.heap =
        (listLoop (act f true) i f n { w with index := 0 }).world.heap ∧
        ((listLoop (act f true) i f n { w with index := 0 }).bind fun w' =>
        .ok { w' with index := w.index, step := w.step }).world.user =
        (listLoop (act f true) i f n { w with index := 0 }).world.user := by
      cases listLoop (act f true) i f n { w with index := 0 } <;> exact ⟨rfl, rfl⟩
    refine ⟨?_, lg, ⟨by rw [hw.2]; exact a2.log, a2.ids, by rw [hw.1]; exact a2.other, by rw [hw.1]; exact a2.kind,
      by rw [hw.1]; exact a2.all, by rw [hw.1]; exact a2.names⟩, by rw [hw.1]; exact a3, ?_, ?_⟩
    · intro w' h
      cases hr : listLoop (act f true) i f n { w with index := 0 } with
      | oof w1 => exact a1 w1 hr
      | ok => rw [hr] at h; cases h
      | abort => rw [hr] at h; cases h
      | panic => rw [hr] at h; cases h
    · rw [hw.1]
      simp only [FieldVal.name, FieldVal.ref, FieldRef.edited, List.flatMap_map]
      simpa using a4
    · intro w' h
      cases hr : listLoop (act f true) i f n { w with index := 0 } with
      | ok w1 => rw [hr] at h; simp only [AOut.bind_ok, AOut.ok.injEq] at h; subst h; exact ⟨rfl, rfl⟩
      | abort => rw [hr] at h; cases h
      | panic => rw [hr] at h; cases h
      | oof => rw [hr] at h; cases h

theorem rev_steps {σ : Type} {i n : Nat} {all : Bool} {fs : List FieldVal}
    {act : FName → Bool → Option Nat → World (σ × EditLog) → AOut (σ × EditLog)}
    (hn : (fs.map FieldVal.name).Nodup) (hlen : ∀ f ts, FieldVal.list f ts ∈ fs → ts.length < n)
    (hnone : ∀ name l w, act name l none w = .panic w) (hv : ∀ c ∈ fs.flatMap FieldVal.nodes, Revise i c act)
    (hi : i ∉ (fs.flatMap FieldVal.nodes).flatMap Tree.ids) : ∀ (xs : List (AStep × FieldVal)),
    (∀ y ∈ xs, y.2 ∈ fs ∧ y.2.name = y.1.toW.field ∧
      (y.1.toW.kids all fs = y.2.nodes.map some ∨ y.2.nodes = [] ∧ ∃ name f, y.1 = .one name f)) →
    (∀ y ∈ xs, ∀ f, y.1 = .list f → ∃ ts, fs.find? (fun x => x.name == f) = some (.list f ts)) →
    (xs.map fun y => y.2.name).Nodup → ((xs.flatMap fun y => y.2.nodes).flatMap Tree.ids).Nodup →
    ∀ (w : World (σ × EditLog)), (w.heap i).all = all → (∀ y ∈ xs, w.heap.field i y.2.name = some y.2.ref) →
    (∀ y ∈ xs, y.1.label = y.2.name ∨ w.heap.field i y.1.label = none) →
    (∀ c ∈ xs.flatMap fun y => y.2.nodes, w.heap.Has c) →
    (∀ w', applySteps act i n (xs.map Prod.fst) w ≠ .oof w') ∧
    ∃ lg, Wrote i (xs.flatMap fun y => y.2.nodes) w.heap w.user.2 (applySteps act i n (xs.map Prod.fst) w).world lg ∧
      (∀ g, g ∉ xs.map (fun y => y.2.name) →
        (applySteps act i n (xs.map Prod.fst) w).world.heap.field i g = w.heap.field i g) ∧
      (∀ y ∈ xs, (applySteps act i n (xs.map Prod.fst) w).world.heap.field i y.2.name =
        some (y.2.ref.edited (madeAt lg))) ∧
      ∀ w', applySteps act i n (xs.map Prod.fst) w = .ok w' → w'.index = w.index ∧ w'.step = w.step := by
  have self : ∀ t : Tree, t.id ∈ t.ids := fun t => by rw [Tree.ids_eq]; exact List.mem_cons_self ..
  intro xs
  induction xs with
  | nil =>
    intro _ _ _ _ w _ _ _ _
    exact ⟨fun _ h => (by cases h), [], .nil w, fun _ _ => rfl, fun y hy => (by cases hy),
      fun w' h => by cases h; exact ⟨rfl, rfl⟩⟩
  | cons y xs ih =>
    intro hst hlist hdist hnd w hall hf hlab hhas
    obtain ⟨st, x⟩ := y
    simp only [List.flatMap_cons, List.flatMap_append, List.nodup_append, List.mem_append] at hnd hhas
    simp only [List.map_cons, List.nodup_cons] at hdist
    obtain ⟨hx, hxf, hkids⟩ := hst (st, x) (List.mem_cons_self ..)
    simp only at hx hxf hkids
    have hmem : ∀ c ∈ x.nodes, c ∈ fs.flatMap FieldVal.nodes := fun c hc => List.mem_flatMap.2 ⟨x, hx, hc⟩
    have hix : i ∉ x.nodes.flatMap Tree.ids := fun h => by
      obtain ⟨c, hc, hic⟩ := List.mem_flatMap.1 h
      exact hi (List.mem_flatMap.2 ⟨c, hmem c hc, hic⟩)
    have hir : i ∉ (xs.flatMap fun y => y.2.nodes).flatMap Tree.ids := fun h => by
      obtain ⟨c, hc, hic⟩ := List.mem_flatMap.1 h
      obtain ⟨y, hy, hcy⟩ := List.mem_flatMap.1 hc
      exact hi (List.mem_flatMap.2 ⟨c, List.mem_flatMap.2 ⟨y.2, (hst y (List.mem_cons_of_mem _ hy)).1, hcy⟩, hic⟩)
    have hdis : ∀ a ∈ x.nodes.flatMap Tree.ids, a ∉ (xs.flatMap fun y => y.2.nodes).flatMap Tree.ids :=
      fun a ha hb => hnd.2.2 a ha a hb rfl
    have hin : ∀ c ∈ x.nodes, c.id ∈ x.nodes.flatMap Tree.ids := fun c hc => List.mem_flatMap.2 ⟨c, hc, self c⟩
    have hin' : ∀ y ∈ xs, ∀ c ∈ y.2.nodes, c.id ∈ (xs.flatMap fun y => y.2.nodes).flatMap Tree.ids := fun y hy c hc =>
      List.mem_flatMap.2 ⟨c, List.mem_flatMap.2 ⟨y, hy, hc⟩, self c⟩
    obtain ⟨a1, lg, a2, a3, a4, a5⟩ := rev_step hn hlen hx st hxf hkids
      (fun f hf => hlist (st, x) (List.mem_cons_self ..) f hf) hnone (fun c hc => hv c (hmem c hc)) hnd.1 hix w hall
      (hf (st, x) (List.mem_cons_self ..)) (hlab (st, x) (List.mem_cons_self ..)) (fun c hc => hhas c (.inl hc))
    have e : applySteps act i n (((st, x) :: xs).map Prod.fst) w =
        (applyStep act i n st w).bind (applySteps act i n (xs.map Prod.fst)) := rfl
    have stop : ∃ lg, Wrote i (((st, x) :: xs).flatMap fun y => y.2.nodes) w.heap w.user.2 (applyStep act i n st w).world lg ∧
        (∀ g, g ∉ ((st, x) :: xs).map (fun y => y.2.name) →
          (applyStep act i n st w).world.heap.field i g = w.heap.field i g) ∧
        (∀ y ∈ (st, x) :: xs, (applyStep act i n st w).world.heap.field i y.2.name =
          some (y.2.ref.edited (madeAt lg))) := by
      refine ⟨lg, a2.rest (fun c hc => hhas c (.inr hc)) hdis, fun g hg => ?_, fun y hy => ?_⟩
      · simp only [List.map_cons, List.mem_cons, not_or] at hg
        exact a3 g hg.1
      · rcases List.mem_cons.1 hy with rfl | hy'
        · exact a4
        · rw [a3 y.2.name (fun h => hdist.1 (h ▸ List.mem_map_of_mem (f := fun y => y.2.name) hy')), hf y hy,
            ref_edited_none fun c hc => a2.quiet fun h => hdis _ h (hin' y hy' c hc)]
    rw [e]
    cases hr : applyStep act i n st w with
    | oof w1 => exact absurd hr (a1 w1)
    | panic w1 =>
      rw [hr] at stop
      obtain ⟨l, s1, s2, s3⟩ := stop
      exact ⟨fun _ h => (by cases h), l, s1, s2, s3, fun _ h => (by cases h)⟩
    | abort w1 =>
      rw [hr] at stop
      obtain ⟨l, s1, s2, s3⟩ := stop
      exact ⟨fun _ h => (by cases h), l, s1, s2, s3, fun _ h => (by cases h)⟩
    | ok w1 =>
      clear stop
      rw [hr] at a2 a3 a4
      simp only [AOut.world] at a2 a3 a4
      have a5 := a5 w1 hr
      obtain ⟨b1, lg2, b2, b3, b4, b5⟩ := ih (fun y hy => hst y (List.mem_cons_of_mem _ hy))
        (fun y hy => hlist y (List.mem_cons_of_mem _ hy)) hdist.2 hnd.2.1 w1 (a2.all.trans hall)
        (fun y hy => by
          rw [a3 y.2.name (fun h => hdist.1 (h ▸ List.mem_map_of_mem (f := fun y => y.2.name) hy))]
          exact hf y (List.mem_cons_of_mem _ hy))
        (fun y hy => (hlab y (List.mem_cons_of_mem _ hy)).imp id a2.field_none)
        (fun c hc => (hhas c (.inr hc)).out fun a ha => by
          have har : a ∈ (xs.flatMap fun y => y.2.nodes).flatMap Tree.ids := List.mem_flatMap.2 ⟨c, hc, ha⟩
          rw [a2.other (madeAt lg) (fun _ _ => rfl) a (fun he => hir (he ▸ har)), if_neg fun h => hdis a h har])
      rw [AOut.bind_ok]
      refine ⟨b1, lg ++ lg2, a2.trans b2 hdis, fun g hg => ?_, fun y hy => ?_, fun w' h => ?_⟩
      · simp only [List.map_cons, List.mem_cons, not_or] at hg
        rw [b3 g hg.2, a3 g hg.1]
      · rcases List.mem_cons.1 hy with rfl | hy
        · rw [b3 _ hdist.1, a4]
          congr 1
          exact ref_edited_congr fun c hc => by
            rw [madeAt_append, b2.quiet (hdis _ (hin c hc)), List.append_nil]
        · rw [b4 y hy]
          congr 1
          exact ref_edited_congr fun c hc => by
            rw [madeAt_append, a2.quiet fun h => hdis _ h (hin' y hy c hc), List.nil_append]
      · have := b5 w' h
        exact ⟨this.1.trans a5.1, this.2.trans a5.2⟩

/-! ### Callbacks -/

theorem edit_set {σ : Type} {c : Cursor} {e : Edit} {w w' : World σ} (he : c.edit e w = some w') :
    ∃ x : FieldRef, x.name = c.name ∧ w'.heap = w.heap.setField c.parent x := by
  have hname : ∀ {x}, w.heap.field c.parent c.name = some x → x.name = c.name := fun hx => by
    simpa using List.find?_some hx
  cases e with
  | before n =>
    simp only [Cursor.edit, Cursor.insertBefore] at he
    split at he
    · cases he
    · split at he
      · rename_i hx
        split at he
        · cases he; exact ⟨_, by have h := hname hx; exact h, rfl⟩
        · cases he
      · cases he
  | after n =>
    simp only [Cursor.edit, Cursor.insertAfter] at he
    split at he
    · cases he
    · split at he
      · rename_i hx
        split at he
        · cases he; exact ⟨_, by have h := hname hx; exact h, rfl⟩
        · cases he
      · cases he
  | delete =>
    simp only [Cursor.edit, Cursor.delete] at he
    split at he
    · cases he
    · split at he
      · rename_i hx
        split at he
        · cases he; exact ⟨_, by have h := hname hx; exact h, rfl⟩
        · cases he
      · cases he
  | replace n =>
    simp only [Cursor.edit, Cursor.replace] at he
    split at he
    · cases he
    · rename_i hx
      split at he
      · split at he
        · split at he
          · split at he
            · cases he; exact ⟨_, by have h := hname hx; exact h, rfl⟩
            · cases he
          · cases he
        · split at he
          · cases he
          · cases he; exact ⟨_, by have h := hname hx; exact h, rfl⟩
      · cases he

theorem edits_names {σ : Type} {c : Cursor} : ∀ (es : List Edit) {w w' : World σ}, c.edits es w = some w' →
    (w'.heap c.parent).fields.map FieldRef.name = (w.heap c.parent).fields.map FieldRef.name
  | [], w, w', he => by cases he; rfl
  | e :: es, w, w', he => by
    simp only [Cursor.edits] at he
    cases h1 : c.edit e w with
    | none => rw [h1] at he; cases he
    | some w1 =>
      rw [h1] at he
      rw [edits_names es he]
      obtain ⟨x, hx, hw⟩ := edit_set h1
      simp only [hw, Heap.setField, Heap.set, if_true, List.map_map]
      apply List.map_congr_left
      intro y _
      simp only [Function.comp]
      split
      · rename_i h; simp only [beq_iff_eq] at h; exact h.symm
      · rfl

theorem edits_one {σ : Type} {c : Cursor} (hl : c.inList = false) : ∀ (es : List Edit) {w w' : World σ} (b : Nat) (s : Spot),
    c.edits es w = some w' → w.heap.field c.parent c.name = some (.one c.name b) → s.cur = some b →
    ∃ b', w'.heap.field c.parent c.name = some (.one c.name b') ∧ (es.foldl Spot.edit s).cur = some b'
  | [], w, w', b, s, he, hf, hs => by cases he; exact ⟨b, hf, hs⟩
  | e :: es, w, w', b, s, he, hf, hs => by
    have hidx : c.idx w = -1 := by simp [Cursor.idx, hl]
    simp only [Cursor.edits] at he
    cases h1 : c.edit e w with
    | none => rw [h1] at he; cases he
    | some w1 =>
      rw [h1] at he
      cases e with
      | before n => simp [Cursor.edit, Cursor.insertBefore, hidx] at h1
      | after n => simp [Cursor.edit, Cursor.insertAfter, hidx] at h1
      | delete => simp [Cursor.edit, Cursor.delete, hidx] at h1
      | replace n =>
        simp only [Cursor.edit, Cursor.replace, hf, hidx] at h1
        split at h1
        · simp only [ge_iff_le, show ¬ ((0 : Int) ≤ -1) by decide, if_false, Option.some.injEq] at h1
          refine edits_one hl es n _ he ?_ rfl
          rw [← h1, field_setField]
          simp [FieldRef.name, hf]
        · cases h1

theorem edits_nofield {σ : Type} {c : Cursor} {es : List Edit} {w w' : World σ} (he : c.edits es w = some w')
    (hf : w.heap.field c.parent c.name = none) : es = [] := by
  cases es with
  | nil => rfl
  | cons e es =>
    simp only [Cursor.edits] at he
    cases e <;> simp [Cursor.edit, Cursor.insertBefore, Cursor.insertAfter, Cursor.delete, Cursor.replace, hf] at he

/-- A call. -/
theorem noted_call {σ : Type} {b : Bool} {s : Cursor → World σ → Script σ} (hs : ∀ c w, DeleteLast (s c w).edits) (p a : Nat)
    (name : FName) (l : Bool) (w : World (σ × EditLog)) :
    (∃ (w' : World (σ × EditLog)) (es : List Edit) (ans : Bool),
      noted b s ⟨p, name, l, some a⟩ w = .ret ans w' ∧ w'.user.2 = w.user.2 ++ [(b, a, es)] ∧
      (∃ w0, es = (s ⟨p, name, l, some a⟩ w0).edits ∧ ans = (s ⟨p, name, l, some a⟩ w0).answer) ∧
      Frame w.heap p name w'.heap ∧
      (w'.heap p).fields.map FieldRef.name = (w.heap p).fields.map FieldRef.name ∧
      (l = false → w'.index = w.index ∧ w'.step = w.step) ∧
      (l = false → ∀ b s, w.heap.field p name = some (.one name b) → s.cur = some b →
        ∃ b', w'.heap.field p name = some (.one name b') ∧ (es.foldl Spot.edit s).cur = some b') ∧
      (w.heap.field p name = none → es = []) ∧
      ∀ h0 done rest s, l = true → s.cur.isSome → At h0 p name done rest s w →
        At h0 p name done rest (es.foldl Spot.edit s) w' ∧ (Edit.delete ∉ es → (es.foldl Spot.edit s).cur.isSome)) ∨
    noted b s ⟨p, name, l, some a⟩ w = .panic w := by
  simp only [noted]
  cases he : Cursor.edits ⟨p, name, l, some a⟩ (s ⟨p, name, l, some a⟩ ⟨w.user.1, w.heap, w.index, w.step⟩).edits w with
  | none => exact .inr rfl
  | some w' =>
    refine .inl ⟨_, _, _, rfl, rfl, ⟨_, rfl, rfl⟩, edits_frame _ he, edits_names _ he, (edits_iter _ he).2.2,
      fun hl b s hf hb => (have ⟨b', g1, g2⟩ := edits_one (c := ⟨p, name, l, some a⟩) hl _ b s he hf hb; ⟨b', g1, g2⟩), edits_nofield he, ?_⟩
    intro h0 done rest s hl hcur ha
    obtain ⟨g1, -, g3⟩ := edits_at (c := ⟨p, name, l, some a⟩) rfl rfl hl _ s w w' (hs _ _) hcur ha he
    exact ⟨⟨g1.list, g1.idx, g1.step, g1.frame⟩, g3⟩

/-! ### One node -/

theorem fields_ext : ∀ {l m : List FieldRef}, l.map FieldRef.name = m.map FieldRef.name → (m.map FieldRef.name).Nodup →
    (∀ y ∈ m, l.find? (fun x => x.name == y.name) = some y) → l = m
  | [], [], _, _, _ => rfl
  | [], y :: m, h, _, _ => by simp at h
  | z :: l, [], h, _, _ => by simp at h
  | z :: l, y :: m, h, hn, hf => by
    simp only [List.map_cons, List.cons.injEq] at h
    simp only [List.map_cons, List.nodup_cons] at hn
    have h1 := hf y (List.mem_cons_self ..)
    simp only [List.find?_cons, h.1, beq_self_eq_true, Option.some.injEq] at h1
    subst h1
    rw [fields_ext h.2 hn.2 fun y' hy' => ?_]
    have h2 := hf y' (List.mem_cons_of_mem _ hy')
    rw [List.find?_cons] at h2
    have : (z.name == y'.name) = false := by
      simp only [beq_eq_false_iff_ne, ne_eq]
      exact fun he => hn.1 (he ▸ List.mem_map_of_mem hy')
    rwa [this] at h2

theorem choose_list {α β : Type} {P : α → β → Prop} : ∀ (l : List α), (∀ x ∈ l, ∃ y, P x y) →
    ∃ xs : List (α × β), xs.map Prod.fst = l ∧ ∀ y ∈ xs, P y.1 y.2
  | [], _ => ⟨[], rfl, fun y hy => (by cases hy)⟩
  | x :: l, h => by
    obtain ⟨y, hy⟩ := h x (List.mem_cons_self ..)
    obtain ⟨xs, h1, h2⟩ := choose_list l fun x hx => h x (List.mem_cons_of_mem _ hx)
    refine ⟨(x, y) :: xs, by simp [h1], fun z hz => ?_⟩
    rcases List.mem_cons.1 hz with rfl | hz
    · exact hy
    · exact h2 z hz

/-- The name in the cursor is that of the field, or no field has that name. -/
theorem misnamed_table : ∀ k ∈ Kind.all, ∀ st ∈ k.apply.getD [],
    (st.label == st.toW.field || !(k.fields.map Field.name).contains st.label) = true := by
  decide +kernel

/-- The fields that `Apply` takes for granted are visited by `.one`. -/
theorem unchecked_table : ∀ k ∈ Kind.all, ∀ st ∈ k.apply.getD [],
    (!uncheckedFields.contains (k, st.toW.field) || match st with | .one .. => true | _ => false) = true := by
  decide +kernel

theorem unknown_table : ∀ k ∈ Kind.all, applyUnknownKinds.contains k = true → k.apply = none := by
  decide +kernel

theorem some_nodup {fs : List FieldVal} (hd1 : ∀ x ∈ fs, (x.nodes.flatMap Tree.ids).Nodup)
    (hd2 : ∀ x ∈ fs, ∀ y ∈ fs, x ≠ y → ∀ a ∈ x.nodes.flatMap Tree.ids, a ∉ y.nodes.flatMap Tree.ids) :
    ∀ (xs : List (AStep × FieldVal)), (∀ y ∈ xs, y.2 ∈ fs) → (xs.map fun y => y.2.name).Nodup →
    ((xs.flatMap fun y => y.2.nodes).flatMap Tree.ids).Nodup
  | [], _, _ => List.nodup_nil
  | y :: xs, hm, hn => by
    simp only [List.map_cons, List.nodup_cons] at hn
    simp only [List.flatMap_cons, List.flatMap_append, List.nodup_append]
    refine ⟨hd1 _ (hm y (List.mem_cons_self ..)), some_nodup hd1 hd2 xs (fun z hz => hm z (List.mem_cons_of_mem _ hz)) hn.2,
      fun a ha b hb he => ?_⟩
    subst he
    obtain ⟨c, hc, hac⟩ := List.mem_flatMap.1 hb
    obtain ⟨z, hz, hcz⟩ := List.mem_flatMap.1 hc
    refine hd2 y.2 (hm y (List.mem_cons_self ..)) z.2 (hm z (List.mem_cons_of_mem _ hz)) (fun he => ?_) a ha
      (List.mem_flatMap.2 ⟨c, hcz, hac⟩)
    exact hn.1 (he ▸ List.mem_map_of_mem (f := fun y : AStep × FieldVal => y.2.name) hz)

/-- What the edits `es` of the node `a` did to the struct at `p`. -/
structure Stage {σ : Type} (p : Nat) (name : FName) (l : Bool) (a : Nat) (w : World σ) (es : List Edit) (h : Heap) : Prop where
  kind : (h p).kind = (w.heap p).kind
  all : (h p).all = (w.heap p).all
  names : (h p).fields.map FieldRef.name = (w.heap p).fields.map FieldRef.name
  others : ∀ g, g ≠ name → h.field p g = w.heap.field p g
  one : l = false → w.heap.field p name = some (.one name a) →
    ∃ b, h.field p name = some (.one name b) ∧ (es.foldl Spot.edit ⟨[], some a, []⟩).cur = some b
  no : w.heap.field p name = none → es = []
  list : l = true → ∀ done rest, w.heap.field p name = some (.list name (done ++ a :: rest)) →
    w.index = (done.length : Int) → w.step = 1 →
    h.field p name = some (.list name (done ++ editResult a es ++ rest))

theorem Stage.move {σ : Type} {p : Nat} {name : FName} {l : Bool} {a : Nat} {w : World σ} {es : List Edit} {h h' : Heap}
    (hs : Stage p name l a w es h) (he : h' p = h p) : Stage p name l a w es h' := by
  have hf : ∀ g, h'.field p g = h.field p g := fun g => by simp only [Heap.field, he]
  exact ⟨by rw [he]; exact hs.kind, by rw [he]; exact hs.all, by rw [he]; exact hs.names,
    fun g hg => by rw [hf]; exact hs.others g hg, fun h1 h2 => by rw [hf]; exact hs.one h1 h2, hs.no,
    fun h1 d r h2 h3 h4 => by rw [hf]; exact hs.list h1 d r h2 h3 h4⟩

theorem field_none_names {h h' : Heap} {p : Nat} {g : FName}
    (hn : (h' p).fields.map FieldRef.name = (h p).fields.map FieldRef.name) (hg : h.field p g = none) :
    h'.field p g = none := by
  simp only [Heap.field, List.find?_eq_none, beq_iff_eq] at hg ⊢
  intro x hx he
  have : g ∈ (h p).fields.map FieldRef.name := by rw [← hn]; exact he ▸ List.mem_map_of_mem hx
  obtain ⟨y, hy, hyn⟩ := List.mem_map.1 this
  exact hg y hy hyn

theorem finish {σ : Type} {p : Nat} {name : FName} {l : Bool} {t : Tree} {w : World (σ × EditLog)} {es : List Edit}
    {R : AOut (σ × EditLog)} {lg : EditLog} (hm : madeAt lg t.id = es) (hoof : ∀ w', R ≠ .oof w')
    (hW : Wrote p [t] w.heap w.user.2 R.world lg) (hS : Stage p name l t.id w es R.world.heap)
    (h0 : l = false → ∀ w', R = .ok w' → w'.index = w.index ∧ w'.step = w.step)
    (h1 : l = true → ∀ done rest, w.heap.field p name = some (.list name (done ++ t.id :: rest)) →
      w.index = (done.length : Int) → w.step = 1 →
      ∀ w', R = .ok w' → w'.index + w'.step = ((done ++ editResult t.id es).length : Int)) :
    (∀ w', R ≠ .oof w') ∧
    ((l = false ∧ (w.heap.field p name = some (.one name t.id) ∨ w.heap.field p name = none) →
      ∃ lg, Wrote p [t] w.heap w.user.2 R.world lg ∧
        (∀ g, g ≠ name → R.world.heap.field p g = w.heap.field p g) ∧
        (w.heap.field p name = some (.one name t.id) →
          R.world.heap.field p name = some (.one name (newOne (madeAt lg) t.id))) ∧
        (w.heap.field p name = none → madeAt lg t.id = []) ∧
        ∀ w', R = .ok w' → w'.index = w.index ∧ w'.step = w.step)) ∧
    (l = true → ∀ done rest, w.heap.field p name = some (.list name (done ++ t.id :: rest)) →
      w.index = (done.length : Int) → w.step = 1 →
      ∃ lg, Wrote p [t] w.heap w.user.2 R.world lg ∧
        (∀ g, g ≠ name → R.world.heap.field p g = w.heap.field p g) ∧
        R.world.heap.field p name = some (.list name (done ++ newList (madeAt lg) t.id ++ rest)) ∧
        ∀ w', R = .ok w' → w'.index + w'.step = ((done ++ newList (madeAt lg) t.id).length : Int)) := by
  refine ⟨hoof, fun ⟨hl, _⟩ => ⟨lg, hW, hS.others, fun hf => ?_, fun hf => by rw [hm]; exact hS.no hf, h0 hl⟩,
    fun hl done rest hf hi hst => ⟨lg, hW, hS.others, ?_, ?_⟩⟩
  · obtain ⟨b, hb, hc⟩ := hS.one hl hf
    rw [hb, newOne, hm, hc]; rfl
  · rw [newList, hm]; exact hS.list hl done rest hf hi hst
  · rw [newList, hm]; exact h1 hl done rest hf hi hst

theorem rev_apply {σ : Type} {spre spost : Cursor → World σ → Script σ}
    (hpre : ∀ c w, DeleteLast (spre c w).edits ∧ ((spre c w).answer = true → Edit.delete ∉ (spre c w).edits))
    (hpost : ∀ c w, DeleteLast (spost c w).edits) (n : Nat) :
    ∀ t : Tree, sizeOf t ≤ n → (∀ u, Occurs t u → u.WellTyped) → t.ids.Nodup →
    ∀ p, p ∉ t.ids → Revise p t (fun name l b => apply (noted false spre) (noted true spost) n ⟨p, name, l, b⟩) := by
  have self : ∀ t : Tree, t.id ∈ t.ids := fun t => by rw [Tree.ids_eq]; exact List.mem_cons_self ..
  induction n with
  | zero => intro t ht; cases t; simp at ht
  | succ n ih =>
    intro t ht hgood hnd p hp name l w hhas
    have hg := hgood t (.refl t)
    have hself := hhas t (.refl t)
    have hpt : t.id ≠ p := fun he => hp (by rw [Tree.ids_eq]; exact he ▸ List.mem_cons_self ..)
    have hnd' := hnd
    rw [Tree.ids_eq] at hnd'
    simp only [List.nodup_cons] at hnd'
    have hdc := (flatMap_disjoint hnd'.2).1
    have hflat : t.children.flatMap Tree.ids = t.fields.flatMap (fun x => x.nodes.flatMap Tree.ids) := by
      simp [Tree.children, List.flatMap_assoc]
    obtain ⟨hd1, hd2⟩ := flatMap_disjoint (hflat ▸ hnd'.2)
    -- the steps, if there are any
    have hsts : t.kind.apply = none ∨ ∃ sts ks, t.kind.apply = some sts ∧ t.id ∉ ks.flatMap Tree.ids ∧
        p ∉ ks.flatMap Tree.ids ∧ (∀ w1 : World (σ × EditLog), (∀ a, a ≠ p → w1.heap a = w.heap a) →
          ∃ lg2, (∀ w', applySteps (fun name l b => apply (noted false spre) (noted true spost) n ⟨t.id, name, l, b⟩)
              t.id n sts w1 ≠ .oof w') ∧
            (∀ w', applySteps (fun name l b => apply (noted false spre) (noted true spost) n ⟨t.id, name, l, b⟩)
              t.id n sts w1 = .ok w' → w'.index = w1.index ∧ w'.step = w1.step) ∧
            Wrote t.id ks w1.heap w1.user.2 (applySteps (fun name l b =>
              apply (noted false spre) (noted true spost) n ⟨t.id, name, l, b⟩) t.id n sts w1).world lg2 ∧
            ∀ (w3 : World (σ × EditLog)) (es : List Edit) (tail : EditLog), w1.user.2 = w.user.2 ++ [(false, t.id, es)] →
              (∀ a, a ≠ p → w3.heap a = (applySteps (fun name l b =>
                apply (noted false spre) (noted true spost) n ⟨t.id, name, l, b⟩) t.id n sts w1).world.heap a) →
              w3.user.2 = (applySteps (fun name l b =>
                apply (noted false spre) (noted true spost) n ⟨t.id, name, l, b⟩) t.id n sts w1).world.user.2 ++ tail →
              (∀ x ∈ tail, x.2.1 = t.id) → (w3.heap p).kind = (w.heap p).kind → (w3.heap p).all = (w.heap p).all →
              (w3.heap p).fields.map FieldRef.name = (w.heap p).fields.map FieldRef.name →
              Wrote p [t] w.heap w.user.2 w3 ((false, t.id, es) :: (lg2 ++ tail))) := by
      rcases replace_table t.kind (Kind.mem_all _) with hrep | hrep
      · exact .inl (unknown_table _ (Kind.mem_all _) hrep)
      cases hsteps : t.kind.apply with
      | none => rw [hsteps] at hrep; cases hrep
      | some sts =>
      rw [hsteps] at hrep
      simp only [replaceTable, Bool.and_eq_true, List.all_eq_true, decide_eq_true_eq, List.any_eq_true, Bool.or_eq_true,
        beq_iff_eq, Bool.not_eq_true'] at hrep
      obtain ⟨⟨htab1, htab2⟩, -⟩ := hrep
      have hlists := apply_lists t.kind (Kind.mem_all _)
      rw [hsteps] at hlists
      have hmis := misnamed_table t.kind (Kind.mem_all _)
      rw [hsteps] at hmis
      have hunc := unchecked_table t.kind (Kind.mem_all _)
      rw [hsteps] at hunc
      have hndk : (t.kind.fields.map Field.name).Nodup := by
        simpa [fieldNamesDistinct] using table_names t.kind (Kind.mem_all _)
      have hnames := fitsAll_names hg.1
      have hndf : (t.fields.map FieldVal.name).Nodup := by rw [hnames]; exact hndk
      obtain ⟨xs, hxs, hxP⟩ := choose_list (P := fun st x => x ∈ t.fields ∧ x.name = st.toW.field ∧
          (st.toW.kids t.all t.fields = x.nodes.map some ∨ x.nodes = [] ∧ ∃ name f, st = .one name f)) sts (fun st hst => by
        obtain ⟨d, hd, ⟨hdn, hsf⟩, -⟩ := htab1 st hst
        obtain ⟨x, hx, hfit⟩ := (fitsAll_both hg.1).1 d hd
        have hname := fits_name hfit
        refine ⟨x, hx, by rw [hname, hdn], ?_⟩
        by_cases hun : (t.kind, x.name) ∈ uncheckedFields ∧ x.nodes = []
        · right
          refine ⟨hun.2, ?_⟩
          have h1 := hunc st hst
          have h2 : uncheckedFields.contains (t.kind, st.toW.field) = true := by
            rw [← hdn, ← hname]; simpa using hun.1
          rw [h2] at h1
          cases st with
          | one name f => exact ⟨name, f, rfl⟩
          | opt => simp at h1
          | list => simp at h1
          | unlessAll => simp at h1
        · left
          have hfind := find_of_nodup hndf hx
          rw [hname] at hfind
          refine stepFor_kids hfind hfit hsf (fun h1 h2 => hun ⟨h1, h2⟩) ?_
          intro hkl hxn
          rw [hg.2 hkl]
          constructor
          · intro hmm; exact (field_unique hndf hmm hx (by rw [hxn]; rfl)).symm
          · intro he; rw [← he]; exact hx)
      have hst_mem : ∀ y ∈ xs, y.1 ∈ sts := fun y hy => hxs ▸ List.mem_map_of_mem hy
      have hxnames : (xs.map fun y => y.2.name) = sts.map fun st => st.toW.field := by
        rw [← hxs, List.map_map]
        exact List.map_congr_left fun y hy => (hxP y hy).2.1
      have hxnd : (xs.map fun y => y.2.name).Nodup := by rw [hxnames]; exact htab2
      obtain ⟨ks, hkids⟩ : ∃ ks, (xs.flatMap fun y => y.2.nodes) = ks := ⟨_, rfl⟩
      have hmem : ∀ c ∈ ks, c ∈ t.children := fun c hc => by
        rw [← hkids] at hc
        obtain ⟨y, hy, hcy⟩ := List.mem_flatMap.1 hc
        exact List.mem_flatMap.2 ⟨y.2, (hxP y hy).1, hcy⟩
      have hsub : ∀ a, a ∈ ks.flatMap Tree.ids → a ∈ t.children.flatMap Tree.ids := fun a ha => by
        obtain ⟨c, hc, hac⟩ := List.mem_flatMap.1 ha
        exact List.mem_flatMap.2 ⟨c, hmem c hc, hac⟩
      have hpk : p ∉ ks.flatMap Tree.ids := fun h => hp (by rw [Tree.ids_eq]; exact List.mem_cons_of_mem _ (hsub p h))
      have htk : t.id ∉ ks.flatMap Tree.ids := fun h => hnd'.1 (hsub _ h)
      -- fields that are not visited
      have hunv : ∀ x ∈ t.fields, x.name ∉ xs.map (fun y => y.2.name) →
          ∀ a ∈ x.nodes.flatMap Tree.ids, a ∉ ks.flatMap Tree.ids := by
        intro x hx hxn a ha hak
        rw [← hkids] at hak
        obtain ⟨c, hc, hac⟩ := List.mem_flatMap.1 hak
        obtain ⟨y, hy, hcy⟩ := List.mem_flatMap.1 hc
        refine hd2 x hx y.2 (hxP y hy).1 (fun he => hxn ?_) a ha (List.mem_flatMap.2 ⟨c, hcy, hac⟩)
        rw [he]; exact List.mem_map_of_mem (f := fun y : AStep × FieldVal => y.2.name) hy
      refine .inr ⟨sts, ks, rfl, htk, hpk, fun w1 hw1 => ?_⟩
      obtain ⟨a1, lg2, a2, a3, a4, a5⟩ := rev_steps (i := t.id) (n := n) (all := t.all) (fs := t.fields)
        (act := fun name l b => apply (noted false spre) (noted true spost) n ⟨t.id, name, l, b⟩) hndf
        (fun f ts hf => by
          cases t with
          | mk k i all fs =>
            have := list_length_lt (k := k) (i := i) (all := all) hf
            simp only [Tree.fields] at this; omega)
        (fun name l w => by
          cases n with
          | zero =>
            cases t with
            | mk k i all fs =>
              exfalso
              have : 0 < sizeOf fs := by cases fs <;> simp <;> omega
              simp at ht; omega
          | succ n => rfl)
        (fun c hc => by
          have hlt := child_lt (t := t) hc
          exact ih c (by omega) (fun u hu => hgood u (.child hc hu)) (hdc c hc) t.id
            (fun hi => hnd'.1 (List.mem_flatMap.2 ⟨c, hc, hi⟩)))
        hnd'.1 xs hxP
        (fun y hy f hf => fitsAll_list hg.1 hndk (by
          have := hlists _ (hst_mem y hy)
          rw [hf] at this
          simpa using this))
        hxnd (some_nodup hd1 hd2 xs (fun y hy => (hxP y hy).1) hxnd) w1
        (by rw [hw1 _ hpt, hself])
        (fun y hy => by
          simp only [Heap.field, hw1 _ hpt, hself, find_map_ref, find_of_nodup hndf (hxP y hy).1, Option.map_some])
        (fun y hy => by
          have := hmis _ (hst_mem y hy)
          simp only [Bool.or_eq_true, beq_iff_eq, Bool.not_eq_true', List.contains_eq_mem, decide_eq_false_iff_not] at this
          refine this.imp (fun h => h.trans (hxP y hy).2.1.symm) fun h => ?_
          simp only [Heap.field, hw1 _ hpt, hself, find_map_ref, Option.map_eq_none_iff, List.find?_eq_none, beq_iff_eq]
          intro x hx he
          exact h (by rw [← hnames]; exact he ▸ List.mem_map_of_mem hx))
        (fun c hc => by
          rw [hkids] at hc
          have hc := hmem c hc
          have hh : w.heap.Has c := fun v hv => hhas v (.child hc hv)
          refine hh.out fun a ha => hw1 a fun he => hp ?_
          rw [← he, Tree.ids_eq]
          exact List.mem_cons_of_mem _ (List.mem_flatMap.2 ⟨c, hc, ha⟩))
      simp only [hkids, hxs] at a1 a2 a3 a4 a5
      refine ⟨lg2, a1, a5, a2, ?_⟩
      intro w3 es tail hu1 h3 hu3 htl hkd hal hnm
      generalize (applySteps (fun name l b => apply (noted false spre) (noted true spost) n ⟨t.id, name, l, b⟩) t.id n sts
        w1).world = w2 at *
      have h1 := hw1
      have h2 := a2
      have h2o := a3
      have h2f := a4
      have hone : [t].flatMap Tree.ids = t.ids := by simp
      refine ⟨by rw [hu3, h2.log, hu1]; simp, ?_, fun E hE a ha => ?_, hkd, hal, hnm⟩
      · intro x hx
        rw [hone, Tree.ids_eq, List.mem_cons]
        simp only [List.mem_cons, List.mem_append] at hx
        rcases hx with rfl | hx | hx
        · exact .inl rfl
        · exact .inr (hsub _ (h2.ids x hx))
        · exact .inl (htl x hx)
      · rw [hone] at hE ⊢
        have hE2 : ∀ b ∈ ks.flatMap Tree.ids, E b = madeAt lg2 b := by
          intro b hb
          have hbt : b ≠ t.id := fun he => htk (he ▸ hb)
          rw [hE b (by rw [Tree.ids_eq]; exact List.mem_cons_of_mem _ (hsub b hb)),
            show (false, t.id, es) :: (lg2 ++ tail) = [(false, t.id, es)] ++ (lg2 ++ tail) from rfl, madeAt_append,
            madeAt_append, madeAt_none (l := tail) fun x hx he => hbt (he.symm.trans (htl x hx)),
            madeAt_none (l := [(false, t.id, es)]) fun x hx he => hbt (by
              rw [List.mem_singleton] at hx; subst hx; exact he.symm)]
          simp
        have hE0 : ∀ b ∈ t.children.flatMap Tree.ids, b ∉ ks.flatMap Tree.ids → E b = [] := by
          intro b hb hbk
          rw [hE b (by rw [Tree.ids_eq]; exact List.mem_cons_of_mem _ hb)]
          refine madeAt_none fun x hx he => ?_
          have hbt : b ≠ t.id := fun he => hnd'.1 (he ▸ hb)
          simp only [List.mem_cons, List.mem_append] at hx
          rcases hx with rfl | hx | hx
          · exact hbt he.symm
          · exact hbk (he ▸ h2.ids x hx)
          · exact hbt (he.symm.trans (htl x hx))
        rw [h3 a ha]
        by_cases hat : a = t.id
        · subst hat
          rw [if_pos (self t)]
          have ho : w1.heap t.id = w.heap t.id := h1 _ hpt
          have hfl : (w2.heap t.id).fields = (t.fields.map FieldVal.ref).map (FieldRef.edited E) := by
            apply fields_ext
            · rw [h2.names, ho, hself]
              simp only [List.map_map]
              exact List.map_congr_left fun x _ => by simp [Function.comp]
            · simp only [List.map_map]
              rw [show (FieldRef.name ∘ FieldRef.edited E ∘ FieldVal.ref) = FieldVal.name from
                funext fun x => by simp [Function.comp]]
              exact hndf
            · intro y hy
              simp only [List.map_map, List.mem_map, Function.comp] at hy
              obtain ⟨x, hx, rfl⟩ := hy
              rw [FieldRef.edited_name, FieldVal.ref_name]
              show w2.heap.field t.id x.name = _
              by_cases hin : x.name ∈ xs.map fun y => y.2.name
              · obtain ⟨y, hy, hyn⟩ := List.mem_map.1 hin
                have : y.2 = x := field_unique hndf (hxP y hy).1 hx hyn
                rw [← this, h2f y hy]
                congr 1
                refine ref_edited_congr fun c hc => (hE2 _ ?_).symm
                rw [← hkids]
                exact List.mem_flatMap.2 ⟨c, List.mem_flatMap.2 ⟨y, hy, hc⟩, self c⟩
              · rw [ref_edited_none fun c hc => hE0 _
                  (List.mem_flatMap.2 ⟨c, List.mem_flatMap.2 ⟨x, hx, hc⟩, self c⟩)
                  (hunv x hx hin _ (List.mem_flatMap.2 ⟨c, hc, self c⟩)), h2o _ hin]
                simp only [Heap.field, ho, hself, find_map_ref, find_of_nodup hndf hx, Option.map_some]
          have e1 := h2.kind
          have e2 := h2.all
          rw [ho, hself] at e1 e2
          rw [hself, Obj.edited]
          simp only [← hfl]
          simp only at e1 e2
          rw [← e1, ← e2]
        · rw [h2.other E hE2 a hat, h1 a ha]
          by_cases hak : a ∈ ks.flatMap Tree.ids
          · rw [if_pos hak, if_pos (by rw [Tree.ids_eq]; exact List.mem_cons_of_mem _ (hsub a hak))]
          · rw [if_neg hak]
            split
            · rename_i hmt
              rw [Tree.ids_eq, List.mem_cons] at hmt
              obtain ⟨c, hc, hac⟩ := List.mem_flatMap.1 (hmt.resolve_left hat)
              obtain ⟨x, hx, hcx⟩ := List.mem_flatMap.1 hc
              have hin : x.name ∉ xs.map fun y => y.2.name := fun hin => by
                obtain ⟨y, hy, hyn⟩ := List.mem_map.1 hin
                have : y.2 = x := field_unique hndf (hxP y hy).1 hx hyn
                refine hak (List.mem_flatMap.2 ⟨c, ?_, hac⟩)
                rw [← hkids]
                exact List.mem_flatMap.2 ⟨y, hy, this ▸ hcx⟩
              have hh : w.heap.Has c := fun v hv => hhas v (.child hc hv)
              refine (has_edited_none hh (fun b hb => ?_) hac).symm
              have hb : b ∈ c.ids := by rw [Tree.ids_eq]; exact List.mem_cons_of_mem _ hb
              exact hE0 b (List.mem_flatMap.2 ⟨c, hc, hb⟩) (hunv x hx hin b (List.mem_flatMap.2 ⟨c, hcx, hb⟩))
            · rfl
    -- the call of `pre`
    rcases noted_call (b := false) (fun c w => (hpre c w).1) p t.id name l w with
      ⟨w1, es, ans, hc1, hu1, ⟨w0, hes, hans⟩, hf1, hn1, hi1, ho1, hno1, hat1⟩ | hc1
    · have hat1 := fun hl done rest hfl hidx hst => hat1 w.heap done rest ⟨[], some t.id, []⟩ hl rfl
        ⟨by simpa using hfl, by simpa using hidx, by simpa using hst, .refl _ _ _⟩
      have hS1 : Stage p name l t.id w es w1.heap := ⟨hf1.2.1, hf1.2.2.1, hn1, hf1.2.2.2,
        fun hl hf => ho1 hl _ _ hf rfl, hno1, fun hl done rest hfl hidx hst => by
          rw [(hat1 hl done rest hfl hidx hst).1.list]; simp [editResult]⟩
      have hW1 : Wrote p [t] w.heap w.user.2 w1 [(false, t.id, es)] := by
        refine ⟨by simpa using hu1, by simp [self], fun E hE a ha => ?_, hf1.2.1, hf1.2.2.1, hn1⟩
        have hone : [t].flatMap Tree.ids = t.ids := by simp
        rw [hone] at hE ⊢
        rw [hf1.1 a ha]
        split
        · rename_i hat
          refine (has_edited_none hhas (fun b hb => ?_) hat).symm
          rw [hE b (by rw [Tree.ids_eq]; exact List.mem_cons_of_mem _ hb)]
          exact madeAt_none fun x hx he => by
            rw [List.mem_singleton] at hx; subst hx; simp only at he; rw [← he] at hb; exact hnd'.1 hb
        · rfl
      cases ans with
      | false =>
        have e : apply (noted false spre) (noted true spost) (n + 1) ⟨p, name, l, some t.id⟩ w = .ok w1 := by
          rw [apply, hc1]
        simp only [e]
        refine finish (lg := [(false, t.id, es)]) (es := es) (by simp [madeAt]) (fun _ h => (by cases h)) hW1 hS1 ?_ ?_
        · intro hl w' hw; cases hw; exact hi1 hl
        · intro hl done rest hfl hidx hst w' hw
          cases hw
          have g1 := (hat1 hl done rest hfl hidx hst).1
          rw [g1.idx, g1.step]
          simp only [editResult, List.length_append]
          omega
      | true =>
        have hnd1 : Edit.delete ∉ es := by rw [hes]; exact (hpre _ w0).2 hans.symm
        have hkd : (w1.heap t.id).kind.bind Kind.apply = t.kind.apply := by rw [hf1.1 _ hpt, hself]; rfl
        rcases hsts with hsts | ⟨sts, ks, hsts, htk, hpk, hrun⟩
        · have e : apply (noted false spre) (noted true spost) (n + 1) ⟨p, name, l, some t.id⟩ w = .panic w1 := by
            rw [apply, hc1]; simp only [hkd, hsts]
          simp only [e]
          exact finish (R := .panic w1) (lg := [(false, t.id, es)]) (es := es) (by simp [madeAt]) (fun _ h => (by cases h))
            hW1 hS1 (fun _ _ h => (by cases h)) (fun _ _ _ _ _ _ _ h => (by cases h))
        have hkind := hkd.trans hsts
        obtain ⟨lg2, a1, a5, a2, hwhole⟩ := hrun w1 hf1.1
        have e : apply (noted false spre) (noted true spost) (n + 1) ⟨p, name, l, some t.id⟩ w =
            (applySteps (fun name l b => apply (noted false spre) (noted true spost) n ⟨t.id, name, l, b⟩)
              t.id n sts w1).bind fun w => match noted true spost ⟨p, name, l, some t.id⟩ w with
              | .panic w => .panic w
              | .ret false w => .abort w
              | .ret true w => .ok w := by
          rw [apply, hc1]; simp only [hkind]
          congr 1
          funext w'
          cases noted true spost ⟨p, name, l, some t.id⟩ w' with
          | panic => rfl
          | ret b => cases b <;> rfl
        simp only [e]
        have hwp : ∀ {w2 : World (σ × EditLog)}, Wrote t.id ks w1.heap w1.user.2 w2 lg2 → w2.heap p = w1.heap p :=
          fun h => by rw [h.other (madeAt lg2) (fun _ _ => rfl) p (Ne.symm hpt), if_neg hpk]
        have hmid : ∀ {tail : EditLog}, madeAt ((false, t.id, es) :: (lg2 ++ tail)) t.id = es ++ madeAt tail t.id := by
          intro tail
          rw [show (false, t.id, es) :: (lg2 ++ tail) = [(false, t.id, es)] ++ (lg2 ++ tail) from rfl, madeAt_append,
            madeAt_append, a2.quiet htk]
          simp [madeAt]
        have hhalt := hwhole _ es [] hu1 (fun _ _ => rfl) (by simp) (by simp) (by rw [hwp a2]; exact hf1.2.1)
          (by rw [hwp a2]; exact hf1.2.2.1) (by rw [hwp a2]; exact hn1)
        cases hr : applySteps (fun name l b => apply (noted false spre) (noted true spost) n ⟨t.id, name, l, b⟩)
            t.id n sts w1 with
        | oof w2 => exact absurd hr (a1 w2)
        | panic w2 =>
          rw [hr] at a2 hhalt
          exact finish (R := .panic w2) (lg := (false, t.id, es) :: (lg2 ++ [])) (es := es) (by rw [hmid]; simp [madeAt])
            (fun _ h => (by cases h)) hhalt (hS1.move (hwp a2)) (fun _ _ h => (by cases h))
            (fun _ _ _ _ _ _ _ h => (by cases h))
        | abort w2 =>
          rw [hr] at a2 hhalt
          exact finish (R := .abort w2) (lg := (false, t.id, es) :: (lg2 ++ [])) (es := es) (by rw [hmid]; simp [madeAt])
            (fun _ h => (by cases h)) hhalt (hS1.move (hwp a2)) (fun _ _ h => (by cases h))
            (fun _ _ _ _ _ _ _ h => (by cases h))
        | ok w2 =>
          obtain ⟨i1, i2⟩ := a5 w2 hr
          simp only [hr, AOut.world] at a2 hhalt hwhole
          rw [AOut.bind_ok]
          have hS2 := hS1.move (hwp a2)
          have hp2 := hwp a2
          have hfp : ∀ g, w2.heap.field p g = w1.heap.field p g := fun g => by simp only [Heap.field, hp2]
          rcases noted_call (b := true) hpost p t.id name l w2 with
            ⟨w3, es', ans, hc3, hu3, -, hf3, hn3, hi3, ho3, hno3, hat3⟩ | hc3
          · have hlist : l = true → ∀ done rest, w.heap.field p name = some (.list name (done ++ t.id :: rest)) →
                w.index = (done.length : Int) → w.step = 1 →
                At w2.heap p name done rest ((es ++ es').foldl Spot.edit ⟨[], some t.id, []⟩) w3 := by
              intro hl done rest hfl hidx hst
              obtain ⟨g1, g2⟩ := hat1 hl done rest hfl hidx hst
              rw [List.foldl_append]
              exact (hat3 w2.heap done rest _ hl (g2 hnd1) ⟨by rw [hfp]; exact g1.list, by rw [i1]; exact g1.idx,
                by rw [i2]; exact g1.step, .refl _ _ _⟩).1
            have hS3 : Stage p name l t.id w (es ++ es') w3.heap := by
              refine ⟨by rw [hf3.2.1]; exact hS2.kind, by rw [hf3.2.2.1]; exact hS2.all, hn3.trans hS2.names,
                fun g hg => (hf3.2.2.2 g hg).trans (hS2.others g hg), fun hl hf => ?_, fun hf => ?_,
                fun hl done rest hfl hidx hst => ?_⟩
              · obtain ⟨b, hb, hcur⟩ := hS2.one hl hf
                obtain ⟨b', hb', hcur'⟩ := ho3 hl b _ hb hcur
                exact ⟨b', hb', by rw [List.foldl_append]; exact hcur'⟩
              · rw [hS2.no hf, hno3 (field_none_names hS2.names hf)]; rfl
              · rw [(hlist hl done rest hfl hidx hst).list]; simp [editResult]
            have hW3 := hwhole w3 es [(true, t.id, es')] hu1 hf3.1 hu3
              (fun x hx => by rw [List.mem_singleton] at hx; subst hx; rfl) hS3.kind hS3.all hS3.names
            have hm3 : madeAt ((false, t.id, es) :: (lg2 ++ [(true, t.id, es')])) t.id = es ++ es' := by
              rw [hmid]; simp [madeAt]
            cases ans with
            | false =>
              simp only [hc3]
              exact finish (R := .abort w3) hm3 (fun _ h => (by cases h)) hW3 hS3 (fun _ _ h => (by cases h))
                (fun _ _ _ _ _ _ _ h => (by cases h))
            | true =>
              simp only [hc3]
              refine finish (R := .ok w3) hm3 (fun _ h => (by cases h)) hW3 hS3 (fun hl w' hw => ?_)
                (fun hl done rest hfl hidx hst w' hw => ?_)
              · cases hw
                rw [(hi3 hl).1, (hi3 hl).2, i1, i2]; exact hi1 hl
              · cases hw
                have g := hlist hl done rest hfl hidx hst
                rw [g.idx, g.step]
                simp only [editResult, List.length_append]
                omega
          · simp only [hc3]
            exact finish (R := .panic w2) (lg := (false, t.id, es) :: (lg2 ++ [])) (es := es)
              (by rw [hmid]; simp [madeAt]) (fun _ h => (by cases h)) hhalt hS2 (fun _ _ h => (by cases h))
              (fun _ _ _ _ _ _ _ h => (by cases h))
    · have e : apply (noted false spre) (noted true spost) (n + 1) ⟨p, name, l, some t.id⟩ w = .panic w := by
        rw [apply, hc1]
      simp only [e]
      refine finish (R := .panic w) (lg := []) (es := []) rfl (fun _ h => (by cases h))
        ((Wrote.nil w).rest (ks2 := [t]) (fun c hc => by rw [List.mem_singleton] at hc; subst hc; exact hhas)
          (fun a ha => by cases ha))
        ⟨rfl, rfl, rfl, fun _ _ => rfl, fun _ hf => ⟨_, hf, rfl⟩, fun _ => rfl, fun _ done rest hf _ _ => ?_⟩
        (fun _ _ h => (by cases h)) (fun _ _ _ _ _ _ _ h => (by cases h))
      rw [AOut.world, hf]; simp [editResult]

end Verif
