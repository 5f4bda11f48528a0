/-
The calls that `Apply` makes when the callbacks edit the tree: proofs.
-/
import Verif.Spec.Tour
import Verif.Proofs.Replace
import Verif.Proofs.Ready

namespace Verif

/-! ### Tours -/

theorem Tour.append_done {ks1 ks2 : List Tree} {l1 l2 : List CbCall} {e0 e : Option (Option Bool)} (h1 : Tour ks1 l1 e0)
    (he : e0 = none) (h2 : Tour ks2 l2 e) : Tour (ks1 ++ ks2) (l1 ++ l2) e := by
  induction h1 with
  | done => exact h2
  | pruned _ ih => exact .pruned (ih he)
  | node hp ho hk _ _ ih =>
    have := Tour.node hp ho hk (ih he)
    simpa using this
  | fails => cases he
  | inside => cases he
  | stops => cases he

theorem Tour.append_stop {ks1 ks2 : List Tree} {l1 : List CbCall} {e : Option (Option Bool)} (h1 : Tour ks1 l1 e)
    (he : e ≠ none) : Tour (ks1 ++ ks2) l1 e := by
  induction h1 with
  | done => exact absurd rfl he
  | pruned _ ih => exact .pruned (ih he)
  | node hp ho hk _ _ ih => exact .node hp ho hk (ih he)
  | fails => exact .fails
  | inside hp ho hk => exact .inside hp ho hk
  | stops hp ho hk h => exact .stops hp ho hk h

/-! ### What a part of the run does -/

/-- Changed are only the nodes of `ks` and, in the struct at `i`, fields with names in `L`. -/
structure TourOut (i : Nat) (L : List FName) (ks : List Tree) (h h' : Heap) : Prop where
  other : ∀ a, a ≠ i → a ∉ ks.flatMap Tree.ids → h' a = h a
  all : (h' i).all = (h i).all
  field : ∀ g, g ∉ L → h'.field i g = h.field i g

theorem TourOut.refl (i : Nat) (L : List FName) (ks : List Tree) (h : Heap) : TourOut i L ks h h :=
  ⟨fun _ _ _ => rfl, rfl, fun _ _ => rfl⟩

theorem TourOut.trans {i : Nat} {L1 L2 : List FName} {ks1 ks2 : List Tree} {h h1 h2 : Heap} (a : TourOut i L1 ks1 h h1)
    (b : TourOut i L2 ks2 h1 h2) : TourOut i (L1 ++ L2) (ks1 ++ ks2) h h2 := by
  refine ⟨fun x hx hn => ?_, b.all.trans a.all, fun g hg => ?_⟩
  · simp only [List.flatMap_append, List.mem_append, not_or] at hn
    rw [b.other x hx hn.2, a.other x hx hn.1]
  · simp only [List.mem_append, not_or] at hg
    rw [b.field g hg.2, a.field g hg.1]

/-- The action, started with the memory `h` and the calls `l0` so far, makes a tour of `ks`, children of the struct at
`i`. -/
def Went {σ : Type} (i : Nat) (L : List FName) (ks : List Tree) (h : Heap) (l0 : List CbCall) :
    AOut (σ × List CbCall) → Prop
  | .ok w' => (∃ l, w'.user.2 = l0 ++ l ∧ Tour ks l none) ∧ TourOut i L ks h w'.heap
  | .abort w' => (∃ l, w'.user.2 = l0 ++ l ∧ Tour ks l (some (some false))) ∧
      ∀ a, a ≠ i → a ∉ ks.flatMap Tree.ids → w'.heap a = h a
  | .panic w' => ∃ l, w'.user.2 = l0 ++ l ∧ Tour ks l (some none)
  | .oof _ => False

theorem Went.bind {σ : Type} {i : Nat} {L1 L2 : List FName} {ks1 ks2 : List Tree} {h : Heap} {l0 : List CbCall}
    {o : AOut (σ × List CbCall)} {f : World (σ × List CbCall) → AOut (σ × List CbCall)} (h1 : Went i L1 ks1 h l0 o)
    (h2 : ∀ w', o = .ok w' → TourOut i L1 ks1 h w'.heap → Went i L2 ks2 w'.heap w'.user.2 (f w')) :
    Went i (L1 ++ L2) (ks1 ++ ks2) h l0 (o.bind f) := by
  cases o with
  | oof => exact h1
  | panic w =>
    obtain ⟨l, e, t⟩ := h1
    exact ⟨l, e, t.append_stop (by simp)⟩
  | abort w =>
    obtain ⟨⟨l, e, t⟩, ho⟩ := h1
    refine ⟨⟨l, e, t.append_stop (by simp)⟩, fun a ha hn => ho a ha ?_⟩
    simp only [List.flatMap_append, List.mem_append, not_or] at hn
    exact hn.1
  | ok w =>
    obtain ⟨⟨l, e, t⟩, ho⟩ := h1
    have hf := h2 w rfl ho
    rw [AOut.bind_ok]
    cases hr : f w with
    | oof => rw [hr] at hf; exact hf
    | panic w' =>
      rw [hr] at hf
      obtain ⟨l', e', t'⟩ := hf
      exact ⟨l ++ l', by rw [e', e, List.append_assoc], t.append_done rfl t'⟩
    | abort w' =>
      rw [hr] at hf
      obtain ⟨⟨l', e', t'⟩, ho'⟩ := hf
      refine ⟨⟨l ++ l', by rw [e', e, List.append_assoc], t.append_done rfl t'⟩, fun a ha hn => ?_⟩
      simp only [List.flatMap_append, List.mem_append, not_or] at hn
      rw [ho' a ha hn.2, ho.other a ha hn.1]
    | ok w' =>
      rw [hr] at hf
      obtain ⟨⟨l', e', t'⟩, ho'⟩ := hf
      exact ⟨⟨l ++ l', by rw [e', e, List.append_assoc], t.append_done rfl t'⟩, ho.trans ho'⟩

theorem Went.nil {σ : Type} {i : Nat} {w : World (σ × List CbCall)} : Went i [] [] w.heap w.user.2 (.ok w) :=
  ⟨⟨[], by simp, .done⟩, .refl _ _ _ _⟩

theorem Went.weaken {σ : Type} {i : Nat} {L L' : List FName} {ks : List Tree} {h : Heap} {l0 : List CbCall}
    {o : AOut (σ × List CbCall)} (h1 : Went i L ks h l0 o) (hL : ∀ f ∈ L, f ∈ L') : Went i L' ks h l0 o := by
  cases o with
  | oof => exact h1
  | panic => exact h1
  | abort => exact h1
  | ok w => exact ⟨h1.1, h1.2.other, h1.2.all, fun g hg => h1.2.field g (fun h => hg (hL g h))⟩

theorem Heap.Has.out {h h' : Heap} {c : Tree} (hh : h.Has c) (he : ∀ a ∈ c.ids, h' a = h a) : h'.Has c := by
  intro v hv
  rw [he v.id (List.mem_map.2 ⟨v, (mem_nodes_iff _ _).2 hv, rfl⟩)]
  exact hh v hv

/-- The visit of the child `c` of the struct at `i`. -/
def Visit {σ : Type} (i : Nat) (c : Tree)
    (act : FName → Bool → Option Nat → World (σ × List CbCall) → AOut (σ × List CbCall)) : Prop :=
  ∀ name l w, w.heap.Has c → Went i [name] [c] w.heap w.user.2 (act name l (some c.id) w) ∧
    ∀ w', act name l (some c.id) w = .ok w' → (l = false → w'.index = w.index ∧ w'.step = w.step) ∧
      (l = true → ∀ done rest, w.heap.field i name = some (.list name (done ++ c.id :: rest)) →
        w.index = (done.length : Int) → w.step = 1 →
        ∃ ys, w'.heap.field i name = some (.list name (done ++ ys ++ rest)) ∧
          w'.index + w'.step = ((done ++ ys).length : Int))

theorem went_listLoop {σ : Type} {i : Nat} {f : FName}
    {act : FName → Bool → Option Nat → World (σ × List CbCall) → AOut (σ × List CbCall)} :
    ∀ (rest : List Tree), (∀ c ∈ rest, Visit i c act) → (rest.flatMap Tree.ids).Nodup → i ∉ rest.flatMap Tree.ids →
      ∀ n, rest.length < n → ∀ (done : List Nat) (w : World (σ × List CbCall)), (∀ c ∈ rest, w.heap.Has c) →
      w.heap.field i f = some (.list f (done ++ rest.map Tree.id)) → w.index = (done.length : Int) →
      Went i [f] rest w.heap w.user.2 (listLoop (act f true) i f n w) := by
  intro rest
  induction rest with
  | nil =>
    intro _ _ _ n hn done w _ hf hi
    cases n with
    | zero => simp at hn
    | succ n =>
      rw [listLoop, hf]
      simp only [hi, List.map_nil, List.append_nil, ge_iff_le, Int.le_refl, if_true]
      exact Went.nil.weaken (by simp)
  | cons c rest ih =>
    intro hv hnd hi n hn done w hhas hf hidx
    cases n with
    | zero => simp at hn
    | succ n =>
      simp only [List.flatMap_cons, List.nodup_append, List.mem_append, not_or] at hnd hi
      have h1 : ¬ (w.index ≥ ((done ++ (c :: rest).map Tree.id).length : Int)) := by
        rw [hidx]; simp only [List.length_append, List.length_map, List.length_cons]; omega
      have h2 : ¬ (w.index < 0) := by rw [hidx]; omega
      have hget : (done ++ (c :: rest).map Tree.id)[w.index.toNat]? = some c.id := by
        rw [hidx, Int.toNat_natCast]; simp
      rw [listLoop, hf]
      simp only [h1, h2, if_false, hget]
      obtain ⟨a1, a2⟩ := hv c (List.mem_cons_self ..) f true { w with step := 1 } (hhas c (List.mem_cons_self ..))
      refine (Went.bind (L1 := [f]) (L2 := [f]) (ks1 := [c]) (ks2 := rest) a1 fun w' hw' ho => ?_).weaken (by simp)
      obtain ⟨ys, y1, y2⟩ := (a2 w' hw').2 rfl done (rest.map Tree.id) hf hidx rfl
      exact ih (fun c hc => hv c (List.mem_cons_of_mem _ hc)) hnd.2.1 hi.2 n (by simp at hn; omega) (done ++ ys)
        { w' with index := w'.index + w'.step }
        (fun d hd => (hhas d (List.mem_cons_of_mem _ hd)).out fun a ha => by
          have har : a ∈ rest.flatMap Tree.ids := List.mem_flatMap.2 ⟨d, hd, ha⟩
          refine ho.other a (fun he => hi.2 (he ▸ har)) ?_
          simp only [List.flatMap_cons, List.flatMap_nil, List.append_nil]
          exact fun hac => hnd.2.2 a hac a har rfl)
        y1 y2

/-- The children that a step visits. -/
def AStep.toKids (all : Bool) (fs : List FieldVal) (st : AStep) : List Tree := (st.toW.kids all fs).filterMap id

theorem went_step {σ : Type} {i n : Nat} {all : Bool} {fs : List FieldVal}
    {act : FName → Bool → Option Nat → World (σ × List CbCall) → AOut (σ × List CbCall)}
    (hlen : ∀ f ts, FieldVal.list f ts ∈ fs → ts.length < n) (st : AStep)
    (hv : ∀ c ∈ st.toKids all fs, Visit i c act) (hno : none ∉ st.toW.kids all fs)
    (hlist : ∀ f, st = .list f → ∃ ts, fs.find? (fun x => x.name == f) = some (.list f ts))
    (hnd : ((st.toKids all fs).flatMap Tree.ids).Nodup) (hi : i ∉ (st.toKids all fs).flatMap Tree.ids)
    (w : World (σ × List CbCall)) (hall : (w.heap i).all = all)
    (hf : w.heap.field i st.toW.field = (fs.find? (fun x => x.name == st.toW.field)).map FieldVal.ref)
    (hhas : ∀ c ∈ st.toKids all fs, w.heap.Has c) :
    Went i [st.label] (st.toKids all fs) w.heap w.user.2 (applyStep act i n st w) ∧
      ∀ w', applyStep act i n st w = .ok w' → w'.index = w.index ∧ w'.step = w.step := by
  have hptr : w.heap.ptr i st.toW.field = match fs.find? (fun x => x.name == st.toW.field) with
      | some (.one _ t) => some t.id
      | _ => none := by
    simp only [Heap.ptr, hf]
    cases fs.find? (fun x => x.name == st.toW.field) with
    | none => rfl
    | some x => cases x <;> rfl
  have skip : Went i [st.label] [] w.heap w.user.2 (.ok w) ∧
      ∀ w', (AOut.ok w : AOut (σ × List CbCall)) = .ok w' → w'.index = w.index ∧ w'.step = w.step :=
    ⟨Went.nil.weaken (by simp), fun w' hw => by cases hw; exact ⟨rfl, rfl⟩⟩
  have one : ∀ name (c : Tree), w.heap.Has c → Visit i c act → Went i [name] [c] w.heap w.user.2 (act name false (some c.id) w) ∧
      ∀ w', act name false (some c.id) w = .ok w' → w'.index = w.index ∧ w'.step = w.step := by
    intro name c hc hvc
    obtain ⟨a1, a2⟩ := hvc name false w hc
    exact ⟨a1, fun w' hw => (a2 w' hw).1 rfl⟩
  cases st with
  | one name f =>
    simp only [AStep.toKids, AStep.toW, WStep.kids, WStep.field, AStep.label, applyStep] at *
    cases hx : fs.find? (fun x => x.name == f) with
    | none => simp [hx] at hno
    | some x =>
      simp only [hx] at hno hptr hv hhas ⊢
      cases x with
      | nil => simp at hno
      | list => simp at hno
      | one g c => simp only [hptr]; exact one _ c (hhas c (by simp)) (hv c (by simp))
  | opt name f =>
    simp only [AStep.toKids, AStep.toW, WStep.kids, WStep.field, AStep.label, applyStep] at *
    cases hx : fs.find? (fun x => x.name == f) with
    | none => simp only [hx] at hptr; simp only [hptr]; exact skip
    | some x =>
      simp only [hx] at hno hptr hv hhas ⊢
      cases x with
      | nil => simp only [hptr]; exact skip
      | list => simp only [hptr]; exact skip
      | one g c => simp only [hptr]; exact one _ c (hhas c (by simp)) (hv c (by simp))
  | unlessAll name f =>
    simp only [AStep.toKids, AStep.toW, WStep.kids, WStep.field, AStep.label, applyStep, hall] at *
    cases all with
    | true => simp only [if_true]; exact skip
    | false =>
      simp only [Bool.false_eq_true, if_false] at hno hv hhas ⊢
      cases hx : fs.find? (fun x => x.name == f) with
      | none => simp [hx] at hno
      | some x =>
        simp only [hx] at hno hptr hv hhas ⊢
        cases x with
        | nil => simp at hno
        | list => simp at hno
        | one g c => simp only [hptr]; exact one _ c (hhas c (by simp)) (hv c (by simp))
  | list f =>
    obtain ⟨ts, hts⟩ := hlist f rfl
    have hkids : AStep.toKids all fs (.list f) = ts := by
      simp [AStep.toKids, AStep.toW, WStep.kids, hts]
    rw [hkids] at hv hnd hi hhas ⊢
    simp only [AStep.toW, WStep.field, hts, Option.map_some, FieldVal.ref] at hf
    have hloop := went_listLoop ts hv hnd hi n (hlen f ts (List.mem_of_find?_eq_some hts)) [] { w with index := 0 }
      hhas (by simpa using hf) rfl
    simp only [applyStep, applyList, AStep.label]
    refine ⟨?_, ?_⟩
    · have := Went.bind (L2 := []) (ks2 := []) hloop (f := fun w' => .ok { w' with index := w.index, step := w.step })
        fun w' _ _ => ⟨⟨[], by simp, .done⟩, .refl _ _ _ _⟩
      simpa using this
    · intro w' hw
      cases hr : listLoop (act f true) i f n { w with index := 0 } with
      | ok w1 => rw [hr] at hw; simp only [AOut.bind_ok, AOut.ok.injEq] at hw; subst hw; exact ⟨rfl, rfl⟩
      | abort => rw [hr] at hw; cases hw
      | panic => rw [hr] at hw; cases hw
      | oof => rw [hr] at hw; cases hw

theorem went_steps {σ : Type} {i n : Nat} {all : Bool} {fs : List FieldVal}
    {act : FName → Bool → Option Nat → World (σ × List CbCall) → AOut (σ × List CbCall)}
    (hlen : ∀ f ts, FieldVal.list f ts ∈ fs → ts.length < n) : ∀ (sts : List AStep),
    (∀ c ∈ sts.flatMap (AStep.toKids all fs), Visit i c act) → (∀ st ∈ sts, none ∉ st.toW.kids all fs) →
    (∀ f, AStep.list f ∈ sts → ∃ ts, fs.find? (fun x => x.name == f) = some (.list f ts)) →
    ((sts.flatMap (AStep.toKids all fs)).flatMap Tree.ids).Nodup → i ∉ (sts.flatMap (AStep.toKids all fs)).flatMap Tree.ids →
    sts.Pairwise (fun s1 s2 => s2.toW.field ≠ s1.label) →
    ∀ (w : World (σ × List CbCall)), (w.heap i).all = all →
    (∀ st ∈ sts, w.heap.field i st.toW.field = (fs.find? (fun x => x.name == st.toW.field)).map FieldVal.ref) →
    (∀ c ∈ sts.flatMap (AStep.toKids all fs), w.heap.Has c) →
    Went i (sts.map AStep.label) (sts.flatMap (AStep.toKids all fs)) w.heap w.user.2 (applySteps act i n sts w) ∧
      ∀ w', applySteps act i n sts w = .ok w' → w'.index = w.index ∧ w'.step = w.step := by
  intro sts
  induction sts with
  | nil => intro _ _ _ _ _ _ w _ _ _; exact ⟨Went.nil, fun w' hw => by cases hw; exact ⟨rfl, rfl⟩⟩
  | cons st sts ih =>
    intro hv hno hlist hnd hi hpw w hall hf hhas
    simp only [List.flatMap_cons, List.flatMap_append, List.nodup_append, List.mem_append, not_or] at hv hnd hi hhas
    obtain ⟨hpw1, hpw2⟩ := List.pairwise_cons.1 hpw
    obtain ⟨a1, a2⟩ := went_step hlen st (fun c hc => hv c (.inl hc)) (hno st (List.mem_cons_self ..))
      (fun f hf => hlist f (hf ▸ List.mem_cons_self ..)) hnd.1 hi.1 w hall (hf st (List.mem_cons_self ..))
      (fun c hc => hhas c (.inl hc))
    have next : ∀ w', TourOut i [st.label] (st.toKids all fs) w.heap w'.heap →
        Went i (sts.map AStep.label) (sts.flatMap (AStep.toKids all fs)) w'.heap w'.user.2 (applySteps act i n sts w') ∧
        ∀ w'', applySteps act i n sts w' = .ok w'' → w''.index = w'.index ∧ w''.step = w'.step := by
      intro w' ho
      refine ih (fun c hc => hv c (.inr hc)) (fun s hs => hno s (List.mem_cons_of_mem _ hs))
        (fun f hf => hlist f (List.mem_cons_of_mem _ hf)) hnd.2.1 hi.2 hpw2 w' (ho.all.trans hall) ?_ ?_
      · intro s hs
        rw [ho.field _ (by simpa using hpw1 s hs)]
        exact hf s (List.mem_cons_of_mem _ hs)
      · intro c hc
        refine (hhas c (.inr hc)).out fun a ha => ?_
        have har : a ∈ (sts.flatMap (AStep.toKids all fs)).flatMap Tree.ids := List.mem_flatMap.2 ⟨c, hc, ha⟩
        exact ho.other a (fun he => hi.2 (he ▸ har)) (fun hac => hnd.2.2 a hac a har rfl)
    refine ⟨Went.bind (L1 := [st.label]) a1 fun w' _ ho => (next w' ho).1, ?_⟩
    intro w' hw
    rw [applySteps] at hw
    cases hr : applyStep act i n st w with
    | ok w1 =>
      rw [hr] at hw a1
      have h1 := a2 w1 hr
      have h2 := (next w1 a1.2).2 w' hw
      exact ⟨h2.1.trans h1.1, h2.2.trans h1.2⟩
    | abort => rw [hr] at hw; cases hw
    | panic => rw [hr] at hw; cases hw
    | oof => rw [hr] at hw; cases hw

/-! ### Callbacks -/

theorem edit_frame {σ : Type} {c : Cursor} {e : Edit} {w w' : World σ} (he : c.edit e w = some w') :
    Frame w.heap c.parent c.name w'.heap := by
  have hname : ∀ {x}, w.heap.field c.parent c.name = some x → x.name = c.name := fun hx => by
    simpa using List.find?_some hx
  have key : ∀ {x : FieldRef}, x.name = c.name → Frame w.heap c.parent c.name (w.heap.setField c.parent x) := by
    intro x hx
    have := frame_setField (h := w.heap) (p := c.parent) (x := x)
    rwa [hx] at this
  cases e with
  | before n =>
    simp only [Cursor.edit, Cursor.insertBefore] at he
    split at he
    · cases he
    · split at he
      · rename_i hx
        split at he
        · cases he; exact key (by have h := hname hx; exact h)
        · cases he
      · cases he
  | after n =>
    simp only [Cursor.edit, Cursor.insertAfter] at he
    split at he
    · cases he
    · split at he
      · rename_i hx
        split at he
        · cases he; exact key (by have h := hname hx; exact h)
        · cases he
      · cases he
  | delete =>
    simp only [Cursor.edit, Cursor.delete] at he
    split at he
    · cases he
    · split at he
      · rename_i hx
        split at he
        · cases he; exact key (by have h := hname hx; exact h)
        · cases he
      · cases he
  | replace n =>
    simp only [Cursor.edit, Cursor.replace] at he
    split at he
    · cases he
    · rename_i hx
      split at he
      · split at he
        · split at he
          · split at he
            · cases he; exact key (by have h := hname hx; exact h)
            · cases he
          · cases he
        · split at he
          · cases he
          · cases he; exact key (by have h := hname hx; exact h)
      · cases he

theorem edits_frame {σ : Type} {c : Cursor} : ∀ (es : List Edit) {w w' : World σ}, c.edits es w = some w' →
    Frame w.heap c.parent c.name w'.heap
  | [], w, w', he => by cases he; exact .refl _ _ _
  | e :: es, w, w', he => by
    simp only [Cursor.edits] at he
    cases h1 : c.edit e w with
    | none => rw [h1] at he; cases he
    | some w1 => rw [h1] at he; exact (edit_frame h1).trans (edits_frame es he)

/-- A call of an orderly callback that writes down its calls. -/
theorem orderly_call {σ : Type} {isPost : Bool} {cb : Callback σ} (hcb : Orderly isPost cb) (c : Cursor)
    (w : World (σ × List CbCall)) :
    (∃ (b : Bool) (w' : World (σ × List CbCall)) (es : List Edit), recorded isPost cb c w = .ret b w' ∧ w'.user.2 = w.user.2 ++ [⟨isPost, c.node, some b⟩] ∧
      Frame w.heap c.parent c.name w'.heap ∧ (c.inList = false → w'.index = w.index ∧ w'.step = w.step) ∧
      (isPost = false → b = true → Edit.delete ∉ es) ∧
      ∀ h0 done rest s, c.inList = true → s.cur.isSome → At h0 c.parent c.name done rest s w →
        At h0 c.parent c.name done rest (es.foldl Spot.edit s) w' ∧
        (Edit.delete ∉ es → (es.foldl Spot.edit s).cur.isSome)) ∨
    ∃ w', recorded isPost cb c w = .panic w' ∧ w'.user.2 = w.user.2 ++ [⟨isPost, c.node, none⟩] := by
  have h := hcb c ⟨w.user.1, w.heap, w.index, w.step⟩
  cases hr : cb c ⟨w.user.1, w.heap, w.index, w.step⟩ with
  | panic w' => exact .inr ⟨_, by simp only [recorded, hr]; rfl, rfl⟩
  | ret b w' =>
    rw [hr] at h
    obtain ⟨es, w1, he, e1, e2, e3, hd, hp⟩ := h
    refine .inl ⟨b, _, es, by simp only [recorded, hr]; rfl, rfl, ?_, ?_, hp, ?_⟩
    · simp only [e1]; exact edits_frame es he
    · intro hl; simp only [e2, e3]; exact (edits_iter es he).2.2 hl
    · intro h0 done rest s hl hs ha
      obtain ⟨g1, _, g3⟩ := edits_at rfl rfl hl es s ⟨w.user.1, w.heap, w.index, w.step⟩ w1 hd hs
        ⟨ha.list, ha.idx, ha.step, ha.frame⟩ he
      exact ⟨⟨by simp only [e1]; exact g1.list, by simp only [e2]; exact g1.idx, by simp only [e3]; exact g1.step,
        by simp only [e1]; exact g1.frame⟩, g3⟩

/-! ### The run -/

theorem label_table : ∀ k ∈ Kind.all, (k.apply.getD []).Pairwise (fun s1 s2 => s2.toW.field ≠ s1.label) := by
  decide +kernel

theorem visit_apply {σ : Type} {pre post : Callback σ} (hpre : Orderly false pre) (hpost : Orderly true post) (n : Nat) :
    ∀ t : Tree, sizeOf t ≤ n → t.Good → (∀ u, Occurs t u → u.kind ∉ applyUnknownKinds) → t.ids.Nodup →
    ∀ p, p ∉ t.ids → Visit p t (fun name l b => apply (recorded false pre) (recorded true post) n ⟨p, name, l, b⟩) := by
  induction n with
  | zero => intro t ht; cases t; simp at ht
  | succ n ih =>
    intro t ht hgood hknown hnd p hp name l w hhas
    have hk := hknown t (.refl t)
    have hg := hgood t (.refl t)
    have hself := hhas t (.refl t)
    have hpt : t.id ≠ p := fun he => hp (by rw [Tree.ids_eq]; exact he ▸ List.mem_cons_self ..)
    have htab := apply_table t.kind (Kind.mem_all _)
    rw [if_neg (by simpa using hk)] at htab
    obtain ⟨ks, hks, hperm⟩ := walkKids_perm hg.1 hg.2
    have hord : t.kind ∉ reorderedKinds → ks = t.children := by
      intro ho
      rw [walkKids_ordered hg.1 hg.2 ho, Option.some.injEq] at hks
      exact ((List.map_inj_right (fun _ _ h => Option.some.inj h)).1 hks).symm
    cases hsteps : t.kind.apply with
    | none =>
      rw [hsteps] at htab
      simp only [Tree.walkKids, ← htab] at hks
      simp at hks
    | some sts =>
      rw [hsteps] at htab
      simp only [Tree.walkKids, ← htab, Option.map_some, Option.some.injEq] at hks
      have hkids : sts.flatMap (AStep.toKids t.all t.fields) = ks := by
        have : sts.flatMap (AStep.toKids t.all t.fields) =
            ((sts.map AStep.toW).flatMap (WStep.kids t.all t.fields)).filterMap id := by
          rw [List.flatMap_map, List.filterMap_flatMap]; rfl
        rw [this, hks]; simp
      have hlists := apply_lists t.kind (Kind.mem_all _)
      rw [hsteps] at hlists
      have hlab := label_table t.kind (Kind.mem_all _)
      rw [hsteps] at hlab
      have hndk : (t.kind.fields.map Field.name).Nodup := by
        simpa [fieldNamesDistinct] using table_names t.kind (Kind.mem_all _)
      have hids : ∀ a, a ∈ ks.flatMap Tree.ids ↔ a ∈ t.children.flatMap Tree.ids := fun a =>
        (hperm.flatMap_right Tree.ids).mem_iff
      have hnd' := hnd
      rw [Tree.ids_eq] at hnd'
      simp only [List.nodup_cons] at hnd'
      have hdc := (flatMap_disjoint hnd'.2).1
      have hmem : ∀ c ∈ ks, c ∈ t.children := fun c hc => hperm.mem_iff.1 hc
      have hsub : ∀ a, a ∉ t.ids → a ≠ t.id ∧ a ∉ ks.flatMap Tree.ids := by
        intro a ha
        rw [Tree.ids_eq] at ha
        simp only [List.mem_cons, not_or] at ha
        exact ⟨ha.1, fun h => ha.2 ((hids a).1 h)⟩
      have hwent := fun (w1 : World (σ × List CbCall)) (hw1 : ∀ a, a ≠ p → w1.heap a = w.heap a) =>
        went_steps (i := t.id) (n := n) (all := t.all) (fs := t.fields)
        (act := fun name l b => apply (recorded false pre) (recorded true post) n ⟨t.id, name, l, b⟩)
        (fun f ts hf => by
          cases t with
          | mk k i all fs =>
            have := list_length_lt (k := k) (i := i) (all := all) hf
            simp only [Tree.fields] at this; omega)
        sts
        (fun c hc => by
          rw [hkids] at hc
          have hc := hmem c hc
          have hlt := child_lt (t := t) hc
          exact ih c (by omega) (hgood.child hc) (fun u hu => hknown u (.child hc hu)) (hdc c hc) t.id
            (fun hi => hnd'.1 (List.mem_flatMap.2 ⟨c, hc, hi⟩)))
        (fun st hst hno => by
          have : none ∈ (sts.map AStep.toW).flatMap (WStep.kids t.all t.fields) :=
            List.mem_flatMap.2 ⟨_, List.mem_map_of_mem hst, hno⟩
          rw [hks] at this; simp at this)
        (fun f hf => fitsAll_list hg.1.1 hndk (by
          have := hlists _ hf
          simpa using this))
        (by rw [hkids]; exact (hperm.flatMap_right Tree.ids).nodup_iff.2 hnd'.2)
        (by rw [hkids, hids]; exact hnd'.1) hlab w1
        (by rw [hw1 _ hpt, hself])
        (fun st _ => by simp only [Heap.field, hw1 _ hpt, hself, find_map_ref])
        (fun c hc => by
          rw [hkids] at hc
          have hc := hmem c hc
          have hh : w.heap.Has c := fun v hv => hhas v (.child hc hv)
          refine hh.out fun a ha => hw1 a fun he => hp ?_
          rw [← he, Tree.ids_eq]
          exact List.mem_cons_of_mem _ (List.mem_flatMap.2 ⟨c, hc, ha⟩))
      simp only [hkids] at hwent
      have hone : ∀ a, a ∉ [t].flatMap Tree.ids ↔ a ∉ t.ids := by simp
      rcases orderly_call hpre ⟨p, name, l, some t.id⟩ w with ⟨b, w1, es, hc1, hu1, hf1, hi1, hd1, hat1⟩ | ⟨w1, hc1, hu1⟩
      · cases b with
        | false =>
          have e : apply (recorded false pre) (recorded true post) (n + 1) ⟨p, name, l, some t.id⟩ w = .ok w1 := by
            rw [apply, hc1]
          simp only [e]
          refine ⟨⟨⟨_, hu1, .pruned .done⟩, fun a ha _ => hf1.1 a ha, hf1.2.2.1, fun g hg => hf1.2.2.2 g (by simpa using hg)⟩,
            fun w' hw => ?_⟩
          cases hw
          refine ⟨hi1, fun hl done rest hfl hidx hst => ?_⟩
          obtain ⟨g1, -⟩ := hat1 w.heap done rest ⟨[], some t.id, []⟩ hl rfl
            ⟨by simpa using hfl, by simpa using hidx, by simpa using hst, .refl _ _ _⟩
          generalize es.foldl Spot.edit ⟨[], some t.id, []⟩ = s at g1
          refine ⟨s.before ++ s.cur.toList ++ s.after, by rw [g1.list]; simp, ?_⟩
          rw [g1.idx, g1.step]
          simp only [List.length_append]
          omega
        | true =>
          obtain ⟨a1, a2⟩ := hwent w1 hf1.1
          have hkind : (w1.heap t.id).kind.bind Kind.apply = some sts := by rw [hf1.1 _ hpt, hself]; exact hsteps
          have e : apply (recorded false pre) (recorded true post) (n + 1) ⟨p, name, l, some t.id⟩ w =
              (applySteps (fun name l b => apply (recorded false pre) (recorded true post) n ⟨t.id, name, l, b⟩)
                t.id n sts w1).bind fun w => match recorded true post ⟨p, name, l, some t.id⟩ w with
                | .panic w => .panic w
                | .ret false w => .abort w
                | .ret true w => .ok w := by
            rw [apply, hc1]; simp only [hkind]
            congr 1
            funext w'
            cases recorded true post ⟨p, name, l, some t.id⟩ w' with
            | panic => rfl
            | ret b => cases b <;> rfl
          simp only [e]
          cases hr : applySteps (fun name l b => apply (recorded false pre) (recorded true post) n ⟨t.id, name, l, b⟩)
              t.id n sts w1 with
          | oof => rw [hr] at a1; exact a1.elim
          | panic w2 =>
            rw [hr] at a1
            obtain ⟨lg, h1, h2⟩ := a1
            refine ⟨⟨_ :: lg, by rw [h1, hu1]; simp, .inside hperm hord h2⟩, fun w' hw => by cases hw⟩
          | abort w2 =>
            rw [hr] at a1
            obtain ⟨⟨lg, h1, h2⟩, h3⟩ := a1
            refine ⟨⟨⟨_ :: lg, by rw [h1, hu1]; simp, .inside hperm hord h2⟩, fun a ha hn => ?_⟩, fun w' hw => by cases hw⟩
            have := hsub a ((hone a).1 hn)
            rw [h3 a this.1 this.2, hf1.1 a ha]
          | ok w2 =>
            rw [hr] at a1
            obtain ⟨⟨lg, h1, h2⟩, h3⟩ := a1
            obtain ⟨i1, i2⟩ := a2 w2 hr
            have hp' := hsub p hp
            have hwp : w2.heap p = w1.heap p := h3.other p hp'.1 hp'.2
            rw [AOut.bind_ok]
            rcases orderly_call hpost ⟨p, name, l, some t.id⟩ w2 with
              ⟨b, w3, es', hc3, hu3, hf3, hi3, -, hat3⟩ | ⟨w3, hc3, hu3⟩
            · have hother : ∀ a, a ≠ p → a ∉ t.ids → w3.heap a = w.heap a := by
                intro a ha hn
                have := hsub a hn
                rw [hf3.1 a ha, h3.other a this.1 this.2, hf1.1 a ha]
              cases b with
              | false =>
                simp only [hc3]
                refine ⟨⟨⟨_ :: (lg ++ [_]), by rw [hu3, h1, hu1]; simp, .stops hperm hord h2 (by simp)⟩,
                  fun a ha hn => hother a ha ((hone a).1 hn)⟩, fun w' hw => by cases hw⟩
              | true =>
                simp only [hc3]
                refine ⟨⟨⟨_ :: (lg ++ [_]), by rw [hu3, h1, hu1]; simp, .node hperm hord h2 .done⟩,
                  fun a ha hn => hother a ha ((hone a).1 hn), ?_, fun g hg => ?_⟩, fun w' hw => ?_⟩
                · rw [hf3.2.2.1, hwp, hf1.2.2.1]
                · have hg : g ≠ name := by simpa using hg
                  rw [hf3.2.2.2 g hg, ← hf1.2.2.2 g hg]
                  simp only [Heap.field, hwp]
                · cases hw
                  refine ⟨fun hl => ?_, fun hl done rest hfl hidx hst => ?_⟩
                  · rw [(hi3 hl).1, (hi3 hl).2, i1, i2]; exact hi1 hl
                  · obtain ⟨g1, g2⟩ := hat1 w.heap done rest ⟨[], some t.id, []⟩ hl rfl
                      ⟨by simpa using hfl, by simpa using hidx, by simpa using hst, .refl _ _ _⟩
                    have g2 := g2 (hd1 rfl rfl)
                    generalize es.foldl Spot.edit ⟨[], some t.id, []⟩ = s at g1 g2
                    obtain ⟨g3, -⟩ := hat3 w2.heap done rest s hl g2
                      ⟨by simp only [Heap.field, hwp]; exact g1.list, by rw [i1]; exact g1.idx, by rw [i2]; exact g1.step,
                        .refl _ _ _⟩
                    generalize es'.foldl Spot.edit s = s' at g3
                    refine ⟨s'.before ++ s'.cur.toList ++ s'.after, by rw [g3.list]; simp, ?_⟩
                    rw [g3.idx, g3.step]
                    simp only [List.length_append]
                    omega
            · simp only [hc3]
              refine ⟨⟨_ :: (lg ++ [_]), by rw [hu3, h1, hu1]; simp, .stops hperm hord h2 (by simp)⟩, fun w' hw => by cases hw⟩
      · have e : apply (recorded false pre) (recorded true post) (n + 1) ⟨p, name, l, some t.id⟩ w = .panic w1 := by
          rw [apply, hc1]
        simp only [e]
        exact ⟨⟨_, hu1, .fails⟩, fun w' hw => by cases hw⟩

end Verif
