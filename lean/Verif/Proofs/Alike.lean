/-
Lemmas for C81: `Apply` and `Inspect` side by side.
-/
import Verif.Spec.Alike
import Verif.Proofs.Apply
import Verif.Proofs.FineStmt

namespace Verif

/-- The action of `Apply` does what that of `Walk` does, and leaves the heap and (if it returns) the iterator alone. -/
def SameWalk {σ : Type} (h : Heap) (act : World σ → AOut σ) (wact : σ → Out σ) : Prop :=
  ∀ w, w.heap = h → match wact w.user with
    | .ok s => act w = .ok ⟨s, h, w.index, w.step⟩
    | .panic s => ∃ i j, act w = .panic ⟨s, h, i, j⟩

theorem SameWalk.nil {σ : Type} {h : Heap} : SameWalk (σ := σ) h AOut.ok Out.ok := by
  intro w hw; cases w; simp_all

theorem SameWalk.bind {σ : Type} {h : Heap} {a1 a2 : World σ → AOut σ} {b1 b2 : σ → Out σ} (h1 : SameWalk h a1 b1)
    (h2 : SameWalk h a2 b2) : SameWalk h (fun w => (a1 w).bind a2) (fun s => (b1 s).bind b2) := by
  intro w hw
  have h1 := h1 w hw
  cases hb : b1 w.user with
  | ok s =>
    simp only [hb] at h1
    have h2 := h2 ⟨s, h, w.index, w.step⟩ rfl
    simp only [hb, h1, AOut.bind_ok, Out.bind_ok]
    exact h2
  | panic s =>
    simp only [hb] at h1
    obtain ⟨i, j, h1⟩ := h1
    simp only [hb, h1, AOut.bind_panic, Out.bind_panic]
    exact ⟨i, j, rfl⟩

theorem alike_listLoop {σ : Type} {h : Heap} {ap : Option Nat → World σ → AOut σ} {wk : Tree → σ → Out σ} {p : Nat}
    {f : FName} {ts : List Tree} (hf : h.field p f = some (.list f (ts.map Tree.id))) :
    ∀ (rest done : List Tree), ts = done ++ rest → (∀ t ∈ rest, SameWalk h (ap (some t.id)) (wk t)) →
      ∀ n, rest.length < n → ∀ w, w.heap = h → w.index = (done.length : Int) →
      match seqAll (rest.map wk) w.user with
      | .ok s => ∃ i j, listLoop ap p f n w = .ok ⟨s, h, i, j⟩
      | .panic s => ∃ i j, listLoop ap p f n w = .panic ⟨s, h, i, j⟩ := by
  intro rest
  induction rest with
  | nil =>
    intro done hts _ n hn w hw hi
    cases n with
    | zero => omega
    | succ n =>
      refine ⟨w.index, w.step, ?_⟩
      rw [listLoop, hw, hf]
      simp only [hi, hts, ← hw]
      cases w
      simp_all
  | cons t rest ih =>
    intro done hts hruns n hn w hw hi
    cases n with
    | zero => simp at hn
    | succ n =>
      have h0 := hruns t (List.mem_cons_self ..) { w with step := 1 } hw
      have hget : (ts.map Tree.id)[w.index.toNat]? = some t.id := by
        rw [hi, hts]; simp
      have h1 : ¬ (w.index ≥ ((ts.map Tree.id).length : Int)) := by
        rw [hi, hts]; simp; omega
      have h2 : ¬ (w.index < 0) := by rw [hi]; omega
      have hl : listLoop ap p f (n + 1) w = (ap (some t.id) { w with step := 1 }).bind fun w =>
          listLoop ap p f n { w with index := w.index + w.step } := by
        rw [listLoop, hw, hf]
        rw [← hw]
        simp only [h1, h2, if_false, hget]
      rw [hl]
      simp only [List.map_cons, seqAll]
      cases hb : wk t w.user with
      | panic s =>
        simp only [hb] at h0
        obtain ⟨i, j, h0⟩ := h0
        exact ⟨i, j, by simp [h0]⟩
      | ok s =>
        simp only [hb] at h0
        have := ih (done ++ [t]) (by simp [hts]) (fun u hu => hruns u (List.mem_cons_of_mem _ hu)) n
          (by simp at hn; omega) ⟨s, h, w.index + 1, 1⟩ rfl (by simp [hi])
        simpa [h0] using this

theorem Tree.hideList_eq (ts : List Tree) : Tree.hideList ts = ts.map Tree.hideUsing := by
  induction ts with
  | nil => rfl
  | cons t ts ih => simp [Tree.hideList, ih]

theorem Tree.hideFields_eq (fs : List FieldVal) : Tree.hideFields fs = fs.map FieldVal.hideUsing := by
  induction fs with
  | nil => rfl
  | cons t ts ih => simp [Tree.hideFields, ih]

@[simp] theorem FieldVal.hideUsing_name (x : FieldVal) : x.hideUsing.name = x.name := by cases x <;> rfl

@[simp] theorem Tree.hideUsing_id (t : Tree) : t.hideUsing.id = t.id := by cases t; rfl

theorem WStep.kids_hide (all : Bool) (fs : List FieldVal) (st : WStep) :
    WStep.kids all (Tree.hideFields fs) st = (WStep.kids all fs st).map (Option.map Tree.hideUsing) := by
  have hf : ∀ f : FName, (Tree.hideFields fs).find? (fun x => x.name == f) =
      (fs.find? fun x => x.name == f).map FieldVal.hideUsing := by
    intro f
    rw [Tree.hideFields_eq, List.find?_map]
    congr 1
    simp [Function.comp_def]
  cases st with
  | one f | opt f | list f =>
    simp only [WStep.kids, hf]
    generalize fs.find? (fun x => x.name == f) = o
    rcases o with _ | (_ | _ | _) <;> simp [FieldVal.hideUsing, Tree.hideList_eq]
  | unlessAll f =>
    simp only [WStep.kids, hf]
    generalize fs.find? (fun x => x.name == f) = o
    cases all <;> rcases o with _ | (_ | _ | _) <;> simp [FieldVal.hideUsing, Tree.hideList_eq]

theorem Tree.walkKids_hide (t : Tree) : t.hideUsing.walkKids =
    if t.kind = .NamedColumnsJoin then none else t.walkKids.map fun ks => ks.map (Option.map Tree.hideUsing) := by
  by_cases hk : t.kind = .NamedColumnsJoin
  · rw [if_pos hk]
    cases t with
    | mk k r a fs =>
      have hk : k = .NamedColumnsJoin := hk
      subst hk
      rfl
  · rw [if_neg hk]
    cases t with
    | mk k r a fs =>
      have hk : k ≠ .NamedColumnsJoin := hk
      have hh : (Tree.mk k r a fs).hideUsing = .mk k r a (Tree.hideFields fs) := by
        rw [Tree.hideUsing, if_neg hk]
      simp only [hh, Tree.walkKids, Tree.kind, Tree.fields, Tree.all]
      cases k.walk with
      | none => rfl
      | some steps =>
        rw [show WStep.kids a (Tree.hideFields fs) = fun st => (WStep.kids a fs st).map (Option.map Tree.hideUsing) from
          funext (WStep.kids_hide a fs)]
        simp only [Option.map_some, List.map_flatMap]

/-- `Walk` on the tree with hidden nodes. -/
def walkH {σ : Type} (visit : Unit → Option Tree → σ → Option Unit × σ) (o : Option Tree) : σ → Out σ :=
  walkO visit () (o.map Tree.hideUsing)

theorem alike_step {σ : Type} {visit : Unit → Option Tree → σ → Option Unit × σ} {h : Heap} {k : Kind} {i : Nat}
    {all : Bool} {fs : List FieldVal} (hobj : h i = ⟨some k, all, fs.map FieldVal.ref⟩)
    {ap : FName → Bool → Option Nat → World σ → AOut σ} {n : Nat}
    (hn : ∀ f ts, FieldVal.list f ts ∈ fs → ts.length < n)
    (hruns : ∀ c ∈ fs.flatMap FieldVal.nodes, ∀ name l, SameWalk h (ap name l (some c.id)) (walk visit () c.hideUsing))
    (hnil : ∀ name l, SameWalk h (ap name l none) (walkNil visit ()))
    (st : AStep) (hlist : ∀ f, st = .list f → ∃ ts, fs.find? (fun x => x.name == f) = some (.list f ts)) :
    SameWalk h (applyStep ap i n st) (seqAll ((st.toW.kids all fs).map (walkH visit))) := by
  have hptr : ∀ f, h.ptr i f = match fs.find? (fun x => x.name == f) with
      | some (.one _ t) => some t.id
      | _ => none := by
    intro f
    simp only [Heap.ptr, Heap.field, hobj, find_map_ref]
    cases fs.find? (fun x => x.name == f) with
    | none => rfl
    | some x => cases x <;> rfl
  have hmem : ∀ {f x}, fs.find? (fun x => x.name == f) = some x → ∀ t ∈ x.nodes, t ∈ fs.flatMap FieldVal.nodes :=
    fun hx t ht => List.mem_flatMap.2 ⟨_, List.mem_of_find?_eq_some hx, ht⟩
  have hone : ∀ name f, SameWalk h (fun w => ap name false (h.ptr i f) w)
      (seqAll (((WStep.one f).kids all fs).map (walkH visit))) := by
    intro name f
    have hp := hptr f
    simp only [WStep.kids]
    cases hx : fs.find? (fun x => x.name == f) with
    | none =>
      simp only [hx] at hp
      rw [hp]; simpa [walkH, walkO, seqAll_one] using hnil name false
    | some x =>
      cases x with
      | nil =>
        simp only [hx] at hp
        rw [hp]; simpa [walkH, walkO, seqAll_one] using hnil name false
      | list =>
        simp only [hx] at hp
        rw [hp]; simpa [walkH, walkO, seqAll_one] using hnil name false
      | one g t =>
        simp only [hx] at hp
        rw [hp]
        simpa [walkH, walkO, seqAll_one] using hruns t (hmem hx t (by simp [FieldVal.nodes])) name false
  cases st with
  | one name f =>
    intro w hw
    have := hone name f w hw
    simpa only [applyStep, AStep.toW, hw] using this
  | opt name f =>
    simp only [AStep.toW, WStep.kids]
    have hp := hptr f
    have hskip : h.ptr i f = none → SameWalk h (applyStep ap i n (.opt name f)) (seqAll []) := by
      intro hp w hw
      have := SameWalk.nil (σ := σ) w hw
      simpa [applyStep, hw, hp, seqAll] using this
    cases hx : fs.find? (fun x => x.name == f) with
    | none => simp only [hx] at hp; exact hskip hp
    | some x =>
      cases x with
      | nil => simp only [hx] at hp; exact hskip hp
      | list => simp only [hx] at hp; exact hskip hp
      | one g t =>
        simp only [hx] at hp
        intro w hw
        have := hruns t (hmem hx t (by simp [FieldVal.nodes])) name false w hw
        simpa [applyStep, hw, hp, walkH, walkO, seqAll_one] using this
  | unlessAll name f =>
    cases all with
    | true =>
      intro w hw
      have := SameWalk.nil (σ := σ) w hw
      simpa [applyStep, hw, hobj, AStep.toW, WStep.kids, seqAll] using this
    | false =>
      intro w hw
      have := hone name f w hw
      simp only [AStep.toW, WStep.kids, Bool.false_eq_true, if_false, applyStep, hw, hobj] at this ⊢
      exact this
  | list f =>
    obtain ⟨ts, hx⟩ := hlist f rfl
    simp only [AStep.toW, WStep.kids, hx]
    have hfield : h.field i f = some (.list f (ts.map Tree.id)) := by
      simp only [Heap.field, hobj, find_map_ref, hx]; rfl
    intro w hw
    have := alike_listLoop (ap := ap f true) (wk := fun t => walk visit () t.hideUsing) hfield ts [] rfl
      (fun t ht => hruns t (hmem hx t ht) f true) n
      (hn f ts (List.mem_of_find?_eq_some hx)) { w with index := 0 } hw rfl
    have hmap : (ts.map some).map (walkH visit) = ts.map (fun t => walk visit () t.hideUsing) := by
      rw [List.map_map]; rfl
    rw [hmap]
    cases hb : seqAll (ts.map (fun t => walk visit () t.hideUsing)) w.user with
    | ok s =>
      simp only [hb] at this
      obtain ⟨a, b, e⟩ := this
      simp only [applyStep, applyList, e, AOut.bind_ok]
    | panic s =>
      simp only [hb] at this
      obtain ⟨a, b, e⟩ := this
      exact ⟨a, b, by simp only [applyStep, applyList, e, AOut.bind_panic]⟩

theorem alike_steps {σ : Type} {visit : Unit → Option Tree → σ → Option Unit × σ} {h : Heap} {k : Kind} {i : Nat}
    {all : Bool} {fs : List FieldVal} (hobj : h i = ⟨some k, all, fs.map FieldVal.ref⟩)
    {ap : FName → Bool → Option Nat → World σ → AOut σ} {n : Nat}
    (hn : ∀ f ts, FieldVal.list f ts ∈ fs → ts.length < n)
    (hruns : ∀ c ∈ fs.flatMap FieldVal.nodes, ∀ name l, SameWalk h (ap name l (some c.id)) (walk visit () c.hideUsing))
    (hnil : ∀ name l, SameWalk h (ap name l none) (walkNil visit ())) (sts : List AStep)
    (hlist : ∀ f, AStep.list f ∈ sts → ∃ ts, fs.find? (fun x => x.name == f) = some (.list f ts)) :
    SameWalk h (applySteps ap i n sts)
      (seqAll (((sts.map AStep.toW).flatMap (WStep.kids all fs)).map (walkH visit))) := by
  induction sts with
  | nil => exact SameWalk.nil
  | cons st sts ih =>
    have := SameWalk.bind (alike_step hobj hn hruns hnil st (fun f hf => hlist f (hf ▸ List.mem_cons_self ..)))
      (ih (fun f hf => hlist f (List.mem_cons_of_mem _ hf)))
    have he : (seqAll ((((st :: sts).map AStep.toW).flatMap (WStep.kids all fs)).map (walkH visit))) =
        fun s => (seqAll ((st.toW.kids all fs).map (walkH visit)) s).bind
          (seqAll (((sts.map AStep.toW).flatMap (WStep.kids all fs)).map (walkH visit))) := by
      funext s
      rw [← seqAll_append]
      simp
    rw [he]
    exact this

theorem alike_apply {σ : Type} (g : Option Nat → σ → Bool × σ) {h : Heap} (n : Nat) :
    ∀ t : Tree, sizeOf t ≤ n → h.Has t → (∀ u, Occurs t u → u.WellTyped) →
    ∀ p name l, SameWalk h (apply (enter g) (leave g) n ⟨p, name, l, some t.id⟩)
      (walk (inspectorVisit (byAddress g)) () t.hideUsing) := by
  induction n with
  | zero => intro t ht; cases t; simp at ht
  | succ n ih =>
    intro t ht hhas hty p name l w hw
    have hself := hhas t (.refl t)
    rw [walk_eq]
    have hv : inspectorVisit (byAddress g) () (some t.hideUsing) w.user =
        (if (g (some t.id) w.user).1 then some () else none, (g (some t.id) w.user).2) := by
      simp only [inspectorVisit, byAddress, Option.map_some, Tree.hideUsing_id]
    rw [hv, Tree.walkKids_hide]
    rw [apply]
    simp only [enter]
    cases hg : (g (some t.id) w.user).1 with
    | false => simp [hw]
    | true =>
      have htab := apply_table t.kind (Kind.mem_all _)
      by_cases hne : t.kind = .NamedColumnsJoin
      · rw [if_pos hne]
        have hn : Kind.apply .NamedColumnsJoin = none := by decide +kernel
        simp only [if_true, Option.isSome_some, hw, hself, hne, Option.bind_some, hn]
        exact ⟨_, _, rfl⟩
      rw [if_neg hne]
      have htab' : t.kind.apply.map (List.map AStep.toW) = t.kind.walk := by
        rw [htab]
        by_cases hu : t.kind ∈ unknownKinds
        · have : t.kind.walk = none := by
            revert hu; generalize t.kind = k; revert k
            simp only [unknownKinds, List.mem_cons, List.not_mem_nil, or_false]
            rintro k (rfl | rfl | rfl | rfl | rfl | rfl) <;> rfl
          rw [this]; split <;> rfl
        · rw [if_neg]
          simp [applyUnknownKinds, hne, hu]
      simp only [if_true, Option.isSome_some, hw, hself]
      cases hsteps : t.kind.apply with
      | none =>
        rw [hsteps] at htab'
        simp only [Tree.walkKids, ← htab', Option.map_none, Option.bind_some, hsteps]
        exact ⟨_, _, rfl⟩
      | some sts =>
        rw [hsteps] at htab'
        have hlists := apply_lists t.kind (Kind.mem_all _)
        rw [hsteps] at hlists
        have hnd : (t.kind.fields.map Field.name).Nodup := by
          simpa [fieldNamesDistinct] using table_names t.kind (Kind.mem_all _)
        have hn1 : 1 ≤ n := by
          have : 2 ≤ sizeOf t := by
            cases t with
            | mk k i all fs => simp only [Tree.mk.sizeOf_spec]; cases fs <;> simp <;> omega
          omega
        have hrun := alike_steps (σ := σ) (n := n) (visit := inspectorVisit (byAddress g))
          (ap := fun name l b => apply (enter g) (leave g) n ⟨t.id, name, l, b⟩) hself
          (fun f ts hf => by
            cases t with
            | mk k i all fs =>
              have := list_length_lt (k := k) (i := i) (all := all) hf
              simp only [Tree.fields] at this; omega)
          (fun c hc name l => by
            have hlt := child_lt (t := t) hc
            exact ih c (by omega) (fun u hu => hhas u (.child hc hu)) (fun u hu => hty u (.child hc hu))
              t.id name l)
          (fun name l w hw => by
            obtain ⟨m, rfl⟩ : ∃ m, n = m + 1 := ⟨n - 1, by omega⟩
            simp only [walkNil, inspectorVisit, byAddress, Option.map_none, apply, enter]
            by_cases hz : (g none w.user).1 = true
            · simp only [hz, if_true, Option.isSome_some]
              exact ⟨w.index, w.step, by simp [hw]⟩
            · simp only [Bool.not_eq_true] at hz
              simp [hz, hw])
          sts
          (fun f hf => fitsAll_list (hty t (.refl t)).1 hnd (by
            have := hlists _ hf
            simpa using this))
          ⟨(g (some t.id) w.user).2, h, w.index, w.step⟩ rfl
        simp only [Tree.walkKids, ← htab', Option.map_some, Option.bind_some, hsteps]
        simp only at hrun
        have hmm : (((sts.map AStep.toW).flatMap (WStep.kids t.all t.fields)).map (Option.map Tree.hideUsing)).map
            (walkO (inspectorVisit (byAddress g)) ()) = ((sts.map AStep.toW).flatMap (WStep.kids t.all t.fields)).map
            (walkH (inspectorVisit (byAddress g))) := by
          rw [List.map_map]; rfl
        rw [hmm]
        cases hb : seqAll (((sts.map AStep.toW).flatMap (WStep.kids t.all t.fields)).map
            (walkH (inspectorVisit (byAddress g)))) (g (some t.id) w.user).2 with
        | panic s =>
          simp only [hb] at hrun
          obtain ⟨i, j, hrun⟩ := hrun
          exact ⟨i, j, by rw [hrun]; rfl⟩
        | ok s =>
          simp only [hb] at hrun
          simp only [hrun, AOut.bind_ok, leave, Out.bind_ok, inspectorVisit, byAddress, Option.map_none]

/-! Trees without USING -/

theorem hide_none {t : Tree} (h : ∀ u, Occurs t u → u.kind ≠ .NamedColumnsJoin) : t.hideUsing = t := by
  induction hn : sizeOf t using Nat.strongRecOn generalizing t with
  | ind n ih =>
    cases t with
    | mk k r a fs =>
      have hk : k ≠ .NamedColumnsJoin := h _ (.refl _)
      rw [Tree.hideUsing, if_neg hk, Tree.hideFields_eq]
      congr 1
      have hc : ∀ c ∈ (Tree.mk k r a fs).children, c.hideUsing = c := fun c hc =>
        ih (sizeOf c) (by have := child_lt hc; omega) (fun u hu => h u (.child hc hu)) rfl
      have hm : ∀ x ∈ fs, x.hideUsing = x := by
        intro x hx
        have hc : ∀ c ∈ x.nodes, c.hideUsing = c := fun c hm => hc c (List.mem_flatMap.2 ⟨x, hx, hm⟩)
        cases x with
        | nil => rfl
        | one f t => simp only [FieldVal.hideUsing, hc t (by simp [FieldVal.nodes])]
        | list f ts =>
          simp only [FieldVal.hideUsing, Tree.hideList_eq]
          congr 1
          exact (List.map_congr_left fun c hm => hc c hm).trans (List.map_id _)
      exact (List.map_congr_left hm).trans (List.map_id _)

theorem hideUsing_kind (t : Tree) : t.hideUsing.kind ∈ unknownKinds ↔ t.kind ∈ applyUnknownKinds := by
  cases t with
  | mk k r a fs =>
    simp only [Tree.hideUsing, Tree.kind, applyUnknownKinds, List.mem_cons]
    by_cases hk : k = .NamedColumnsJoin
    · simp only [hk, if_true, true_or, iff_true]; decide
    · simp only [hk, if_false, false_or]

theorem Reached.using_iff {t : Tree} :
    (∃ u, Reached t.hideUsing u ∧ u.kind ∈ unknownKinds) ↔ ∃ u, Reached t u ∧ u.kind ∈ applyUnknownKinds := by
  constructor
  · rintro ⟨u, hu, hk⟩
    generalize ht : t.hideUsing = t' at hu
    induction hu generalizing t with
    | refl => subst ht; exact ⟨t, .refl t, (hideUsing_kind t).1 hk⟩
    | child h1 h2 _ ih =>
      subst ht
      rw [Tree.walkKids_hide] at h1
      split at h1
      · cases h1
      · rename_i hne
        simp only [Option.map_eq_some_iff] at h1
        obtain ⟨ks, h1, rfl⟩ := h1
        obtain ⟨o, ho, he⟩ := List.mem_map.1 h2
        cases o with
        | none => cases he
        | some c =>
          obtain ⟨u, hu, hk⟩ := ih hk (Option.some.inj he)
          exact ⟨u, .child h1 ho hu, hk⟩
  · rintro ⟨u, hu, hk⟩
    induction hu with
    | refl t => exact ⟨t.hideUsing, .refl _, (hideUsing_kind t).2 hk⟩
    | child h1 h2 _ ih =>
      rename_i t c u ks _
      obtain ⟨u', hu', hk'⟩ := ih hk
      by_cases hne : t.kind = .NamedColumnsJoin
      · exact ⟨t.hideUsing, .refl _, (hideUsing_kind t).2 (by rw [hne]; exact List.mem_cons_self ..)⟩
      · refine ⟨u', .child (c := c.hideUsing) (ks := ks.map (Option.map Tree.hideUsing)) ?_ ?_ hu', hk'⟩
        · rw [Tree.walkKids_hide, if_neg hne, h1]; rfl
        · exact List.mem_map.2 ⟨_, h2, rfl⟩

/-! Addresses do not matter for types -/

theorem Tree.anon_kind (t : Tree) : t.anon.kind = t.kind := by cases t; rfl

theorem FieldVal.fits_anon (k : Kind) (d : Field) (x : FieldVal) : x.anon.fits k d = x.fits k d := by
  cases x with
  | nil => rfl
  | one f t => simp only [FieldVal.anon, FieldVal.fits, Tree.anon_kind]
  | list f ts =>
    simp only [FieldVal.anon, FieldVal.fits, Tree.anonList_eq, List.all_map]
    congr 2
    funext t
    simp only [Function.comp, Tree.anon_kind]

theorem fitsAll_anon (k : Kind) : ∀ (ds : List Field) (fs : List FieldVal),
    fitsAll k ds (Tree.anonFields fs) = fitsAll k ds fs
  | [], [] => rfl
  | [], _ :: _ => rfl
  | _ :: _, [] => rfl
  | d :: ds, x :: xs => by
    simp only [Tree.anonFields, fitsAll, FieldVal.fits_anon, fitsAll_anon k ds xs]

theorem Tree.WellTyped.of_anon {t : Tree} (h : t.anon.WellTyped) : t.WellTyped := by
  cases t with
  | mk k r a fs =>
    simp only [Tree.WellTyped, Tree.anon, Tree.kind, Tree.fields, Tree.all, fitsAll_anon] at h ⊢
    refine ⟨h.1, fun hk => (h.2 hk).trans ?_⟩
    rw [Tree.anonFields_eq, List.mem_map]
    constructor
    · rintro ⟨x, hx, he⟩
      cases x <;> simp only [FieldVal.anon, reduceCtorEq] at he
      cases he; exact hx
    · intro hx; exact ⟨_, hx, rfl⟩

theorem Tree.children_anon (t : Tree) : t.anon.children = t.children.map Tree.anon := by
  cases t with
  | mk k r a fs =>
    simp only [Tree.children, Tree.anon, Tree.fields, Tree.anonFields_eq, List.flatMap_map, List.map_flatMap]
    congr 1
    funext x
    cases x <;> simp [FieldVal.anon, FieldVal.nodes, Tree.anonList_eq]

theorem Occurs.anon {t u : Tree} (h : Occurs t u) : Occurs t.anon u.anon := by
  induction h with
  | refl t => exact .refl _
  | child hc _ ih => exact .child (by rw [Tree.children_anon]; exact List.mem_map_of_mem hc) ih

mutual
theorem Tree.nodes_anon : ∀ t : Tree, t.anon.nodes.length = t.nodes.length
  | .mk k r a fs => by simp only [Tree.anon, Tree.nodes, List.length_cons, Tree.nodesFields_anon]
theorem Tree.nodesFields_anon : ∀ xs : List FieldVal,
    (Tree.nodesFields (Tree.anonFields xs)).length = (Tree.nodesFields xs).length
  | [] => rfl
  | x :: xs => by
    simp only [Tree.anonFields, Tree.nodesFields, List.length_append, Tree.nodesField_anon, Tree.nodesFields_anon]
theorem Tree.nodesField_anon : ∀ x : FieldVal, (Tree.nodesField x.anon).length = (Tree.nodesField x).length
  | .nil f => rfl
  | .one f t => by simp only [FieldVal.anon, Tree.nodesField, Tree.nodes_anon]
  | .list f ts => by simp only [FieldVal.anon, Tree.nodesField, Tree.nodesList_anon]
theorem Tree.nodesList_anon : ∀ ts : List Tree, (Tree.nodesList (Tree.anonList ts)).length = (Tree.nodesList ts).length
  | [] => rfl
  | t :: ts => by simp only [Tree.anonList, Tree.nodesList, List.length_append, Tree.nodes_anon, Tree.nodesList_anon]
end

end Verif
