/-
Lemmas for C82 and C83: editing nodes with `Apply`.
-/
import Verif.Spec.Replace
import Verif.Proofs.Apply
import Verif.Proofs.Calls

namespace Verif

theorem newOne_nil {E : Nat → List Edit} {a : Nat} (h : E a = []) : newOne E a = a := by simp [newOne, h]
theorem newList_nil {E : Nat → List Edit} {a : Nat} (h : E a = []) : newList E a = [a] := by
  simp [newList, editResult, h]

@[simp] theorem FieldRef.edited_name (E : Nat → List Edit) (x : FieldRef) : (x.edited E).name = x.name := by
  cases x <;> rfl

@[simp] theorem FieldVal.ref_name (x : FieldVal) : x.ref.name = x.name := by cases x <;> rfl

/-- The types of all structs are those of `h`. -/
def KindsAs (h g : Heap) : Prop := ∀ a, (g a).kind = (h a).kind

theorem assignable_kinds {h g : Heap} (hk : KindsAs h g) (a : Nat) (f : FName) (b : Nat) :
    g.assignable a f b = h.assignable a f b := by
  simp only [Heap.assignable, Obj.decl, hk a, hk b]

/-- The field in which the node is: `as` is the list for elements of lists. -/
def spotRef (l : Bool) (name : FName) (as : List Nat) (a : Nat) : FieldRef := if l then .list name as else .one name a

/-- The field after the edits. -/
def spotNew (E : Nat → List Edit) (l : Bool) (name : FName) (as : List Nat) (i : Nat) (a : Nat) : FieldRef :=
  if l then .list name (as.take i ++ newList E a ++ as.drop (i + 1)) else .one name (newOne E a)

/-- The struct after the edits. -/
def putAt (E : Nat → List Edit) (g : Heap) (p : Nat) (name : FName) (l : Bool) (as : List Nat) (i : Nat) (a : Nat) : Obj :=
  if E a = [] then g p else (g.setField p (spotNew E l name as i a)) p

/-- The edits of the node at `a`, which is in the field `name` of the struct at `p`, are possible. -/
structure Possible (E : Nat → List Edit) (h : Heap) (p : Nat) (name : FName) (l : Bool) (a : Nat) : Prop where
  assignable : ∀ e ∈ E a, ∀ b, e.node? = some b → h.assignable p name b = true
  last : DeleteLast (E a)
  single : l = false → ∀ e ∈ E a, ∃ b, e = .replace b

/-- What the visit of the child `c` of the struct at `p` does. -/
def Rep {σ : Type} (E : Nat → List Edit) (h : Heap) (p : Nat) (c : Tree)
    (act : FName → Bool → Option Nat → World σ → AOut σ) : Prop :=
  ∀ name l as w, KindsAs h w.heap → (∀ v, Occurs c v → w.heap v.id = ⟨some v.kind, v.all, v.fields.map FieldVal.ref⟩) →
    (E c.id ≠ [] → Possible E h p name l c.id ∧ w.heap.field p name = some (spotRef l name as c.id) ∧
      (l = true → 0 ≤ w.index ∧ as[w.index.toNat]? = some c.id ∧ w.step = 1)) →
    ∃ w', act name l (some c.id) w = .ok w' ∧ (l = false → w'.index = w.index ∧ w'.step = w.step) ∧
      (l = true → w.step = 1 → w'.index + w'.step = w.index + (newList E c.id).length) ∧
      (∀ a, a ≠ p → w'.heap a = if a ∈ c.ids then (w.heap a).edited E else w.heap a) ∧
      w'.heap p = putAt E w.heap p name l as w.index.toNat c.id

/-- Is the field a list? -/
def FieldVal.isList : FieldVal → Bool
  | .list .. => true
  | _ => false

/-- A field, replaced if its name is in `D`. -/
def fieldAt (E : Nat → List Edit) (D : List FName) (x : FieldVal) : FieldRef :=
  if x.name ∈ D then x.ref.edited E else x.ref

@[simp] theorem fieldAt_name (E : Nat → List Edit) (D : List FName) (x : FieldVal) : (fieldAt E D x).name = x.name := by
  unfold fieldAt; split <;> simp

/-- In the middle of the visit of the struct at `i`: the fields in `D` are done, and the nodes with addresses in `S`. -/
structure Mid {σ : Type} (E : Nat → List Edit) (h1 : Heap) (i : Nat) (k : Kind) (all : Bool) (fs : List FieldVal)
    (cur : FieldVal → FieldRef) (S : List Nat) (w : World σ) : Prop where
  obj : w.heap i = ⟨some k, all, fs.map cur⟩
  rest : ∀ a, a ≠ i → w.heap a = if a ∈ S then (h1 a).edited E else h1 a

theorem Mid.kinds {σ : Type} {E : Nat → List Edit} {h h1 : Heap} {i : Nat} {k : Kind} {all : Bool} {fs : List FieldVal}
    {cur : FieldVal → FieldRef} {S : List Nat} {w : World σ} (hm : Mid E h1 i k all fs cur S w) (hk : KindsAs h h1)
    (hi : (h1 i).kind = some k) : KindsAs h w.heap := by
  intro a
  by_cases ha : a = i
  · rw [ha, hm.obj, ← hk i, hi]
  · rw [hm.rest a ha, ← hk a]; split <;> rfl

theorem find_cur {fs : List FieldVal} {cur : FieldVal → FieldRef} (hc : ∀ x, (cur x).name = x.name) (f : FName) :
    (fs.map cur).find? (fun x => x.name == f) = (fs.find? (fun x => x.name == f)).map cur := by
  rw [List.find?_map]
  congr 1
  congr 1
  funext x
  simp [hc]

/-- One child. -/
theorem mid_child {σ : Type} {E : Nat → List Edit} {h h1 : Heap} {i : Nat} {k : Kind} {all : Bool} {fs : List FieldVal}
    {cur cur' : FieldVal → FieldRef} {S : List Nat} {w : World σ} (hm : Mid E h1 i k all fs cur S w) (hk : KindsAs h h1)
    (hi : (h1 i).kind = some k) {c : Tree} {act : FName → Bool → Option Nat → World σ → AOut σ} (hc : Rep E h i c act)
    (hcur : ∀ x, (cur x).name = x.name)
    (hhas : ∀ v, Occurs c v → h1 v.id = ⟨some v.kind, v.all, v.fields.map FieldVal.ref⟩)
    (hS : ∀ a ∈ c.ids, a ∉ S) (hni : i ∉ c.ids) (name : FName) (l : Bool) (as : List Nat)
    (hb : E c.id ≠ [] → Possible E h i name l c.id ∧
      (fs.find? (fun x => x.name == name)).map cur = some (spotRef l name as c.id) ∧
      (l = true → 0 ≤ w.index ∧ as[w.index.toNat]? = some c.id ∧ w.step = 1))
    (hafter : fs.map cur' = if E c.id = [] then fs.map cur
      else fs.map fun x => if x.name = name then spotNew E l name as w.index.toNat c.id else cur x) :
    ∃ w', act name l (some c.id) w = .ok w' ∧ (l = false → w'.index = w.index ∧ w'.step = w.step) ∧
      (l = true → w.step = 1 → w'.index + w'.step = w.index + (newList E c.id).length) ∧
      Mid E h1 i k all fs cur' (c.ids ++ S) w' := by
  have hid : ∀ v, Occurs c v → v.id ∈ c.ids := fun v hv => List.mem_map.2 ⟨v, (mem_nodes_iff _ _).2 hv, rfl⟩
  obtain ⟨w', e1, e2, e3, e4, e5⟩ := hc name l as w (hm.kinds hk hi)
    (fun v hv => by
      have h1 := hid v hv
      rw [hm.rest _ (fun e => hni (e ▸ h1)), if_neg (hS _ h1)]
      exact hhas v hv)
    (fun hb' => by
      obtain ⟨a1, a2, a3⟩ := hb hb'
      refine ⟨a1, ?_, a3⟩
      simp only [Heap.field, hm.obj, find_cur hcur, a2])
  refine ⟨w', e1, e2, e3, ?_, ?_⟩
  · rw [e5, putAt]
    by_cases hr : E c.id = []
    · rw [if_pos hr] at hafter ⊢; rw [hm.obj, hafter]
    · rw [if_neg hr] at hafter ⊢
      simp only [Heap.setField, Heap.set, if_true, hm.obj, hafter, List.map_map]
      congr 1
      apply List.map_congr_left
      intro x _
      have hn : (spotNew E l name as w.index.toNat c.id).name = name := by unfold spotNew; split <;> rfl
      simp only [Function.comp, hcur, hn, beq_iff_eq]
  · intro a ha
    rw [e4 a ha]
    by_cases h1 : a ∈ c.ids
    · rw [if_pos h1, hm.rest a ha, if_neg (hS a h1), if_pos (List.mem_append_left _ h1)]
    · rw [if_neg h1, hm.rest a ha]
      by_cases h2 : a ∈ S
      · rw [if_pos h2, if_pos (List.mem_append_right _ h2)]
      · rw [if_neg h2, if_neg (by simp [h1, h2])]

theorem ref_edited_nil {E : Nat → List Edit} {x : FieldVal} (h : x.nodes = []) : x.ref.edited E = x.ref := by
  cases x with
  | nil => rfl
  | one => simp [FieldVal.nodes] at h
  | list f ts => simp only [FieldVal.nodes] at h; subst h; rfl

theorem field_unique {fs : List FieldVal} (hn : (fs.map FieldVal.name).Nodup) {x y : FieldVal} (hx : x ∈ fs) (hy : y ∈ fs)
    (h : x.name = y.name) : x = y := by
  have h1 := find_of_nodup hn hx
  have h2 := find_of_nodup hn hy
  rw [h, h2] at h1
  exact (Option.some.inj h1).symm

/-- A field without nodes is done. -/
theorem fieldAt_skip {E : Nat → List Edit} {D : List FName} {fs : List FieldVal} (hn : (fs.map FieldVal.name).Nodup)
    {x : FieldVal} (hx : x ∈ fs) (h : x.nodes = []) : fs.map (fieldAt E (x.name :: D)) = fs.map (fieldAt E D) := by
  apply List.map_congr_left
  intro y hy
  by_cases he : y.name = x.name
  · have := field_unique hn hy hx he
    subst this
    unfold fieldAt
    rw [ref_edited_nil h]; simp
  · unfold fieldAt
    simp [he]

/-- A field with one node. -/
theorem fieldAt_one {E : Nat → List Edit} {D : List FName} {fs : List FieldVal} (hn : (fs.map FieldVal.name).Nodup)
    {f : FName} {c : Tree} (hx : FieldVal.one f c ∈ fs) (i : Nat) : fs.map (fieldAt E (f :: D)) =
    if E c.id = [] then fs.map (fieldAt E D)
    else fs.map fun x => if x.name = f then spotNew E false f [] i c.id else fieldAt E D x := by
  by_cases hr : E c.id = []
  · rw [if_pos hr]
    apply List.map_congr_left
    intro y hy
    by_cases he : y.name = f
    · have := field_unique hn hy hx he
      subst this
      unfold fieldAt
      simp [FieldVal.ref, FieldRef.edited, newOne_nil hr]
    · unfold fieldAt
      simp [he]
  · rw [if_neg hr]
    apply List.map_congr_left
    intro y hy
    by_cases he : y.name = f
    · have := field_unique hn hy hx he
      subst this
      simp [fieldAt, FieldVal.name, FieldVal.ref, FieldRef.edited, spotNew]
    · unfold fieldAt
      simp [he]

/-- The list field `f` holds `as`. -/
def listCur (E : Nat → List Edit) (D : List FName) (f : FName) (as : List Nat) (x : FieldVal) : FieldRef :=
  if x.name = f then .list f as else fieldAt E D x

@[simp] theorem listCur_name (E : Nat → List Edit) (D : List FName) (f : FName) (as : List Nat) (x : FieldVal) :
    (listCur E D f as x).name = x.name := by
  unfold listCur
  split
  · rename_i h; rw [h]; rfl
  · simp

theorem rep_listLoop {σ : Type} {E : Nat → List Edit} {h h1 : Heap} {i : Nat} {k : Kind} {all : Bool} {fs : List FieldVal}
    {D : List FName} (hk : KindsAs h h1) (hi : (h1 i).kind = some k)
    {act : FName → Bool → Option Nat → World σ → AOut σ} {f : FName} (hn : (fs.map FieldVal.name).Nodup) {ts : List Tree}
    (hx : FieldVal.list f ts ∈ fs) :
    ∀ (rest done : List Tree), ts = done ++ rest → (∀ c ∈ rest, Rep E h i c act) →
      (∀ c ∈ rest, ∀ v, Occurs c v → h1 v.id = ⟨some v.kind, v.all, v.fields.map FieldVal.ref⟩) →
      (∀ c ∈ rest, E c.id ≠ [] → Possible E h i f true c.id) →
      ∀ S : List Nat, (rest.flatMap Tree.ids).Nodup → (∀ a ∈ rest.flatMap Tree.ids, a ∉ S ∧ a ≠ i) →
      ∀ n, rest.length < n → ∀ w : World σ,
        Mid E h1 i k all fs (listCur E D f (done.flatMap (fun c => newList E c.id) ++ rest.map Tree.id)) S w →
        w.index = ((done.flatMap (fun c => newList E c.id)).length : Int) →
      ∃ w', listLoop (act f true) i f n w = .ok w' ∧
        Mid E h1 i k all fs (listCur E D f (ts.flatMap (fun c => newList E c.id))) (rest.flatMap Tree.ids ++ S) w' := by
  have hfind : fs.find? (fun x => x.name == f) = some (.list f ts) := find_of_nodup hn hx
  have hfield : ∀ (as : List Nat) (S : List Nat) (w : World σ), Mid E h1 i k all fs (listCur E D f as) S w →
      w.heap.field i f = some (.list f as) := by
    intro as S w hm
    simp only [Heap.field, hm.obj, find_cur (listCur_name E D f as), hfind]
    simp [listCur, FieldVal.name]
  intro rest
  induction rest with
  | nil =>
    intro done hts _ _ _ S _ _ n hlen w hm hidx
    cases n with
    | zero => simp at hlen
    | succ n =>
      refine ⟨w, ?_, ?_⟩
      · rw [listLoop, hfield _ _ _ hm]
        simp [hidx]
      · simpa [hts] using hm
  | cons c rest ih =>
    intro done hts hrep hhas has S hnd hS n hlen w hm hidx
    cases n with
    | zero => simp at hlen
    | succ n =>
      simp only [List.flatMap_cons, List.nodup_append, List.mem_append] at hnd hS
      have hm1 : Mid E h1 i k all fs (listCur E D f (done.flatMap (fun c => newList E c.id) ++ (c :: rest).map Tree.id)) S
          { w with step := 1 } := ⟨hm.obj, hm.rest⟩
      obtain ⟨w1, e1, e2, e3, hm2⟩ := mid_child
        (cur' := listCur E D f ((done ++ [c]).flatMap (fun c => newList E c.id) ++ rest.map Tree.id)) hm1 hk hi
        (hrep c (List.mem_cons_self ..)) (listCur_name E D f _)
        (hhas c (List.mem_cons_self ..)) (fun a ha => (hS a (.inl ha)).1) (fun hc => (hS i (.inl hc)).2 rfl) f true
        (done.flatMap (fun c => newList E c.id) ++ (c :: rest).map Tree.id)
        (fun hb => ⟨has c (List.mem_cons_self ..) hb, by
            rw [hfind]; simp [listCur, FieldVal.name, spotRef], fun _ => by
              refine ⟨by simp only [hidx]; omega, ?_, rfl⟩
              simp only [hidx, Int.toNat_natCast, List.map_cons]
              simp⟩)
        (by
          by_cases hr : E c.id = []
          · rw [if_pos hr]
            simp only [List.flatMap_append, List.flatMap_cons, List.flatMap_nil, newList_nil hr, List.append_assoc,
              List.cons_append, List.nil_append, List.map_cons]
          · rw [if_neg hr]
            apply List.map_congr_left
            intro x _
            by_cases he : x.name = f
            · have e1 : (done.flatMap (fun c => newList E c.id) ++ (c :: rest).map Tree.id).drop
                  ((done.flatMap (fun c => newList E c.id)).length + 1) = rest.map Tree.id := by
                rw [← List.drop_drop, List.drop_left]; rfl
              simp only [listCur, he, if_true, spotNew, hidx, Int.toNat_natCast, List.take_left, e1]
              simp
            · simp [listCur, he])
      obtain ⟨w2, e4, hm3⟩ := ih (done ++ [c]) (by simp [hts]) (fun c hc => hrep c (List.mem_cons_of_mem _ hc))
        (fun c hc => hhas c (List.mem_cons_of_mem _ hc)) (fun c hc => has c (List.mem_cons_of_mem _ hc)) (c.ids ++ S)
        hnd.2.1 (fun a ha => ⟨by
          have := (hS a (.inr ha)).1
          have h3 := hnd.2.2
          simp only [List.mem_append, not_or]
          exact ⟨fun hc => h3 a hc a ha rfl, this⟩, (hS a (.inr ha)).2⟩) n (by simp at hlen; omega)
        { w1 with index := w1.index + w1.step } ⟨hm2.obj, hm2.rest⟩ (by have := e3 rfl rfl; simp only [hidx] at this; simp [this])
      refine ⟨w2, ?_, hm3.obj, ?_⟩
      · rw [listLoop, hfield _ _ _ hm]
        have h1 : ¬ (w.index ≥ ((done.flatMap (fun c => newList E c.id) ++ (c :: rest).map Tree.id).length : Int)) := by
          rw [hidx]; simp only [List.length_append, List.length_map, List.length_cons]; omega
        have h2 : ¬ (w.index < 0) := by rw [hidx]; omega
        have hget : (done.flatMap (fun c => newList E c.id) ++ (c :: rest).map Tree.id)[w.index.toNat]? = some c.id := by
          rw [hidx, Int.toNat_natCast]; simp
        simp only [h1, h2, if_false, hget, e1, AOut.bind_ok, e4]
      · intro a ha
        rw [hm3.rest a ha]
        simp only [List.mem_append, List.flatMap_cons]
        congr 1
        apply propext
        constructor
        · rintro (h | h | h)
          · exact .inl (.inr h)
          · exact .inl (.inl h)
          · exact .inr h
        · rintro ((h | h) | h)
          · exact .inr (.inl h)
          · exact .inl h
          · exact .inr (.inr h)

/-- The name that a step passes. -/
def AStep.label : AStep → FName
  | .one name _ | .opt name _ | .unlessAll name _ => name
  | .list f => f

theorem rep_step {σ : Type} {E : Nat → List Edit} {h h1 : Heap} {i : Nat} {k : Kind} {all : Bool} {fs : List FieldVal}
    {D : List FName} (hk : KindsAs h h1) (hi : (h1 i).kind = some k)
    {act : FName → Bool → Option Nat → World σ → AOut σ} (hn : (fs.map FieldVal.name).Nodup) {n : Nat}
    (hlen : ∀ f ts, FieldVal.list f ts ∈ fs → ts.length < n) {x : FieldVal} (hx : x ∈ fs) (st : AStep)
    (hf : x.name = st.toW.field) (hD : x.name ∉ D) (hkids : st.toW.kids all fs = x.nodes.map some)
    (hlist : ∀ f, st = .list f → ∃ ts, fs.find? (fun x => x.name == f) = some (.list f ts))
    (hrep : ∀ c ∈ x.nodes, Rep E h i c act)
    (hhas : ∀ c ∈ x.nodes, ∀ v, Occurs c v → h1 v.id = ⟨some v.kind, v.all, v.fields.map FieldVal.ref⟩)
    (has : ∀ c ∈ x.nodes, E c.id ≠ [] → Possible E h i x.name x.isList c.id ∧
      st.label = x.name)
    (S : List Nat) (hnd : (x.nodes.flatMap Tree.ids).Nodup) (hS : ∀ a ∈ x.nodes.flatMap Tree.ids, a ∉ S ∧ a ≠ i)
    (w : World σ) (hm : Mid E h1 i k all fs (fieldAt E D) S w) :
    ∃ w', applyStep act i n st w = .ok w' ∧ w'.index = w.index ∧ w'.step = w.step ∧
      Mid E h1 i k all fs (fieldAt E (x.name :: D)) (x.nodes.flatMap Tree.ids ++ S) w' := by
  have hfind : fs.find? (fun y => y.name == x.name) = some x := find_of_nodup hn hx
  have hcurx : fieldAt E D x = x.ref := by simp [fieldAt, hD]
  have hptr : w.heap.ptr i x.name = match x with
      | .one _ t => some t.id
      | _ => none := by
    simp only [Heap.ptr, Heap.field, hm.obj, find_cur (fieldAt_name E D), hfind, Option.map_some, hcurx]
    cases x <;> rfl
  have hskip : x.nodes = [] → Mid E h1 i k all fs (fieldAt E (x.name :: D)) (x.nodes.flatMap Tree.ids ++ S) w := by
    intro he
    refine ⟨by rw [hm.obj, fieldAt_skip hn hx he], ?_⟩
    rw [he]; exact hm.rest
  have hone : ∀ f c, x = .one f c → st.label = st.label → ∃ w', act st.label false (some c.id) w = .ok w' ∧
      w'.index = w.index ∧ w'.step = w.step ∧
      Mid E h1 i k all fs (fieldAt E (x.name :: D)) (x.nodes.flatMap Tree.ids ++ S) w' := by
    rintro f c rfl -
    have hc : c ∈ FieldVal.nodes (.one f c) := by simp [FieldVal.nodes]
    simp only [FieldVal.nodes, List.flatMap_cons, List.flatMap_nil, List.append_nil, FieldVal.name] at hnd hS ⊢
    suffices hs : ∃ w', act st.label false (some c.id) w = .ok w' ∧ (false = false → w'.index = w.index ∧ w'.step = w.step) ∧
        (false = true → w.step = 1 → w'.index + w'.step = w.index + (newList E c.id).length) ∧
        Mid E h1 i k all fs (fieldAt E (f :: D)) (c.ids ++ S) w' by
      obtain ⟨w', a1, a2, _, a4⟩ := hs
      exact ⟨w', a1, (a2 rfl).1, (a2 rfl).2, a4⟩
    refine mid_child hm hk hi (hrep c hc) (fieldAt_name E D) (hhas c hc) (fun a ha => (hS a ha).1)
      (fun ha => (hS i ha).2 rfl) st.label false [] (fun hb => ?_) ?_
    · have h2 := has c hc hb
      refine ⟨h2.2 ▸ h2.1, ?_, fun hh => by cases hh⟩
      rw [h2.2, hfind, Option.map_some, hcurx]
      rfl
    · rw [fieldAt_one hn hx w.index.toNat]
      by_cases hr : E c.id = []
      · rw [if_pos hr, if_pos hr]
      · have h2 : st.label = f := (has c hc hr).2
        simp only [h2]
  cases st with
  | one name f =>
    simp only [AStep.toW, WStep.field] at hf
    subst hf
    simp only [AStep.toW, WStep.kids, hfind] at hkids
    cases x with
    | nil => simp [FieldVal.nodes] at hkids
    | list g ts => cases ts <;> simp [FieldVal.nodes] at hkids
    | one g c =>
      simp only at hptr
      simp only [applyStep, hptr]
      exact hone g c rfl rfl
  | opt name f =>
    simp only [AStep.toW, WStep.field] at hf
    subst hf
    simp only [AStep.toW, WStep.kids, hfind] at hkids
    cases x with
    | nil =>
      simp only at hptr
      simp only [applyStep, hptr]
      exact ⟨w, rfl, rfl, rfl, hskip rfl⟩
    | list g ts =>
      simp only at hptr
      simp only [applyStep, hptr]
      exact ⟨w, rfl, rfl, rfl, hskip (by simpa using hkids.symm)⟩
    | one g c =>
      simp only at hptr
      simp only [applyStep, hptr]
      exact hone g c rfl rfl
  | unlessAll name f =>
    simp only [AStep.toW, WStep.field] at hf
    subst hf
    simp only [AStep.toW, WStep.kids, hfind] at hkids
    have hall : (w.heap i).all = all := by rw [hm.obj]
    cases all with
    | true =>
      simp only [applyStep, hall, if_true]
      exact ⟨w, rfl, rfl, rfl, hskip (by simpa using hkids.symm)⟩
    | false =>
      simp only [Bool.false_eq_true, if_false] at hkids
      cases x with
      | nil => simp [FieldVal.nodes] at hkids
      | list g ts => cases ts <;> simp [FieldVal.nodes] at hkids
      | one g c =>
        simp only at hptr
        simp only [applyStep, hptr, hall, Bool.false_eq_true, if_false]
        exact hone g c rfl rfl
  | list f =>
    simp only [AStep.toW, WStep.field] at hf
    obtain ⟨ts, hts⟩ := hlist _ rfl
    rw [← hf, hfind, hf] at hts
    obtain rfl : x = .list f ts := Option.some.inj hts
    clear hone hskip hptr
    obtain ⟨w1, e1, hm1⟩ := rep_listLoop (D := D) hk hi (act := act) hn hx ts [] rfl hrep hhas
      (fun c hc hb => (has c hc hb).1) S hnd hS n (hlen f ts hx) { w with index := 0 }
      ⟨by
        rw [hm.obj]
        congr 1
        apply List.map_congr_left
        intro y hy
        by_cases he : y.name = f
        · have := field_unique hn hy hx he
          subst this
          simp only [listCur, he, if_true]
          rw [hcurx]; rfl
        · simp [listCur, he], hm.rest⟩ rfl
    refine ⟨{ w1 with index := w.index, step := w.step }, ?_, rfl, rfl, ?_, hm1.rest⟩
    · simp only [applyStep, applyList, e1, AOut.bind_ok]
    · rw [hm1.obj]
      congr 1
      apply List.map_congr_left
      intro y hy
      by_cases he : y.name = f
      · have := field_unique hn hy hx he
        subst this
        simp [listCur, FieldVal.name, fieldAt, FieldVal.ref, FieldRef.edited, List.flatMap_map]
      · have he' : y.name ≠ (FieldVal.list f ts).name := he
        simp [listCur, he, he', fieldAt]

theorem rep_steps {σ : Type} {E : Nat → List Edit} {h h1 : Heap} {i : Nat} {k : Kind} {all : Bool} {fs : List FieldVal}
    (hk : KindsAs h h1) (hi : (h1 i).kind = some k)
    {act : FName → Bool → Option Nat → World σ → AOut σ} (hn : (fs.map FieldVal.name).Nodup) {n : Nat}
    (hlen : ∀ f ts, FieldVal.list f ts ∈ fs → ts.length < n)
    (hrep : ∀ c ∈ fs.flatMap FieldVal.nodes, Rep E h i c act)
    (hhas : ∀ c ∈ fs.flatMap FieldVal.nodes, ∀ v, Occurs c v → h1 v.id = ⟨some v.kind, v.all, v.fields.map FieldVal.ref⟩)
    (hi2 : i ∉ (fs.flatMap FieldVal.nodes).flatMap Tree.ids)
    (hnd : ∀ x ∈ fs, (x.nodes.flatMap Tree.ids).Nodup)
    (hdis : ∀ x ∈ fs, ∀ y ∈ fs, x.name ≠ y.name → ∀ a ∈ x.nodes.flatMap Tree.ids, a ∉ y.nodes.flatMap Tree.ids) :
    ∀ (sts : List AStep),
    (∀ st ∈ sts, ∃ x ∈ fs, x.name = st.toW.field ∧ st.toW.kids all fs = x.nodes.map some ∧
      (∀ c ∈ x.nodes, E c.id ≠ [] →
        Possible E h i x.name x.isList c.id ∧ st.label = x.name)) →
    (∀ f, AStep.list f ∈ sts → ∃ ts, fs.find? (fun x => x.name == f) = some (.list f ts)) →
    (sts.map fun st => st.toW.field).Nodup →
    ∀ (D : List FName) (S : List Nat), (∀ st ∈ sts, st.toW.field ∉ D) →
    (∀ a, a ∈ S ↔ ∃ x ∈ fs, x.name ∈ D ∧ a ∈ x.nodes.flatMap Tree.ids) →
    ∀ w : World σ, Mid E h1 i k all fs (fieldAt E D) S w →
    ∃ w' D' S', applySteps act i n sts w = .ok w' ∧ w'.index = w.index ∧ w'.step = w.step ∧
      (∀ f, f ∈ D' ↔ f ∈ D ∨ ∃ st ∈ sts, st.toW.field = f) ∧
      (∀ a, a ∈ S' ↔ ∃ x ∈ fs, x.name ∈ D' ∧ a ∈ x.nodes.flatMap Tree.ids) ∧
      Mid E h1 i k all fs (fieldAt E D') S' w' := by
  intro sts
  induction sts with
  | nil => intro _ _ _ D S _ hS w hm; exact ⟨w, D, S, rfl, rfl, rfl, by simp, hS, hm⟩
  | cons st sts ih =>
    intro hst hlist hdist D S hD hS w hm
    obtain ⟨x, hx, hxf, hkids, has⟩ := hst st (List.mem_cons_self ..)
    have hmem : ∀ c ∈ x.nodes, c ∈ fs.flatMap FieldVal.nodes := fun c hc => List.mem_flatMap.2 ⟨x, hx, hc⟩
    have hxD : x.name ∉ D := by rw [hxf]; exact hD st (List.mem_cons_self ..)
    obtain ⟨w1, e1, e2, e3, hm1⟩ := rep_step hk hi (act := act) hn hlen hx st hxf hxD hkids
      (fun f hf => hlist f (hf ▸ List.mem_cons_self ..)) (fun c hc => hrep c (hmem c hc)) (fun c hc => hhas c (hmem c hc))
      has S (hnd x hx) (fun a ha => ⟨fun haS => by
          obtain ⟨y, hy, hyD, hay⟩ := (hS a).1 haS
          exact hdis x hx y hy (fun he => hxD (he ▸ hyD)) a ha hay, fun he => by
          subst he
          obtain ⟨c, hc, hac⟩ := List.mem_flatMap.1 ha
          exact hi2 (List.mem_flatMap.2 ⟨c, hmem c hc, hac⟩)⟩) w hm
    simp only [List.map_cons, List.nodup_cons] at hdist
    obtain ⟨w2, D2, S2, e4, e5, e6, hD2, hS2, hm2⟩ := ih (fun st hs => hst st (List.mem_cons_of_mem _ hs))
      (fun f hf => hlist f (List.mem_cons_of_mem _ hf)) hdist.2 (x.name :: D) (x.nodes.flatMap Tree.ids ++ S)
      (fun st' hs => by
        simp only [List.mem_cons, not_or]
        refine ⟨fun he => hdist.1 ?_, hD st' (List.mem_cons_of_mem _ hs)⟩
        rw [← hxf, ← he]
        exact List.mem_map.2 ⟨st', hs, rfl⟩)
      (fun a => by
        rw [List.mem_append, hS a]
        constructor
        · rintro (ha | ⟨y, hy, hyD, hay⟩)
          · exact ⟨x, hx, List.mem_cons_self .., ha⟩
          · exact ⟨y, hy, List.mem_cons_of_mem _ hyD, hay⟩
        · rintro ⟨y, hy, hyD, hay⟩
          rcases List.mem_cons.1 hyD with he | hyD
          · rw [field_unique hn hy hx he] at hay
            exact .inl hay
          · exact .inr ⟨y, hy, hyD, hay⟩) w1 hm1
    refine ⟨w2, D2, S2, ?_, by rw [e5, e2], by rw [e6, e3], ?_, hS2, hm2⟩
    · rw [applySteps, e1]; exact e4
    · intro f
      rw [hD2 f, List.mem_cons]
      constructor
      · rintro ((rfl | h) | ⟨s, hs, he⟩)
        · exact .inr ⟨st, List.mem_cons_self .., hxf.symm⟩
        · exact .inl h
        · exact .inr ⟨s, List.mem_cons_of_mem _ hs, he⟩
      · rintro (h | ⟨s, hs, he⟩)
        · exact .inl (.inr h)
        · rcases List.mem_cons.1 hs with rfl | hs
          · exact .inl (.inl (by rw [hxf, he]))
          · exact .inr ⟨s, hs, he⟩

/-! ### The table -/

/-- Every step handles a field completely, no field is visited twice, and all but `unwalkedFields` are visited. -/
def replaceTable (k : Kind) (sts : List AStep) : Bool :=
  sts.all (fun st => k.fields.any (fun d => d.name == st.toW.field && stepFor k d st.toW &&
    (st.label == d.name || !d.slice && d.type == .ptr .QueryStmt))) &&
  decide (sts.map fun st => st.toW.field).Nodup &&
  k.fields.all (fun d => unwalkedFields.contains (k, d.name) || sts.any (fun st => st.toW.field == d.name))

theorem replace_table : ∀ k ∈ Kind.all, applyUnknownKinds.contains k = true ∨
    (match k.apply with | some sts => replaceTable k sts | none => false) = true := by decide +kernel

theorem fitsAll_both {k : Kind} : ∀ {ds : List Field} {fs : List FieldVal}, fitsAll k ds fs = true →
    (∀ d ∈ ds, ∃ x ∈ fs, x.fits k d = true) ∧ (∀ x ∈ fs, ∃ d ∈ ds, x.fits k d = true) := by
  intro ds
  induction ds with
  | nil => intro fs h; cases fs with
    | nil => exact ⟨fun d hd => (by cases hd), fun x hx => (by cases hx)⟩
    | cons => simp [fitsAll] at h
  | cons d ds ih => intro fs h; cases fs with
    | nil => simp [fitsAll] at h
    | cons x xs =>
      simp only [fitsAll, Bool.and_eq_true] at h
      obtain ⟨h1, h2⟩ := ih h.2
      refine ⟨fun e he => ?_, fun y hy => ?_⟩
      · rcases List.mem_cons.1 he with rfl | he
        · exact ⟨x, List.mem_cons_self .., h.1⟩
        · obtain ⟨y, hy, hf⟩ := h1 e he
          exact ⟨y, List.mem_cons_of_mem _ hy, hf⟩
      · rcases List.mem_cons.1 hy with rfl | hy
        · exact ⟨d, List.mem_cons_self .., h.1⟩
        · obtain ⟨e, he, hf⟩ := h2 y hy
          exact ⟨e, List.mem_cons_of_mem _ he, hf⟩

theorem fits_kind {k : Kind} {d : Field} {x : FieldVal} (h : x.fits k d = true) : ∀ c ∈ x.nodes, d.type.accepts c.kind = true := by
  intro c hc
  cases x with
  | nil => simp [FieldVal.nodes] at hc
  | one f t =>
    simp only [FieldVal.nodes, List.mem_singleton] at hc
    subst hc
    simp only [FieldVal.fits, Bool.and_eq_true] at h
    exact h.2
  | list f ts =>
    simp only [FieldVal.nodes] at hc
    simp only [FieldVal.fits, Bool.and_eq_true, List.all_eq_true] at h
    exact h.2 c hc

theorem Tree.ids_eq (t : Tree) : t.ids = t.id :: t.children.flatMap Tree.ids := by
  rw [Tree.ids, Tree.nodes_eq, List.map_cons, List.map_flatMap]
  rfl

theorem flatMap_disjoint {α β : Type} {g : α → List β} : ∀ {l : List α}, (l.flatMap g).Nodup →
    (∀ x ∈ l, (g x).Nodup) ∧ ∀ x ∈ l, ∀ y ∈ l, x ≠ y → ∀ a ∈ g x, a ∉ g y := by
  intro l
  induction l with
  | nil => intro _; exact ⟨fun x hx => (by cases hx), fun x hx => (by cases hx)⟩
  | cons z l ih =>
    intro h
    simp only [List.flatMap_cons, List.nodup_append] at h
    obtain ⟨h1, h2, h3⟩ := h
    obtain ⟨i1, i2⟩ := ih h2
    refine ⟨fun x hx => ?_, fun x hx y hy hne a ha hb => ?_⟩
    · rcases List.mem_cons.1 hx with rfl | hx
      · exact h1
      · exact i1 x hx
    · rcases List.mem_cons.1 hx with rfl | hx'
      · rcases List.mem_cons.1 hy with rfl | hy
        · exact hne rfl
        · exact h3 a ha a (List.mem_flatMap.2 ⟨y, hy, hb⟩) rfl
      · rcases List.mem_cons.1 hy with rfl | hy
        · exact h3 a hb a (List.mem_flatMap.2 ⟨x, hx', ha⟩) rfl
        · exact i2 x hx' y hy hne a ha hb

theorem setField_twice {g : Heap} {p : Nat} {x y : FieldRef} (h : x.name = y.name) :
    (g.setField p x).setField p y = g.setField p y := by
  funext a
  by_cases ha : a = p
  · simp only [ha, Heap.setField, Heap.set, if_true, List.map_map]
    congr 1
    apply List.map_congr_left
    intro z _
    by_cases hz : z.name = y.name
    · simp [Function.comp, h, hz]
    · simp [Function.comp, h, hz]
  · simp [Heap.setField, Heap.set, ha]

theorem setField_kinds {h g : Heap} (hk : KindsAs h g) (p : Nat) (x : FieldRef) : KindsAs h (g.setField p x) := by
  intro a
  rw [← hk a]
  by_cases ha : a = p
  · simp [ha, Heap.setField, Heap.set]
  · simp [Heap.setField, Heap.set, ha]

/-- Replacing outside of lists, again and again. -/
theorem single_edits {σ : Type} {h : Heap} {p : Nat} {name : FName} {o : Option Nat} : ∀ (es : List Edit) (a : Nat)
    (w : World σ), KindsAs h w.heap → (∀ e ∈ es, ∀ b, e.node? = some b → h.assignable p name b = true) →
    (∀ e ∈ es, ∃ b, e = .replace b) → w.heap.field p name = some (.one name a) → es ≠ [] →
    Cursor.edits ⟨p, name, false, o⟩ es w =
      some { w with heap := w.heap.setField p (.one name ((es.foldl Spot.edit ⟨[], some a, []⟩).cur.getD a)) } := by
  intro es
  induction es with
  | nil => intro a w _ _ _ _ h; exact absurd rfl h
  | cons e es ih =>
    intro a w hk has hrep hfield _
    obtain ⟨b, rfl⟩ := hrep e (List.mem_cons_self ..)
    have hb := has _ (List.mem_cons_self ..) b rfl
    rw [← assignable_kinds hk] at hb
    have e1 : Cursor.edit ⟨p, name, false, o⟩ (.replace b) w =
        some { w with heap := w.heap.setField p (.one name b) } := by
      simp [Cursor.edit, Cursor.replace, hfield, hb, Cursor.idx, FieldRef.name]
    rw [Cursor.edits, e1, Option.bind_some]
    by_cases hes : es = []
    · subst hes
      simp [Cursor.edits, Spot.edit]
    · rw [ih b { w with heap := w.heap.setField p (.one name b) } (setField_kinds hk p _)
        (fun e he => has e (List.mem_cons_of_mem _ he)) (fun e he => hrep e (List.mem_cons_of_mem _ he))
        (by simp only; rw [field_setField]; simp [FieldRef.name, hfield]) hes]
      have hsome : ∀ (es : List Edit) (s : Spot) (x y : Nat), (∀ e ∈ es, ∃ b, e = .replace b) → s.cur.isSome →
          (es.foldl Spot.edit s).cur.getD x = (es.foldl Spot.edit s).cur.getD y := by
        intro es
        induction es with
        | nil => intro s x y _ hs; obtain ⟨z, hz⟩ := Option.isSome_iff_exists.1 hs; simp [hz]
        | cons e es ih =>
          intro s x y hr hs
          obtain ⟨b, rfl⟩ := hr e (List.mem_cons_self ..)
          exact ih _ x y (fun e he => hr e (List.mem_cons_of_mem _ he)) rfl
      simp only
      rw [setField_twice (by rfl), List.foldl_cons]
      rw [show Spot.edit ⟨[], some a, []⟩ (.replace b) = ⟨[], some b, []⟩ from rfl]
      rw [hsome es ⟨[], some b, []⟩ b a (fun e he => hrep e (List.mem_cons_of_mem _ he)) rfl]

theorem edit_heap {σ : Type} {p : Nat} {f : FName} {o : Option Nat} {e : Edit} {w w' : World σ} {as : List Nat}
    (hf : w.heap.field p f = some (.list f as)) (hi : 0 ≤ w.index)
    (he : Cursor.edit ⟨p, f, true, o⟩ e w = some w') :
    0 ≤ w'.index ∧ ∃ ys, w'.heap = w.heap.setField p (.list f ys) := by
  have hn : ¬ (Cursor.idx ⟨p, f, true, o⟩ w < 0) := by simp [Cursor.idx]; omega
  have hge : Cursor.idx ⟨p, f, true, o⟩ w ≥ 0 := by simp [Cursor.idx]; omega
  cases e with
  | before n =>
    simp only [Cursor.edit, Cursor.insertBefore, if_neg hn, hf] at he
    split at he
    · simp only [Option.some.injEq] at he; subst he; exact ⟨by simp only; omega, _, rfl⟩
    · cases he
  | after n =>
    simp only [Cursor.edit, Cursor.insertAfter, if_neg hn, hf] at he
    split at he
    · simp only [Option.some.injEq] at he; subst he; exact ⟨hi, _, rfl⟩
    · cases he
  | replace n =>
    simp only [Cursor.edit, Cursor.replace, hf, if_pos hge] at he
    split at he
    · split at he
      · simp only [Option.some.injEq] at he; subst he; exact ⟨hi, _, rfl⟩
      · cases he
    · cases he
  | delete =>
    simp only [Cursor.edit, Cursor.delete, if_neg hn, hf] at he
    split at he
    · simp only [Option.some.injEq] at he; subst he; exact ⟨hi, _, rfl⟩
    · cases he

theorem edits_heap {σ : Type} {p : Nat} {f : FName} {o : Option Nat} : ∀ (es : List Edit) (w w' : World σ) (as : List Nat),
    w.heap.field p f = some (.list f as) → 0 ≤ w.index → Cursor.edits ⟨p, f, true, o⟩ es w = some w' → es ≠ [] →
    ∃ ys, w'.heap = w.heap.setField p (.list f ys) := by
  intro es
  induction es with
  | nil => intro w w' as _ _ _ h; exact absurd rfl h
  | cons e es ih =>
    intro w w' as hf hi he _
    rw [Cursor.edits] at he
    obtain ⟨w1, h1, h2⟩ := Option.bind_eq_some_iff.1 he
    obtain ⟨hi1, ys, hy⟩ := edit_heap hf hi h1
    by_cases hes : es = []
    · subst hes
      simp only [Cursor.edits, Option.some.injEq] at h2
      subst h2
      exact ⟨ys, hy⟩
    · obtain ⟨zs, hz⟩ := ih w1 w' ys (by rw [hy, field_setField]; simp [FieldRef.name, hf]) hi1 h2 hes
      exact ⟨zs, by rw [hz, hy]; exact setField_twice rfl⟩

/-- What the editing `post` does at one place. -/
theorem editing_step {σ : Type} {E : Nat → List Edit} {h : Heap} {p a : Nat} {name : FName} {l : Bool} {as : List Nat}
    {w : World σ} (hk : KindsAs h w.heap)
    (hb : E a ≠ [] → Possible E h p name l a ∧ w.heap.field p name = some (spotRef l name as a) ∧
      (l = true → 0 ≤ w.index ∧ as[w.index.toNat]? = some a ∧ w.step = 1)) :
    ∃ w', editing E ⟨p, name, l, some a⟩ w = .ret true w' ∧ (l = false → w'.index = w.index ∧ w'.step = w.step) ∧
      (l = true → w.step = 1 → w'.index + w'.step = w.index + (newList E a).length) ∧
      (∀ b, b ≠ p → w'.heap b = w.heap b) ∧ w'.heap p = putAt E w.heap p name l as w.index.toNat a := by
  by_cases hr : E a = []
  · exact ⟨w, by simp [editing, hr, Cursor.edits], fun _ => ⟨rfl, rfl⟩, fun _ hs => by simp [newList_nil hr, hs],
      fun _ _ => rfl, by simp [putAt, hr]⟩
  · obtain ⟨h1, h2, h3⟩ := hb hr
    cases l with
    | false =>
      have := single_edits (σ := σ) (o := some a) (E a) a w hk h1.assignable (h1.single rfl) (by rw [h2]; rfl) hr
      refine ⟨{ w with heap := w.heap.setField p (.one name (newOne E a)) }, by simp only [editing, this, newOne],
        fun _ => ⟨rfl, rfl⟩, fun hl => (by cases hl), ?_, ?_⟩
      · intro b hbp; simp [Heap.setField, Heap.set, hbp]
      · simp [putAt, hr, spotNew]
    | true =>
      obtain ⟨h4, h5, h6⟩ := h3 rfl
      obtain ⟨hlt, hget⟩ := List.getElem?_eq_some_iff.1 h5
      have hsplit : as = as.take w.index.toNat ++ a :: as.drop (w.index.toNat + 1) := by
        conv => lhs; rw [← List.take_append_drop w.index.toNat as]
        rw [List.drop_eq_getElem_cons hlt, hget]
      have hlen : (as.take w.index.toNat).length = w.index.toNat := by rw [List.length_take]; omega
      have hat : At w.heap p name (as.take w.index.toNat) (as.drop (w.index.toNat + 1)) ⟨[], some a, []⟩ w := by
        refine ⟨?_, ?_, ?_, Frame.refl _ _ _⟩
        · rw [h2]
          simp only [spotRef, if_true, Option.toList_some, List.append_nil, List.cons_append, List.nil_append]
          rw [← hsplit]
        · simp only [List.length_nil, hlen]; omega
        · simp [h6]
      have hfield : w.heap.field p name = some (.list name as) := by rw [h2]; rfl
      obtain ⟨w', e1⟩ := edits_total (c := ⟨p, name, true, some a⟩) rfl rfl rfl (E a) _ w h1.last rfl hat
        (fun e he b hbb => by rw [assignable_kinds hk]; exact h1.assignable e he b hbb)
      obtain ⟨hat', _, _⟩ := edits_at (c := ⟨p, name, true, some a⟩) rfl rfl rfl (E a) _ w w' h1.last rfl hat e1
      obtain ⟨ys, hy⟩ := edits_heap (E a) w w' as hfield h4 e1 hr
      have hys : ys = as.take w.index.toNat ++ newList E a ++ as.drop (w.index.toNat + 1) := by
        have := hat'.list
        rw [hy, field_setField] at this
        simp only [FieldRef.name, if_true, hfield, Option.map_some, Option.some.injEq, FieldRef.list.injEq, true_and] at this
        rw [this]
        simp [newList, editResult]
      refine ⟨w', by simp only [editing, e1], fun hl => (by cases hl), fun _ _ => ?_, ?_, ?_⟩
      · rw [hat'.idx, hat'.step, hlen]
        simp only [newList, editResult, List.length_append]
        omega
      · intro b hbp; rw [hy]; simp [Heap.setField, Heap.set, hbp]
      · rw [hy, hys]; simp [putAt, hr, spotNew]

theorem rep_apply {σ : Type} {E : Nat → List Edit} {pre : Callback σ} (hpre : Quiet pre) {h : Heap} (n : Nat) :
    ∀ t : Tree, sizeOf t ≤ n → t.Good → (∀ u, Occurs t u → u.kind ∉ applyUnknownKinds) → t.ids.Nodup →
    Editable E h t → ∀ p, p ∉ t.ids →
    Rep E h p t (fun name l b => apply pre (editing E) n ⟨p, name, l, b⟩) := by
  induction n with
  | zero => intro t ht; cases t; simp at ht
  | succ n ih =>
    intro t ht hgood hknown hnd hall p hp name l as w hkinds hhas hb
    obtain ⟨u1, hu1⟩ := hpre ⟨p, name, l, some t.id⟩ w
    have hk := hknown t (.refl t)
    have hself := hhas t (.refl t)
    have hg := hgood t (.refl t)
    have htab := replace_table t.kind (Kind.mem_all _)
    rcases htab with htab | htab
    · exact absurd (by simpa using htab) hk
    cases hsteps : t.kind.apply with
    | none => rw [hsteps] at htab; cases htab
    | some sts =>
      rw [hsteps] at htab
      simp only [replaceTable, Bool.and_eq_true, List.all_eq_true, decide_eq_true_eq, List.any_eq_true, Bool.or_eq_true,
        beq_iff_eq, Bool.not_eq_true'] at htab
      obtain ⟨⟨htab1, htab2⟩, htab3⟩ := htab
      have hlists := apply_lists t.kind (Kind.mem_all _)
      rw [hsteps] at hlists
      have hndk : (t.kind.fields.map Field.name).Nodup := by
        simpa [fieldNamesDistinct] using table_names t.kind (Kind.mem_all _)
      have hndf : (t.fields.map FieldVal.name).Nodup := by rw [fitsAll_names hg.1.1]; exact hndk
      rw [Tree.ids_eq] at hnd hp
      simp only [List.nodup_cons] at hnd
      simp only [List.mem_cons, not_or] at hp
      have hflat : t.children.flatMap Tree.ids = t.fields.flatMap (fun x => x.nodes.flatMap Tree.ids) := by
        simp [Tree.children, List.flatMap_assoc]
      obtain ⟨hd1, hd2⟩ := flatMap_disjoint (hflat ▸ hnd.2)
      have hdc := (flatMap_disjoint hnd.2).1
      obtain ⟨w1, D, S, e1, e2, e3, hD, hS, hm⟩ := rep_steps (σ := σ) (E := E) (h := h) (h1 := w.heap) (i := t.id)
        (k := t.kind) (all := t.all) (fs := t.fields) hkinds (by rw [hself])
        (act := fun name l b => apply pre (editing E) n ⟨t.id, name, l, b⟩) hndf (n := n)
        (fun f ts hf => by
          cases t with
          | mk k i all fs =>
            have := list_length_lt (k := k) (i := i) (all := all) hf
            simp only [Tree.fields] at this; omega)
        (fun c hc => by
          have hlt := child_lt (t := t) hc
          exact ih c (by omega) (hgood.child hc) (fun u hu => hknown u (.child hc hu)) (hdc c hc)
            (fun u hu => hall u (.child hc hu)) t.id (fun hi => hnd.1 (List.mem_flatMap.2 ⟨c, hc, hi⟩)))
        (fun c hc v hv => hhas v (.child hc hv)) hnd.1 hd1
        (fun x hx y hy hne => hd2 x hx y hy (fun he => hne (he ▸ rfl)))
        sts
        (fun st hst => by
          obtain ⟨d, hd, ⟨hdn, hsf⟩, hlab⟩ := htab1 st hst
          obtain ⟨x, hx, hfit⟩ := (fitsAll_both hg.1.1).1 d hd
          have hname := fits_name hfit
          refine ⟨x, hx, by rw [hname, hdn], ?_, ?_⟩
          · have hfind := find_of_nodup hndf hx
            rw [hname] at hfind
            refine stepFor_kids hfind hfit hsf (hg.2.2.2 x hx) ?_
            intro hkl hxn
            rw [hg.1.2 hkl]
            constructor
            · intro hmm; exact (field_unique hndf hmm hx (by rw [hxn]; rfl)).symm
            · intro he; rw [← he]; exact hx
          · intro c hc hbb
            obtain ⟨h1, h2, h3⟩ := hall t (.refl t) x hx c hc hbb
            have hone : x.isList = false → ∃ f, x = .one f c := by
              intro hl
              cases x with
              | nil => cases hc
              | list => cases hl
              | one f d => simp only [FieldVal.nodes, List.mem_singleton] at hc; subst hc; exact ⟨f, rfl⟩
            refine ⟨⟨h1, h2, fun hl => (h3 (hone hl)).2⟩, ?_⟩
            rcases hlab with hlab | ⟨hsl, hlab⟩
            · rw [hlab, hname]
            · have := fits_kind hfit c hc
              rw [hlab] at this
              simp only [FTy.accepts, beq_iff_eq] at this
              refine absurd this.symm (h3 (hone ?_)).1
              cases x with
              | nil => rfl
              | one => rfl
              | list f ts => simp [FieldVal.fits, hsl] at hfit)
        (fun f hf => fitsAll_list hg.1.1 hndk (by
          have := hlists _ hf
          simpa using this))
        htab2 [] [] (by simp) (by simp) { w with user := u1 } ⟨by rw [hself]; simp [fieldAt], by simp⟩
      have hobj : w1.heap t.id = (w.heap t.id).edited E := by
        rw [hm.obj, hself, Obj.edited]
        simp only [List.map_map]
        congr 1
        apply List.map_congr_left
        intro x hx
        simp only [fieldAt, Function.comp]
        split
        · rfl
        · rename_i hxD
          obtain ⟨d, hd, hfit⟩ := (fitsAll_both hg.1.1).2 x hx
          rcases htab3 d hd with hu | ⟨st, hst, hsf⟩
          · rw [ref_edited_nil (hg.2.2.1 x hx (by rw [fits_name hfit]; simpa using hu))]
          · exact absurd ((hD x.name).2 (.inr ⟨st, hst, by rw [hsf, fits_name hfit]⟩)) hxD
      have hrest : ∀ a, a ∈ S ∨ a ∉ t.children.flatMap Tree.ids := by
        intro a
        by_cases ha : a ∈ t.children.flatMap Tree.ids
        · left
          rw [hflat] at ha
          obtain ⟨x, hx, hax⟩ := List.mem_flatMap.1 ha
          obtain ⟨d, hd, hfit⟩ := (fitsAll_both hg.1.1).2 x hx
          rcases htab3 d hd with hu | ⟨st, hst, hsf⟩
          · rw [hg.2.2.1 x hx (by rw [fits_name hfit]; simpa using hu)] at hax
            cases hax
          · exact (hS a).2 ⟨x, hx, (hD x.name).2 (.inr ⟨st, hst, by rw [hsf, fits_name hfit]⟩), hax⟩
        · exact .inr ha
      have hSsub : ∀ a ∈ S, a ∈ t.children.flatMap Tree.ids := by
        intro a ha
        obtain ⟨x, hx, _, hax⟩ := (hS a).1 ha
        rw [hflat]; exact List.mem_flatMap.2 ⟨x, hx, hax⟩
      have hw1 : ∀ a, w1.heap a = if a ∈ t.ids then (w.heap a).edited E else w.heap a := by
        intro a
        by_cases ha : a = t.id
        · rw [ha, hobj, if_pos (by rw [Tree.ids_eq]; exact List.mem_cons_self ..)]
        · rw [hm.rest a ha]
          have : a ∈ S ↔ a ∈ t.ids := by
            rw [Tree.ids_eq, List.mem_cons]
            constructor
            · intro h; exact .inr (hSsub a h)
            · rintro (h | h)
              · exact absurd h ha
              · exact (hrest a).resolve_right (fun h' => h' h)
          by_cases has : a ∈ S
          · rw [if_pos has, if_pos (this.1 has)]
          · rw [if_neg has, if_neg (fun h' => has (this.2 h'))]
      have hpn : p ∉ t.ids := by rw [Tree.ids_eq]; simp only [List.mem_cons, not_or]; exact hp
      have hwp : w1.heap p = w.heap p := by rw [hw1 p, if_neg hpn]
      obtain ⟨w2, e4, e7, e8, e5, e6⟩ := editing_step (E := E) (h := h) (p := p) (a := t.id) (name := name) (l := l)
        (as := as) (w := w1) (hm.kinds hkinds (by rw [hself])) (fun hbb => by
          obtain ⟨h1, h2, h3⟩ := hb hbb
          refine ⟨h1, ?_, ?_⟩
          · simp only [Heap.field, hwp]; exact h2
          · rw [e2, e3]; exact h3)
      refine ⟨w2, ?_, ?_, ?_, ?_, ?_⟩
      · have e0 : (w.heap t.id).kind.bind Kind.apply = some sts := by rw [hself]; exact hsteps
        simp only [apply, hu1, e0, e1, AOut.bind_ok, e4]
      · intro hl; rw [(e7 hl).1, (e7 hl).2, e2, e3]; exact ⟨rfl, rfl⟩
      · intro hl hs; rw [e8 hl (by rw [e3]; exact hs), e2]
      · intro a ha
        rw [← hw1 a]
        exact e5 a ha
      · simp only [e6, e2, putAt, Heap.setField, Heap.set, hwp]

/-! ### Replacements and deletions as edits -/

/-- Replacements as edits. -/
def replaceEdits (ρ : Nat → Option Nat) (a : Nat) : List Edit := match ρ a with
  | some b => [.replace b]
  | none => []

theorem newOne_replace (ρ : Nat → Option Nat) (a : Nat) : newOne (replaceEdits ρ) a = newAddr ρ a := by
  simp only [newOne, newAddr, replaceEdits]
  cases ρ a <;> rfl

theorem newList_replace (ρ : Nat → Option Nat) (a : Nat) : newList (replaceEdits ρ) a = [newAddr ρ a] := by
  simp only [newList, newAddr, replaceEdits]
  cases ρ a <;> rfl

theorem edited_replace (ρ : Nat → Option Nat) (o : Obj) : o.edited (replaceEdits ρ) = o.replaced ρ := by
  simp only [Obj.edited, Obj.replaced]
  congr 1
  apply List.map_congr_left
  intro x hx
  clear hx
  cases x with
  | nil => rfl
  | one f a => simp [FieldRef.edited, FieldRef.replaced, newOne_replace]
  | list f as =>
    simp only [FieldRef.edited, FieldRef.replaced, FieldRef.list.injEq, true_and]
    induction as with
    | nil => rfl
    | cons a as ih => rw [List.flatMap_cons, newList_replace, ih]; rfl

theorem editing_replace {σ : Type} (ρ : Nat → Option Nat) :
    (editing (replaceEdits ρ) : Callback σ) = replacing ρ := by
  funext c w
  obtain ⟨p, name, l, o⟩ := c
  cases o with
  | none => rfl
  | some a =>
    simp only [editing, replacing, replaceEdits, Option.bind_some]
    cases ρ a with
    | none => rfl
    | some b =>
      simp only [Cursor.edits, Cursor.edit]
      cases Cursor.replace ⟨p, name, l, some a⟩ b w <;> rfl

/-- Deletions as edits. -/
def deleteEdits (P : Nat → Bool) (a : Nat) : List Edit := if P a then [.delete] else []

theorem newOne_delete (P : Nat → Bool) (a : Nat) : newOne (deleteEdits P) a = a := by
  simp only [newOne, deleteEdits]
  cases P a <;> rfl

theorem newList_delete (P : Nat → Bool) (as : List Nat) :
    as.flatMap (newList (deleteEdits P)) = as.filter (fun a => !P a) := by
  induction as with
  | nil => rfl
  | cons a as ih =>
    rw [List.flatMap_cons, ih]
    cases h : P a <;> simp [newList, deleteEdits, h, editResult, Spot.edit]

/-! ### Trees -/

theorem Tree.substList_eq (R : Nat → Option Tree) (ts : List Tree) : Tree.substList R ts = ts.map (Tree.subst R) := by
  induction ts with
  | nil => rfl
  | cons t ts ih => simp [Tree.substList, ih]

theorem Tree.substFields_eq (R : Nat → Option Tree) (fs : List FieldVal) :
    Tree.substFields R fs = fs.map (FieldVal.subst R) := by
  induction fs with
  | nil => rfl
  | cons t ts ih => simp [Tree.substFields, ih]

theorem Tree.subst_id (R : Nat → Option Tree) (t : Tree) :
    (t.subst R).id = newAddr (fun a => (R a).map Tree.id) t.id := by
  cases t with
  | mk k i a fs =>
    rw [Tree.subst]
    cases hr : R i.addr with
    | none => simp [Tree.id, newAddr, hr]
    | some s => simp [Tree.id, newAddr, hr]

theorem FieldVal.subst_ref (R : Nat → Option Tree) (x : FieldVal) :
    (x.subst R).ref = x.ref.replaced (fun a => (R a).map Tree.id) := by
  cases x with
  | nil => rfl
  | one f t => simp [FieldVal.subst, FieldVal.ref, FieldRef.replaced, Tree.subst_id]
  | list f ts =>
    simp [FieldVal.subst, FieldVal.ref, FieldRef.replaced, Tree.substList_eq, Tree.subst_id, Function.comp_def]

theorem FieldVal.subst_nodes (R : Nat → Option Tree) (x : FieldVal) : (x.subst R).nodes = x.nodes.map (Tree.subst R) := by
  cases x with
  | nil => rfl
  | one f t => rfl
  | list f ts => simp [FieldVal.subst, FieldVal.nodes, Tree.substList_eq]

theorem has_subst {R : Nat → Option Tree} {h g : Heap} {t : Tree} (hh : h.Has t)
    (hg : ∀ a ∈ t.ids, g a = (h a).replaced (fun a => (R a).map Tree.id)) (hR : ∀ a ∈ t.ids, ∀ s, R a = some s → g.Has s) :
    ∀ n, ∀ u, sizeOf u ≤ n → Occurs t u → g.Has (u.subst R) := by
  intro n
  induction n with
  | zero => intro u hu; cases u; simp at hu
  | succ n ih =>
    intro u hu ho
    have hid : u.id ∈ t.ids := List.mem_map.2 ⟨u, (mem_nodes_iff _ _).2 ho, rfl⟩
    cases hr : R u.id with
    | some s =>
      have he : u.subst R = s := by
        cases u with
        | mk k i a fs => rw [Tree.subst]; simp only [Tree.id] at hr; rw [hr]
      rw [he]; exact hR _ hid s hr
    | none =>
      have he : u.subst R = .mk u.kind u.ref u.all (u.fields.map (FieldVal.subst R)) := by
        cases u with
        | mk k i a fs =>
          rw [Tree.subst]; simp only [Tree.id] at hr; rw [hr, Tree.substFields_eq]; rfl
      rw [he]
      intro v hv
      cases hv with
      | refl =>
        have e : (Tree.mk u.kind u.ref u.all (u.fields.map (FieldVal.subst R))).id = u.id := by cases u; rfl
        rw [e, hg _ hid, hh u ho, Obj.replaced]
        simp only [Tree.kind, Tree.all, Tree.fields, List.map_map]
        congr 1
        apply List.map_congr_left
        intro x _
        exact (FieldVal.subst_ref R x).symm
      | child hc hv =>
        simp only [Tree.children, Tree.fields, List.flatMap_map, FieldVal.subst_nodes] at hc
        obtain ⟨x, hx, hcx⟩ := List.mem_flatMap.1 hc
        obtain ⟨c, hcn, rfl⟩ := List.mem_map.1 hcx
        have hcu : c ∈ u.children := List.mem_flatMap.2 ⟨x, hx, hcn⟩
        have := child_lt hcu
        exact ih c (by omega) (ho.trans (.child hcu (.refl c))) v hv

/-! ### Deleting from a tree -/

theorem Tree.pruneList_eq (P : Nat → Bool) (ts : List Tree) :
    Tree.pruneList P ts = (ts.filter fun t => !P t.id).map (Tree.prune P) := by
  induction ts with
  | nil => rfl
  | cons t ts ih => cases h : P t.id <;> simp [Tree.pruneList, ih, h]

theorem Tree.pruneFields_eq (P : Nat → Bool) (fs : List FieldVal) :
    Tree.pruneFields P fs = fs.map (FieldVal.prune P) := by
  induction fs with
  | nil => rfl
  | cons t ts ih => simp [Tree.pruneFields, ih]

theorem Tree.prune_eq (P : Nat → Bool) (t : Tree) :
    t.prune P = .mk t.kind t.ref t.all (t.fields.map (FieldVal.prune P)) := by
  cases t with
  | mk k i a fs => rw [Tree.prune, Tree.pruneFields_eq]; rfl

@[simp] theorem Tree.prune_id (P : Nat → Bool) (t : Tree) : (t.prune P).id = t.id := by
  cases t; rfl

theorem FieldVal.prune_ref (P : Nat → Bool) (x : FieldVal) : (x.prune P).ref = x.ref.edited (deleteEdits P) := by
  cases x with
  | nil => rfl
  | one f t => simp [FieldVal.prune, FieldVal.ref, FieldRef.edited, newOne_delete]
  | list f ts =>
    simp [FieldVal.prune, FieldVal.ref, FieldRef.edited, Tree.pruneList_eq, newList_delete, Function.comp_def,
      List.filter_map]

theorem FieldVal.prune_nodes (P : Nat → Bool) (x : FieldVal) :
    ∀ c ∈ (x.prune P).nodes, ∃ d ∈ x.nodes, c = d.prune P := by
  intro c hc
  cases x with
  | nil => cases hc
  | one f t =>
    simp only [FieldVal.prune, FieldVal.nodes, List.mem_singleton] at hc
    exact ⟨t, by simp [FieldVal.nodes], hc⟩
  | list f ts =>
    simp only [FieldVal.prune, FieldVal.nodes, Tree.pruneList_eq] at hc
    obtain ⟨d, hd, rfl⟩ := List.mem_map.1 hc
    exact ⟨d, (List.mem_filter.1 hd).1, rfl⟩

theorem has_prune {P : Nat → Bool} {h g : Heap} {t : Tree} (hh : h.Has t)
    (hg : ∀ a ∈ t.ids, g a = (h a).edited (deleteEdits P)) :
    ∀ n, ∀ u, sizeOf u ≤ n → Occurs t u → g.Has (u.prune P) := by
  intro n
  induction n with
  | zero => intro u hu; cases u; simp at hu
  | succ n ih =>
    intro u hu ho
    have hid : u.id ∈ t.ids := List.mem_map.2 ⟨u, (mem_nodes_iff _ _).2 ho, rfl⟩
    intro v hv
    cases hv with
    | refl =>
      rw [Tree.prune_id, hg _ hid, hh u ho, Obj.edited, Tree.prune_eq]
      simp only [Tree.kind, Tree.all, Tree.fields, List.map_map]
      congr 1
      apply List.map_congr_left
      intro x _
      exact (FieldVal.prune_ref P x).symm
    | child hc hv =>
      rw [Tree.prune_eq] at hc
      simp only [Tree.children, Tree.fields, List.flatMap_map] at hc
      obtain ⟨x, hx, hcx⟩ := List.mem_flatMap.1 hc
      obtain ⟨c, hcn, rfl⟩ := FieldVal.prune_nodes P x _ hcx
      have hcu : c ∈ u.children := List.mem_flatMap.2 ⟨x, hx, hcn⟩
      have := child_lt hcu
      exact ih c (by omega) (ho.trans (.child hcu (.refl c))) v hv

end Verif
