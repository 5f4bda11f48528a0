/-
Lemmas about `walk`: an unfolding equation in terms of the list of children that the table names.
-/
import Verif.Spec.Walk
set_option linter.unusedSimpArgs false

namespace Verif

/-- The children that a statement of `Walk` visits. -/
def WStep.kids (all : Bool) (fs : List FieldVal) : WStep → List (Option Tree)
  | .one f => match fs.find? (fun x => x.name == f) with
    | some (.one _ t) => [some t]
    | _ => [none]
  | .opt f => match fs.find? (fun x => x.name == f) with
    | some (.one _ t) => [some t]
    | _ => []
  | .list f => match fs.find? (fun x => x.name == f) with
    | some (.list _ ts) => ts.map some
    | _ => []
  | .unlessAll f => if all then [] else match fs.find? (fun x => x.name == f) with
    | some (.one _ t) => [some t]
    | _ => [none]

/-- The children that `Walk` visits, in order; `none` if it has no case for the node. -/
def Tree.walkKids (t : Tree) : Option (List (Option Tree)) :=
  t.kind.walk.map fun steps => steps.flatMap (WStep.kids t.all t.fields)

def walkO {V σ : Type} (visit : V → Option Tree → σ → Option V × σ) (v : V) : Option Tree → σ → Out σ
  | none => walkNil visit v
  | some t => walk visit v t

theorem Out.bind_assoc {σ : Type} (x : Out σ) (f g : σ → Out σ) :
    (x.bind f).bind g = x.bind fun s => (f s).bind g := by
  cases x <;> rfl

@[simp] theorem Out.bind_ok {σ : Type} (s : σ) (f : σ → Out σ) : (Out.ok s).bind f = f s := rfl
@[simp] theorem Out.bind_panic {σ : Type} (s : σ) (f : σ → Out σ) : (Out.panic s).bind f = .panic s := rfl
@[simp] theorem Out.bind_id {σ : Type} (x : Out σ) : x.bind Out.ok = x := by cases x <;> rfl

theorem seqAll_append {σ : Type} (xs ys : List (σ → Out σ)) (s : σ) :
    seqAll (xs ++ ys) s = (seqAll xs s).bind (seqAll ys) := by
  induction xs generalizing s with
  | nil => rfl
  | cons x xs ih =>
    simp only [List.cons_append, seqAll, Out.bind_assoc]
    congr 1; funext s'; exact ih s'

theorem seqAll_one {σ : Type} (a : σ → Out σ) : seqAll [a] = a := by
  funext s; simp only [seqAll]
  show (a s).bind (fun s => Out.ok s) = a s
  cases a s <;> rfl

theorem walkFields_find {V σ : Type} (visit : V → Option Tree → σ → Option V × σ) (v : V) (f : FName)
    (fs : List FieldVal) :
    (walkFields visit v fs).find? (fun x => x.name == f) =
      (fs.find? (fun x => x.name == f)).map (walkField visit v) := by
  induction fs with
  | nil => rfl
  | cons x xs ih =>
    have hn : (walkField visit v x).name = x.name := by cases x <;> rfl
    simp only [walkFields, List.find?_cons, hn]
    cases x.name == f <;> simp [ih]

theorem walkList_eq {V σ : Type} (visit : V → Option Tree → σ → Option V × σ) (v : V) (ts : List Tree) :
    walkList visit v ts = (ts.map some).map (walkO visit v) := by
  induction ts with
  | nil => rfl
  | cons t ts ih => simp [walkList, ih, walkO]

theorem act_eq {V σ : Type} (visit : V → Option Tree → σ → Option V × σ) (v : V) (all : Bool)
    (fs : List FieldVal) (st : WStep) :
    WStep.act (walkNil visit v) all (walkFields visit v fs) st =
      seqAll ((st.kids all fs).map (walkO visit v)) := by
  cases st with
  | one f =>
    simp only [WStep.act, WStep.kids, walkFields_find]
    cases fs.find? (fun x => x.name == f) with
    | none => simp [walkO, seqAll_one]
    | some x => cases x <;> simp [walkField, walkO, seqAll_one]
  | opt f =>
    simp only [WStep.act, WStep.kids, walkFields_find]
    cases fs.find? (fun x => x.name == f) with
    | none => rfl
    | some x => cases x <;> simp [walkField, walkO, seqAll_one] <;> rfl
  | list f =>
    simp only [WStep.act, WStep.kids, walkFields_find]
    cases fs.find? (fun x => x.name == f) with
    | none => rfl
    | some x => cases x <;> simp [walkField, walkList_eq] <;> rfl
  | unlessAll f =>
    simp only [WStep.act, WStep.kids, walkFields_find]
    cases all with
    | true => rfl
    | false =>
      cases fs.find? (fun x => x.name == f) with
      | none => simp [walkO, seqAll_one]
      | some x => cases x <;> simp [walkField, walkO, seqAll_one]

theorem seqAll_flatMap {α σ : Type} (g : α → List (σ → Out σ)) (xs : List α) (s : σ) :
    seqAll (xs.map fun x => seqAll (g x)) s = seqAll (xs.flatMap g) s := by
  induction xs generalizing s with
  | nil => rfl
  | cons x xs ih =>
    simp only [List.map_cons, List.flatMap_cons, seqAll_append, seqAll]
    congr 1; funext s'; exact ih s'

/-- `Walk` in terms of its list of children. -/
theorem walk_eq {V σ : Type} (visit : V → Option Tree → σ → Option V × σ) (v : V) (t : Tree) (s : σ) :
    walk visit v t s =
      if (visit v (some t) s).1.isSome then
        match t.walkKids with
        | none => .panic (visit v (some t) s).2
        | some ks => (seqAll (ks.map (walkO visit v)) (visit v (some t) s).2).bind fun s2 =>
            .ok (visit v none s2).2
      else .ok (visit v (some t) s).2 := by
  cases t with
  | mk k i all fs =>
    simp only [walk, Tree.walkKids, Tree.kind, Tree.all, Tree.fields]
    split
    · cases hk : k.walk with
      | none => rfl
      | some steps =>
        simp only [Option.map_some]
        congr 1
        rw [show (steps.map (WStep.act (walkNil visit v) all (walkFields visit v fs))) =
          steps.map (fun st => seqAll ((st.kids all fs).map (walkO visit v))) from by
            apply List.map_congr_left; intro st _; exact act_eq visit v all fs st]
        rw [seqAll_flatMap, List.map_flatMap]
    · rfl

/-! Children are smaller -/

theorem sizeOf_mem_fields {k : Kind} {i : NodeRef} {a : Bool} {fs : List FieldVal} {x : FieldVal} (h : x ∈ fs) :
    sizeOf x < sizeOf (Tree.mk k i a fs) := by
  have := List.sizeOf_lt_of_mem h
  simp only [Tree.mk.sizeOf_spec]; omega

theorem sizeOf_mem_nodes {x : FieldVal} {t : Tree} (h : t ∈ x.nodes) : sizeOf t < sizeOf x := by
  cases x with
  | nil => cases h
  | one f u => simp only [FieldVal.nodes, List.mem_singleton] at h; subst h; simp; omega
  | list f ts =>
    have := List.sizeOf_lt_of_mem (show t ∈ ts from h)
    simp only [FieldVal.list.sizeOf_spec]; omega

theorem child_lt {t c : Tree} (h : c ∈ t.children) : sizeOf c < sizeOf t := by
  cases t with
  | mk k i a fs =>
    simp only [Tree.children, Tree.fields, List.mem_flatMap] at h
    obtain ⟨x, hx, hc⟩ := h
    exact Nat.lt_trans (sizeOf_mem_nodes hc) (sizeOf_mem_fields hx)

theorem step_kids_mem {all : Bool} {fs : List FieldVal} {st : WStep} {c : Tree}
    (h : some c ∈ st.kids all fs) : c ∈ fs.flatMap FieldVal.nodes := by
  have key : ∀ f, (match fs.find? (fun x => x.name == f) with
      | some x => c ∈ x.nodes | none => False) → c ∈ fs.flatMap FieldVal.nodes := by
    intro f hf
    cases hx : fs.find? (fun x => x.name == f) with
    | none => rw [hx] at hf; exact hf.elim
    | some x =>
      rw [hx] at hf
      exact List.mem_flatMap.2 ⟨x, List.mem_of_find?_eq_some hx, hf⟩
  cases st with
  | one f =>
    apply key f
    simp only [WStep.kids] at h
    cases hx : fs.find? (fun x => x.name == f) with
    | none => simp [hx] at h
    | some x => cases x <;> simp [hx, FieldVal.nodes] at h ⊢ <;> assumption
  | opt f =>
    apply key f
    simp only [WStep.kids] at h
    cases hx : fs.find? (fun x => x.name == f) with
    | none => simp [hx] at h
    | some x => cases x <;> simp [hx, FieldVal.nodes] at h ⊢ <;> assumption
  | list f =>
    apply key f
    simp only [WStep.kids] at h
    cases hx : fs.find? (fun x => x.name == f) with
    | none => simp [hx] at h
    | some x => cases x <;> simp [hx, FieldVal.nodes] at h ⊢ <;> assumption
  | unlessAll f =>
    apply key f
    cases all with
    | true => simp [WStep.kids] at h
    | false =>
      simp only [WStep.kids] at h
      cases hx : fs.find? (fun x => x.name == f) with
      | none => simp [hx] at h
      | some x => cases x <;> simp [hx, FieldVal.nodes] at h ⊢ <;> assumption

/-- The children that `Walk` visits are children. -/
theorem walkKids_sub {t c : Tree} {ks : List (Option Tree)} (h : t.walkKids = some ks) (hc : some c ∈ ks) :
    c ∈ t.children := by
  simp only [Tree.walkKids, Option.map_eq_some_iff] at h
  obtain ⟨steps, _, rfl⟩ := h
  obtain ⟨st, _, hst⟩ := List.mem_flatMap.1 hc
  exact step_kids_mem hst

/-! The calls form a traversal -/

/-- `calls` is a record of the calls of `visit v`. -/
def Records {V τ : Type} (visit : V → Option Tree → τ → Option V × τ) (v : V)
    (calls : τ → List (Option Tree × Bool)) : Prop :=
  ∀ n s, calls (visit v n s).2 = calls s ++ [(n, (visit v n s).1.isSome)]

theorem traversal_aux {V τ : Type} {visit : V → Option Tree → τ → Option V × τ} {v : V}
    {calls : τ → List (Option Tree × Bool)} (hr : Records visit v calls) (n : Nat) :
    ∀ (ks : List (Option Tree)), (∀ c, some c ∈ ks → sizeOf c < n) → ∀ s s',
      seqAll (ks.map (walkO visit v)) s = .ok s' →
      ∃ l, calls s' = calls s ++ l ∧ Traversal Tree.walkKids ks l := by
  induction n with
  | zero =>
    intro ks hk
    induction ks with
    | nil => intro s s' h; cases h; exact ⟨[], by simp, .done⟩
    | cons k ks ih =>
      intro s s' h
      cases k with
      | some c => exact absurd (hk c (List.mem_cons_self ..)) (by omega)
      | none =>
        simp only [List.map_cons, seqAll, walkO, walkNil] at h
        have hc := hr none s
        cases hv : (visit v none s).1 with
        | some v' => simp [hv] at h
        | none =>
          simp [hv] at h hc
          obtain ⟨l, hl, ht⟩ := ih (fun c hc => hk c (List.mem_cons_of_mem _ hc)) _ _ h
          exact ⟨(none, false) :: l, by rw [hl, hc]; simp, .nil ht⟩
  | succ n ihn =>
    intro ks hk
    induction ks with
    | nil => intro s s' h; cases h; exact ⟨[], by simp, .done⟩
    | cons k ks ih =>
      intro s s' h
      have ih := ih (fun c hc => hk c (List.mem_cons_of_mem _ hc))
      cases k with
      | none =>
        simp only [List.map_cons, seqAll, walkO, walkNil] at h
        have hc := hr none s
        cases hv : (visit v none s).1 with
        | some v' => simp [hv] at h
        | none =>
          simp [hv] at h hc
          obtain ⟨l, hl, ht⟩ := ih _ _ h
          exact ⟨(none, false) :: l, by rw [hl, hc]; simp, .nil ht⟩
      | some t =>
        simp only [List.map_cons, seqAll, walkO, walk_eq] at h
        have hc := hr (some t) s
        cases hv : (visit v (some t) s).1 with
        | none =>
          simp [hv] at h hc
          obtain ⟨l, hl, ht⟩ := ih _ _ h
          exact ⟨(some t, false) :: l, by rw [hl, hc]; simp, .pruned ht⟩
        | some v' =>
          simp only [hv, Option.isSome_some, if_true] at h hc
          cases hks : t.walkKids with
          | none => simp [hks] at h
          | some ks' =>
            simp only [hks] at h
            cases h1 : seqAll (ks'.map (walkO visit v)) (visit v (some t) s).2 with
            | panic s1 => simp [h1] at h
            | ok s1 =>
              simp only [h1, Out.bind_ok] at h
              have hlt := hk t (List.mem_cons_self ..)
              obtain ⟨l1, hl1, ht1⟩ := ihn ks' (fun c hc =>
                Nat.lt_of_lt_of_le (child_lt (walkKids_sub hks hc)) (by omega)) _ _ h1
              have hc2 := hr none s1
              obtain ⟨l2, hl2, ht2⟩ := ih _ _ h
              exact ⟨_, by rw [hl2, hc2, hl1, hc]; simp; rfl, .visited hks ht1 ht2⟩

theorem walk_traversal {V τ : Type} {visit : V → Option Tree → τ → Option V × τ} {v : V}
    {calls : τ → List (Option Tree × Bool)} (hr : Records visit v calls) {t : Tree} {s s' : τ}
    (h : walk visit v t s = .ok s') :
    ∃ l, calls s' = calls s ++ l ∧ Traversal Tree.walkKids [some t] l :=
  traversal_aux hr (sizeOf t + 1) [some t] (by intro c hc; simp at hc; subst hc; omega) s s'
    (by simp only [List.map_cons, List.map_nil, seqAll_one, walkO]; exact h)

theorem records_loggedFn {σ : Type} (f : Option Tree → σ → Bool × σ) :
    Records (inspectorVisit (loggedFn f)) () (fun s => s.2) := by
  intro n s
  simp only [inspectorVisit, loggedFn]
  by_cases h : (f n s.1).1 = true <;> simp [h]

theorem records_logged {V σ : Type} (visit : V → Option Tree → σ → Option V × σ) (v : V) :
    Records (logged visit) v (fun s => s.2.map (fun x => x.2)) := by
  intro n s
  simp [logged]

/-! The table of `Walk` against the declarations of the structs -/

/-- A statement of `Walk` handles a field completely. -/
def stepFor (k : Kind) (d : Field) : WStep → Bool
  | .list f => f == d.name && d.slice
  | .opt f => f == d.name && !d.slice
  | .one f => f == d.name && !d.slice &&
      (!optionalFields.contains (k, f) || uncheckedFields.contains (k, f))
  | .unlessAll f => f == d.name && !d.slice && k == .LimitExpr && f == .LimitValue

/-- The statements of `Walk` handle the fields in order, leaving out `unwalkedFields`. -/
def stepsFor (k : Kind) : List Field → List WStep → Bool
  | [], [] => true
  | [], _ :: _ => false
  | d :: ds, sts =>
    if unwalkedFields.contains (k, d.name) then stepsFor k ds sts
    else match sts with
      | st :: sts => stepFor k d st && stepsFor k ds sts
      | [] => false

def fieldNamesDistinct (k : Kind) : Bool := decide (k.fields.map Field.name).Nodup

theorem Kind.mem_all (k : Kind) : k ∈ Kind.all := by cases k <;> decide

theorem table_names : ∀ k ∈ Kind.all, fieldNamesDistinct k = true := by decide +kernel

/-- Every node type except `unknownKinds` and `reorderedKinds` is walked in the order of its fields. -/
theorem table_steps : ∀ k ∈ Kind.all, unknownKinds.contains k = true ∨ reorderedKinds.contains k = true ∨
    (match k.walk with | some sts => stepsFor k k.fields sts | none => false) = true := by decide +kernel

theorem fits_name {k : Kind} {d : Field} {x : FieldVal} (h : x.fits k d = true) : x.name = d.name := by
  cases x <;> simp [FieldVal.fits, FieldVal.name] at h ⊢ <;> simp_all

theorem fitsAll_names {k : Kind} : ∀ {ds : List Field} {fs : List FieldVal}, fitsAll k ds fs = true →
    fs.map FieldVal.name = ds.map Field.name := by
  intro ds
  induction ds with
  | nil => intro fs h; cases fs with
    | nil => rfl
    | cons => simp [fitsAll] at h
  | cons d ds ih => intro fs h; cases fs with
    | nil => simp [fitsAll] at h
    | cons x xs =>
      simp only [fitsAll, Bool.and_eq_true] at h
      simp [fits_name h.1, ih h.2]

theorem find_of_nodup {fs : List FieldVal} (hn : (fs.map FieldVal.name).Nodup) {x : FieldVal} (hx : x ∈ fs) :
    fs.find? (fun y => y.name == x.name) = some x := by
  induction fs with
  | nil => cases hx
  | cons y ys ih =>
    simp only [List.map_cons, List.nodup_cons] at hn
    rcases List.mem_cons.1 hx with rfl | hx
    · simp
    · have : (y.name == x.name) = false := by
        rw [beq_eq_false_iff_ne]
        intro he
        exact hn.1 (he ▸ List.mem_map_of_mem hx)
      simp [List.find?_cons, this, ih hn.2 hx]

/-- A step that handles a field visits exactly the nodes in it. -/
theorem stepFor_kids {k : Kind} {all : Bool} {fs : List FieldVal} {d : Field} {x : FieldVal} {st : WStep}
    (hfind : fs.find? (fun y => y.name == d.name) = some x) (hfit : x.fits k d = true)
    (hst : stepFor k d st = true)
    (hreq : (k, x.name) ∈ uncheckedFields → x.nodes ≠ [])
    (hlim : k = .LimitExpr → x.name = .LimitValue → (all = true ↔ x = .nil .LimitValue)) :
    st.kids all fs = x.nodes.map some := by
  cases st with
  | list f =>
    simp only [stepFor, Bool.and_eq_true, beq_iff_eq] at hst
    cases x <;> simp_all [FieldVal.fits, FieldVal.nodes, WStep.kids]
  | opt f =>
    simp only [stepFor, Bool.and_eq_true, beq_iff_eq] at hst
    cases x <;> simp_all [FieldVal.fits, FieldVal.nodes, WStep.kids]
  | one f =>
    simp only [stepFor, Bool.and_eq_true, beq_iff_eq, Bool.or_eq_true] at hst
    cases x with
    | one g t => simp_all [FieldVal.fits, FieldVal.nodes, WStep.kids]
    | list g t => simp_all [FieldVal.fits, FieldVal.nodes, WStep.kids]
    | nil g =>
      simp only [FieldVal.fits, Bool.and_eq_true, beq_iff_eq] at hfit
      obtain ⟨⟨hf, _⟩, ho⟩ := hst
      rw [hf, ← hfit.1.1] at ho
      rcases ho with ho | ho
      · rw [hfit.2] at ho; simp at ho
      · exact absurd rfl (hreq (by simpa [FieldVal.name] using ho))
  | unlessAll f =>
    simp only [stepFor, Bool.and_eq_true, beq_iff_eq] at hst
    obtain ⟨⟨⟨h1, h2⟩, h3⟩, h4⟩ := hst
    have hl := hlim h3 (by rw [fits_name hfit, ← h1, h4])
    cases x with
    | one g t =>
      have : all = false := by
        cases all with
        | false => rfl
        | true => exact absurd (hl.1 rfl) (by simp)
      simp_all [FieldVal.fits, FieldVal.nodes, WStep.kids]
    | list g t => simp_all [FieldVal.fits, FieldVal.nodes, WStep.kids]
    | nil g =>
      have : g = FName.LimitValue := by
        simp only [FieldVal.fits, Bool.and_eq_true, beq_iff_eq] at hfit
        rw [hfit.1.1, ← h1, h4]
      subst this
      have : all = true := hl.2 rfl
      subst this
      simp [WStep.kids, FieldVal.nodes]

theorem stepsFor_kids {k : Kind} {all : Bool} {fs : List FieldVal} (hn : (fs.map FieldVal.name).Nodup)
    (hun : ∀ x ∈ fs, (k, x.name) ∈ unwalkedFields → x.nodes = [])
    (hreq : ∀ x ∈ fs, (k, x.name) ∈ uncheckedFields → x.nodes ≠ [])
    (hlim : k = .LimitExpr → (all = true ↔ FieldVal.nil .LimitValue ∈ fs)) :
    ∀ (ds : List Field) (xs : List FieldVal) (sts : List WStep), xs ⊆ fs → fitsAll k ds xs = true →
      stepsFor k ds sts = true →
      sts.flatMap (WStep.kids all fs) = (xs.flatMap FieldVal.nodes).map some := by
  intro ds
  induction ds with
  | nil =>
    intro xs sts _ hf hs
    cases xs with
    | cons => simp [fitsAll] at hf
    | nil => cases sts with
      | nil => rfl
      | cons => simp [stepsFor] at hs
  | cons d ds ih =>
    intro xs sts hsub hf hs
    cases xs with
    | nil => simp [fitsAll] at hf
    | cons x xs =>
      simp only [fitsAll, Bool.and_eq_true] at hf
      have hx : x ∈ fs := hsub (List.mem_cons_self ..)
      have hname := fits_name hf.1
      have hsub' : xs ⊆ fs := fun y hy => hsub (List.mem_cons_of_mem _ hy)
      simp only [stepsFor] at hs
      split at hs
      · rename_i hu
        have : x.nodes = [] := hun x hx (by rw [hname]; simpa using hu)
        simp [this, ih xs sts hsub' hf.2 hs]
      · cases sts with
        | nil => simp at hs
        | cons st sts =>
          simp only [Bool.and_eq_true] at hs
          have hfind := find_of_nodup hn hx
          rw [hname] at hfind
          rw [List.flatMap_cons, List.flatMap_cons, List.map_append, ih xs sts hsub' hf.2 hs.2,
            stepFor_kids hfind hf.1 hs.1 (hreq x hx)]
          intro hk hxn
          rw [hlim hk]
          constructor
          · intro hm
            have h1 := find_of_nodup hn hm
            rw [show FieldVal.name (.nil FName.LimitValue) = d.name from by rw [← hname, hxn]; rfl, hfind] at h1
            exact Option.some.inj h1
          · intro he; rw [← he]; exact hx

theorem walkKids_ordered {t : Tree} (hw : t.WellTyped) (hr : t.Regular) (ho : t.kind ∉ reorderedKinds) :
    t.walkKids = some (t.children.map some) := by
  have hn : (t.fields.map FieldVal.name).Nodup := by
    rw [fitsAll_names hw.1]
    simpa [fieldNamesDistinct] using table_names t.kind (Kind.mem_all _)
  have ht := table_steps t.kind (Kind.mem_all _)
  rcases ht with ht | ht | ht
  · exact absurd (by simpa using ht) hr.1
  · exact absurd (by simpa using ht) ho
  · simp only [Tree.walkKids]
    cases hk : t.kind.walk with
    | none => rw [hk] at ht; simp at ht
    | some sts =>
      rw [hk] at ht
      simp only [Option.map_some, Option.some.injEq]
      exact stepsFor_kids hn hr.2.1 hr.2.2 hw.2 _ _ _ (fun _ h => h) hw.1 ht

theorem fitsAll_two {k : Kind} {d1 d2 : Field} {fs : List FieldVal} (h : fitsAll k [d1, d2] fs = true) :
    ∃ x y, fs = [x, y] ∧ x.fits k d1 = true ∧ y.fits k d2 = true := by
  match fs, h with
  | [x, y], h => simp only [fitsAll, Bool.and_eq_true] at h; exact ⟨x, y, rfl, h.1, h.2.1⟩
  | [], h => simp [fitsAll] at h
  | [_], h => simp [fitsAll] at h
  | _ :: _ :: _ :: _, h => simp [fitsAll] at h

theorem fits_single {k : Kind} {f : FName} {ty : FTy} {x : FieldVal}
    (h : x.fits k ⟨f, false, ty⟩ = true) (ho : optionalFields.contains (k, f) = false) :
    ∃ t, x = .one f t := by
  cases x with
  | nil g =>
    simp only [FieldVal.fits, Bool.and_eq_true, beq_iff_eq] at h
    rw [h.1.1, ho] at h; simp at h
  | one g t => simp only [FieldVal.fits, Bool.and_eq_true, beq_iff_eq] at h; exact ⟨t, by rw [h.1.1]⟩
  | list g t => simp [FieldVal.fits] at h

/-- The children that `Walk` visits are all the children; the order is that of the fields except for
`reorderedKinds`. -/
theorem walkKids_perm {t : Tree} (hw : t.WellTyped) (hr : t.Regular) :
    ∃ ks : List Tree, t.walkKids = some (ks.map some) ∧ ks.Perm t.children := by
  by_cases ho : t.kind ∈ reorderedKinds
  · cases t with
    | mk k i all fs =>
      simp only [reorderedKinds, List.mem_cons, List.not_mem_nil, or_false, Tree.kind] at ho
      rcases ho with rfl | rfl
      · obtain ⟨x, y, h, hx, hy⟩ := fitsAll_two hw.1
        obtain ⟨a, rfl⟩ := fits_single hx rfl
        obtain ⟨b, rfl⟩ := fits_single hy rfl
        simp only [Tree.fields] at h; subst h
        exact ⟨[b, a], rfl, List.Perm.swap ..⟩
      · obtain ⟨x, y, h, hx, hy⟩ := fitsAll_two hw.1
        obtain ⟨a, rfl⟩ := fits_single hx rfl
        obtain ⟨b, rfl⟩ := fits_single hy rfl
        simp only [Tree.fields] at h; subst h
        exact ⟨[b, a], rfl, List.Perm.swap ..⟩
  · exact ⟨_, walkKids_ordered hw hr ho, List.Perm.refl _⟩

/-! Visits whose answer depends on the node only -/

theorem Tree.nodesList_eq (ts : List Tree) : Tree.nodesList ts = ts.flatMap Tree.nodes := by
  induction ts with
  | nil => rfl
  | cons t ts ih => simp [Tree.nodesList, ih]

theorem Tree.nodesFields_eq (fs : List FieldVal) :
    Tree.nodesFields fs = (fs.flatMap FieldVal.nodes).flatMap Tree.nodes := by
  induction fs with
  | nil => rfl
  | cons x xs ih =>
    cases x <;> simp [Tree.nodesFields, Tree.nodesField, FieldVal.nodes, ih, Tree.nodesList_eq]

theorem Tree.nodes_eq (t : Tree) : t.nodes = t :: t.children.flatMap Tree.nodes := by
  cases t with
  | mk k i a fs => simp [Tree.nodes, Tree.nodesFields_eq, Tree.children, Tree.fields]

theorem Occurs.trans {t u w : Tree} (h1 : Occurs t u) (h2 : Occurs u w) : Occurs t w := by
  induction h1 with
  | refl => exact h2
  | child hc _ ih => exact .child hc (ih h2)

/-- The nodes of a tree are those that occur in it. -/
theorem mem_nodes_iff (t u : Tree) : u ∈ t.nodes ↔ Occurs t u := by
  constructor
  · intro h
    induction hn : sizeOf t using Nat.strongRecOn generalizing t with
    | ind n ih =>
      subst hn
      rw [Tree.nodes_eq] at h
      rcases List.mem_cons.1 h with rfl | h
      · exact .refl _
      · obtain ⟨c, hc, hu⟩ := List.mem_flatMap.1 h
        exact .child hc (ih _ (child_lt hc) c hu rfl)
  · intro h
    induction h with
    | refl t => rw [Tree.nodes_eq]; exact List.mem_cons_self ..
    | child hc _ ih =>
      rw [Tree.nodes_eq]
      exact List.mem_cons_of_mem _ (List.mem_flatMap.2 ⟨_, hc, ih⟩)

theorem Tree.Good.child {t c : Tree} (h : t.Good) (hc : c ∈ t.children) : c.Good :=
  fun u hu => h u (.child hc hu)

/-- `Pruned`, with the children in the order of `Walk`. -/
inductive PrunedW (g : Tree → Bool) : List Tree → List (Option Tree) → Prop where
  | done : PrunedW g [] []
  | reject {t rest l} : g t = false → PrunedW g rest l → PrunedW g (t :: rest) (some t :: l)
  | accept {t rest ks l1 l2} : g t = true → t.walkKids = some (ks.map some) → ks.Perm t.children →
      PrunedW g ks l1 → PrunedW g rest l2 → PrunedW g (t :: rest) (some t :: (l1 ++ none :: l2))

theorem pruned_aux {V τ : Type} {visit : V → Option Tree → τ → Option V × τ} {v : V}
    {calls : τ → List (Option Tree × Bool)} (hr : Records visit v calls) {g : Tree → Bool}
    (hg : ∀ t s, (visit v (some t) s).1.isSome = g t) (n : Nat) :
    ∀ (ks : List Tree), (∀ c ∈ ks, sizeOf c < n) → (∀ c ∈ ks, c.Good) → ∀ s,
      ∃ s' l, seqAll ((ks.map some).map (walkO visit v)) s = .ok s' ∧ calls s' = calls s ++ l ∧
        PrunedW g ks (l.map Prod.fst) := by
  induction n with
  | zero =>
    intro ks hk _ s
    cases ks with
    | nil => exact ⟨s, [], rfl, by simp, .done⟩
    | cons k ks => exact absurd (hk k (List.mem_cons_self ..)) (by omega)
  | succ n ihn =>
    intro ks hk hgood
    induction ks with
    | nil => intro s; exact ⟨s, [], rfl, by simp, .done⟩
    | cons t ks ih =>
      intro s
      have ih := ih (fun c hc => hk c (List.mem_cons_of_mem _ hc)) (fun c hc => hgood c (List.mem_cons_of_mem _ hc))
      simp only [List.map_cons, seqAll, walkO, walk_eq]
      have hc := hr (some t) s
      have hgt := hg t s
      cases hv : (visit v (some t) s).1.isSome with
      | false =>
        rw [hv] at hc hgt
        obtain ⟨s', l, h1, h2, h3⟩ := ih (visit v (some t) s).2
        refine ⟨s', (some t, false) :: l, ?_, by rw [h2, hc]; simp, ?_⟩
        · simp only [Bool.false_eq_true, if_false, Out.bind_ok]
          exact h1
        · exact .reject hgt.symm h3
      | true =>
        rw [hv] at hc hgt
        have htg := hgood t (List.mem_cons_self ..)
        obtain ⟨ks', hks, hperm⟩ := walkKids_perm (htg t (.refl t)).1 (htg t (.refl t)).2
        have hlt := hk t (List.mem_cons_self ..)
        obtain ⟨s1, l1, h11, h12, h13⟩ := ihn ks'
          (fun c hc => Nat.lt_of_lt_of_le (child_lt (hperm.mem_iff.1 hc)) (by omega))
          (fun c hc => htg.child (hperm.mem_iff.1 hc)) (visit v (some t) s).2
        obtain ⟨s2, l2, h21, h22, h23⟩ := ih (visit v none s1).2
        refine ⟨s2, (some t, true) :: (l1 ++ (none, (visit v none s1).1.isSome) :: l2), ?_, ?_, ?_⟩
        · simp only [if_true, hks, h11, Out.bind_ok]
          exact h21
        · rw [h22, hr none s1, h12, hc]; simp
        · simp only [List.map_cons, List.map_append]
          exact .accept hgt.symm hks hperm h13 h23

theorem prunedW_perm {ks : List Tree} {l : List (Option Tree)} (h : PrunedW (fun _ => true) ks l) :
    (l.filterMap id).Perm (ks.flatMap Tree.nodes) := by
  induction h with
  | done => exact .nil
  | reject h => cases h
  | accept _ _ hp _ _ ih1 ih2 =>
    rename_i t rest ks l1 l2 _ _ _ _
    simp only [List.filterMap_cons, id, List.filterMap_append, List.flatMap_cons, Tree.nodes_eq t,
      List.cons_append]
    exact .cons _ (.append (ih1.trans (hp.flatMap_right _)) ih2)

theorem prunedW_ordered {g : Tree → Bool} {ks : List Tree} {l : List (Option Tree)} (h : PrunedW g ks l)
    (hg : ∀ c ∈ ks, c.Good) (ho : ∀ c ∈ ks, ∀ u, Occurs c u → u.kind ∉ reorderedKinds) : Pruned g ks l := by
  induction h with
  | done => exact .done
  | reject hf _ ih =>
    exact .reject hf (ih (fun c hc => hg c (List.mem_cons_of_mem _ hc))
      (fun c hc => ho c (List.mem_cons_of_mem _ hc)))
  | accept ht hk hp _ _ ih1 ih2 =>
    rename_i t rest ks l1 l2 _ _
    have htg := hg t (List.mem_cons_self ..)
    have hord := walkKids_ordered (htg t (.refl t)).1 (htg t (.refl t)).2
      (ho t (List.mem_cons_self ..) t (.refl t))
    have he : ks = t.children := by
      rw [hk] at hord
      have := Option.some.inj hord
      exact (List.map_inj_right (fun _ _ h => Option.some.inj h)).1 this
    subst he
    exact .accept ht (ih1 (fun c hc => htg.child hc)
        (fun c hc u hu => ho t (List.mem_cons_self ..) u (.child hc hu)))
      (ih2 (fun c hc => hg c (List.mem_cons_of_mem _ hc)) (fun c hc => ho c (List.mem_cons_of_mem _ hc)))

theorem traversal_ordered {ks : List (Option Tree)} {l : List (Option Tree × Bool)}
    (h : Traversal Tree.walkKids ks l) (hg : ∀ c, some c ∈ ks → c.Good)
    (ho : ∀ c, some c ∈ ks → ∀ u, Occurs c u → u.kind ∉ reorderedKinds) : Traversal Tree.fieldKids ks l := by
  induction h with
  | done => exact .done
  | nil _ ih =>
    exact .nil (ih (fun c hc => hg c (List.mem_cons_of_mem _ hc)) (fun c hc => ho c (List.mem_cons_of_mem _ hc)))
  | pruned _ ih =>
    exact .pruned (ih (fun c hc => hg c (List.mem_cons_of_mem _ hc))
      (fun c hc => ho c (List.mem_cons_of_mem _ hc)))
  | visited hk _ _ ih1 ih2 =>
    rename_i t rest ks l1 l2 b _ _
    have htg := hg t (List.mem_cons_self ..)
    have hord := walkKids_ordered (htg t (.refl t)).1 (htg t (.refl t)).2
      (ho t (List.mem_cons_self ..) t (.refl t))
    rw [hk] at hord
    have he := Option.some.inj hord
    subst he
    refine .visited rfl (ih1 ?_ ?_) (ih2 (fun c hc => hg c (List.mem_cons_of_mem _ hc))
      (fun c hc => ho c (List.mem_cons_of_mem _ hc)))
    · intro c hc
      exact htg.child (by simpa using hc)
    · intro c hc u hu
      exact ho t (List.mem_cons_self ..) u (.child (by simpa using hc) hu)

/-! Other lemmas -/

def Out.map {σ τ : Type} (h : τ → σ) : Out τ → Out σ
  | .ok s => .ok (h s)
  | .panic s => .panic (h s)

/-- A visitor that does the same and more. -/
theorem walk_sim {V W σ τ : Type} {visit : V → Option Tree → σ → Option V × σ}
    {visit' : W → Option Tree → τ → Option W × τ} {v : V} {w : W} {h : τ → σ}
    (h1 : ∀ n s, (visit' w n s).1.isSome = (visit v n (h s)).1.isSome)
    (h2 : ∀ n s, h (visit' w n s).2 = (visit v n (h s)).2) (n : Nat) :
    ∀ ks : List (Option Tree), (∀ c, some c ∈ ks → sizeOf c < n) → ∀ s,
      (seqAll (ks.map (walkO visit' w)) s).map h = seqAll (ks.map (walkO visit v)) (h s) := by
  induction n with
  | zero =>
    intro ks
    induction ks with
    | nil => intro _ s; rfl
    | cons k ks ih =>
      intro hk s
      have ih := ih (fun c hc => hk c (List.mem_cons_of_mem _ hc))
      cases k with
      | some c => exact absurd (hk c (List.mem_cons_self ..)) (by omega)
      | none =>
        simp only [List.map_cons, seqAll, walkO, walkNil, h1]
        split
        · simp [Out.map, h2]
        · simp [h2, ih]
  | succ n ihn =>
    intro ks
    induction ks with
    | nil => intro _ s; rfl
    | cons k ks ih =>
      intro hk s
      have ih := ih (fun c hc => hk c (List.mem_cons_of_mem _ hc))
      cases k with
      | none =>
        simp only [List.map_cons, seqAll, walkO, walkNil, h1]
        split
        · simp [Out.map, h2]
        · simp [h2, ih]
      | some t =>
        simp only [List.map_cons, seqAll, walkO, walk_eq, h1]
        split
        · cases hks : t.walkKids with
          | none => simp [Out.map, h2]
          | some ks' =>
            have hlt := hk t (List.mem_cons_self ..)
            have hr := ihn ks' (fun c hc =>
              Nat.lt_of_lt_of_le (child_lt (walkKids_sub hks hc)) (by omega)) (visit' w (some t) s).2
            rw [h2] at hr
            simp only
            rw [← hr]
            cases seqAll (ks'.map (walkO visit' w)) (visit' w (some t) s).2 with
            | ok s1 => simp only [Out.bind_ok]; rw [ih, h2]; rfl
            | panic s1 => simp [Out.map]
        · simp [h2, ih]

theorem walk_map {V W σ τ : Type} {visit : V → Option Tree → σ → Option V × σ}
    {visit' : W → Option Tree → τ → Option W × τ} {v : V} {w : W} {h : τ → σ}
    (h1 : ∀ n s, (visit' w n s).1.isSome = (visit v n (h s)).1.isSome)
    (h2 : ∀ n s, h (visit' w n s).2 = (visit v n (h s)).2) (t : Tree) (s : τ) :
    (walk visit' w t s).map h = walk visit v t (h s) := by
  have := walk_sim h1 h2 (sizeOf t + 1) [some t] (by intro c hc; simp at hc; subst hc; omega) s
  simpa only [List.map_cons, List.map_nil, seqAll_one, walkO] using this

theorem Out.map_id {σ : Type} (x : Out σ) : x.map id = x := by cases x <;> rfl

theorem contract_aux {V σ : Type} {visit : V → Option Tree → σ → Option V × σ} {v : V}
    (hself : ∀ n s, (visit v n s).1 = none ∨ (visit v n s).1 = some v) (n : Nat) :
    ∀ ks : List (Option Tree), (∀ c, some c ∈ ks → sizeOf c < n) → ∀ s s',
      seqAll (ks.map (walkO visit v)) s = .ok s' → Contract visit Tree.walkKids v ks s s' := by
  induction n with
  | zero =>
    intro ks
    induction ks with
    | nil => intro _ s s' h; cases h; exact .done
    | cons k ks ih =>
      intro hk s s' h
      have ih := ih (fun c hc => hk c (List.mem_cons_of_mem _ hc))
      cases k with
      | some c => exact absurd (hk c (List.mem_cons_self ..)) (by omega)
      | none =>
        simp only [List.map_cons, seqAll, walkO, walkNil] at h
        rcases hself none s with hv | hv <;> simp [hv] at h
        exact .nil hv (ih _ _ h)
  | succ n ihn =>
    intro ks
    induction ks with
    | nil => intro _ s s' h; cases h; exact .done
    | cons k ks ih =>
      intro hk s s' h
      have ih := ih (fun c hc => hk c (List.mem_cons_of_mem _ hc))
      cases k with
      | none =>
        simp only [List.map_cons, seqAll, walkO, walkNil] at h
        rcases hself none s with hv | hv <;> simp [hv] at h
        exact .nil hv (ih _ _ h)
      | some t =>
        simp only [List.map_cons, seqAll, walkO, walk_eq] at h
        rcases hself (some t) s with hv | hv
        · simp [hv] at h
          exact .stop hv (ih _ _ h)
        · simp only [hv, Option.isSome_some, if_true] at h
          cases hks : t.walkKids with
          | none => simp [hks] at h
          | some ks' =>
            simp only [hks] at h
            cases h1 : seqAll (ks'.map (walkO visit v)) (visit v (some t) s).2 with
            | panic s1 => simp [h1] at h
            | ok s1 =>
              simp only [h1, Out.bind_ok] at h
              have hlt := hk t (List.mem_cons_self ..)
              exact .go hv hks (ihn ks' (fun c hc =>
                Nat.lt_of_lt_of_le (child_lt (walkKids_sub hks hc)) (by omega)) _ _ h1) (ih _ _ h)

theorem walk_contract {V σ : Type} {visit : V → Option Tree → σ → Option V × σ} {v : V}
    (hself : ∀ n s, (visit v n s).1 = none ∨ (visit v n s).1 = some v) {t : Tree} {s s' : σ}
    (h : walk visit v t s = .ok s') : Contract visit Tree.walkKids v [some t] s s' :=
  contract_aux hself (sizeOf t + 1) [some t] (by intro c hc; simp at hc; subst hc; omega) s s'
    (by simp only [List.map_cons, List.map_nil, seqAll_one, walkO]; exact h)

theorem contract_ordered {V σ : Type} {visit : V → Option Tree → σ → Option V × σ} {v : V}
    {ks : List (Option Tree)} {s s' : σ} (h : Contract visit Tree.walkKids v ks s s')
    (hg : ∀ c, some c ∈ ks → c.Good)
    (ho : ∀ c, some c ∈ ks → ∀ u, Occurs c u → u.kind ∉ reorderedKinds) :
    Contract visit Tree.fieldKids v ks s s' := by
  induction h with
  | done => exact .done
  | nil hv _ ih =>
    exact .nil hv (ih (fun c hc => hg c (List.mem_cons_of_mem _ hc))
      (fun c hc => ho c (List.mem_cons_of_mem _ hc)))
  | stop hv _ ih =>
    exact .stop hv (ih (fun c hc => hg c (List.mem_cons_of_mem _ hc))
      (fun c hc => ho c (List.mem_cons_of_mem _ hc)))
  | go hv hk _ _ ih1 ih2 =>
    rename_i v w t rest ks s s1 s' _ _
    have htg := hg t (List.mem_cons_self ..)
    have hord := walkKids_ordered (htg t (.refl t)).1 (htg t (.refl t)).2
      (ho t (List.mem_cons_self ..) t (.refl t))
    rw [hk] at hord
    have he := Option.some.inj hord
    subst he
    refine .go hv rfl (ih1 ?_ ?_) (ih2 (fun c hc => hg c (List.mem_cons_of_mem _ hc))
      (fun c hc => ho c (List.mem_cons_of_mem _ hc)))
    · intro c hc
      exact htg.child (by simpa using hc)
    · intro c hc u hu
      exact ho t (List.mem_cons_self ..) u (.child (by simpa using hc) hu)

/-- `Reached t u`: `Walk` gets from `t` to `u` when no call stops it. -/
inductive Reached : Tree → Tree → Prop where
  | refl (t : Tree) : Reached t t
  | child {t c u : Tree} {ks : List (Option Tree)} : t.walkKids = some ks → some c ∈ ks → Reached c u → Reached t u

/-- `Walk` panics at this node: it has no case for it, or it passes on a nil field. -/
def Tree.Stuck (t : Tree) : Prop := t.walkKids = none ∨ ∃ ks, t.walkKids = some ks ∧ none ∈ ks

theorem panic_aux {V τ : Type} {visit : V → Option Tree → τ → Option V × τ} {v : V}
    (hall : ∀ n s, (visit v n s).1.isSome = true) (n : Nat) :
    ∀ ks : List (Option Tree), (∀ c, some c ∈ ks → sizeOf c < n) → ∀ s,
      ((∃ s', seqAll (ks.map (walkO visit v)) s = .panic s') ↔
        none ∈ ks ∨ ∃ c, some c ∈ ks ∧ ∃ u, Reached c u ∧ u.Stuck) := by
  induction n with
  | zero =>
    intro ks hk s
    cases ks with
    | nil => simp [seqAll]
    | cons k ks =>
      cases k with
      | some c => exact absurd (hk c (List.mem_cons_self ..)) (by omega)
      | none => simp [seqAll, walkO, walkNil, hall]
  | succ n ihn =>
    intro ks
    induction ks with
    | nil => intro hk s; simp [seqAll]
    | cons k ks ih =>
      intro hk s
      have ih := ih (fun c hc => hk c (List.mem_cons_of_mem _ hc))
      cases k with
      | none => simp [seqAll, walkO, walkNil, hall]
      | some t =>
        simp only [List.map_cons, seqAll, walkO, walk_eq, hall, if_true]
        have hlt := hk t (List.mem_cons_self ..)
        have hsplit : (none ∈ some t :: ks ∨ ∃ c, some c ∈ some t :: ks ∧ ∃ u, Reached c u ∧ u.Stuck) ↔
            (∃ u, Reached t u ∧ u.Stuck) ∨ (none ∈ ks ∨ ∃ c, some c ∈ ks ∧ ∃ u, Reached c u ∧ u.Stuck) := by
          constructor
          · rintro (h | ⟨c, hc, h⟩)
            · rcases List.mem_cons.1 h with h | h
              · cases h
              · exact .inr (.inl h)
            · rcases List.mem_cons.1 hc with hc | hc
              · cases hc; exact .inl h
              · exact .inr (.inr ⟨c, hc, h⟩)
          · rintro (h | h | ⟨c, hc, h⟩)
            · exact .inr ⟨t, List.mem_cons_self .., h⟩
            · exact .inl (List.mem_cons_of_mem _ h)
            · exact .inr ⟨c, List.mem_cons_of_mem _ hc, h⟩
        rw [hsplit]
        cases hks : t.walkKids with
        | none =>
          simp only [Out.bind_panic]
          exact ⟨fun _ => .inl ⟨t, .refl t, .inl hks⟩, fun _ => ⟨_, rfl⟩⟩
        | some ks' =>
          have hr := ihn ks' (fun c hc =>
            Nat.lt_of_lt_of_le (child_lt (walkKids_sub hks hc)) (by omega)) (visit v (some t) s).2
          have hstuck : (∃ u, Reached t u ∧ u.Stuck) ↔
              none ∈ ks' ∨ ∃ c, some c ∈ ks' ∧ ∃ u, Reached c u ∧ u.Stuck := by
            constructor
            · rintro ⟨u, hu, hs⟩
              cases hu with
              | refl =>
                rcases hs with hs | ⟨l, hl, hn⟩
                · rw [hks] at hs; cases hs
                · rw [hks] at hl; cases hl; exact .inl hn
              | child hk' hc hu =>
                rw [hks] at hk'; cases hk'; exact .inr ⟨_, hc, u, hu, hs⟩
            · rintro (h | ⟨c, hc, u, hu, hs⟩)
              · exact ⟨t, .refl t, .inr ⟨ks', hks, h⟩⟩
              · exact ⟨u, .child hks hc hu, hs⟩
          rw [hstuck, ← hr]
          cases h1 : seqAll (ks'.map (walkO visit v)) (visit v (some t) s).2 with
          | ok s1 => simp only [h1, Out.bind_ok]; rw [ih]; simp
          | panic s1 => simp [h1]

theorem walk_panic_iff {V τ : Type} {visit : V → Option Tree → τ → Option V × τ} {v : V}
    (hall : ∀ n s, (visit v n s).1.isSome = true) (t : Tree) (s : τ) :
    (∃ s', walk visit v t s = .panic s') ↔ ∃ u, Reached t u ∧ u.Stuck := by
  have := panic_aux hall (sizeOf t + 1) [some t] (by intro c hc; simp at hc; subst hc; omega) s
  simp only [List.map_cons, List.map_nil, seqAll_one, walkO] at this
  rw [this]
  constructor
  · rintro (h | ⟨c, hc, h⟩)
    · simp at h
    · simp at hc; subst hc; exact h
  · intro h; exact .inr ⟨t, by simp, h⟩

/-- The same for visitors that stop at nil. -/
theorem unknown_aux {V τ : Type} {visit : V → Option Tree → τ → Option V × τ} {v : V}
    (hall : ∀ t s, (visit v (some t) s).1.isSome = true) (hnil : ∀ s, (visit v none s).1 = none) (n : Nat) :
    ∀ ks : List (Option Tree), (∀ c, some c ∈ ks → sizeOf c < n) → ∀ s,
      ((∃ s', seqAll (ks.map (walkO visit v)) s = .panic s') ↔
        ∃ c, some c ∈ ks ∧ ∃ u, Reached c u ∧ u.walkKids = none) := by
  induction n with
  | zero =>
    intro ks hk s
    induction ks generalizing s with
    | nil => simp [seqAll]
    | cons k ks ih =>
      cases k with
      | some c => exact absurd (hk c (List.mem_cons_self ..)) (by omega)
      | none =>
        simp only [List.map_cons, seqAll, walkO, walkNil, hnil, Option.isSome_none, Bool.false_eq_true, if_false,
          Out.bind_ok]
        rw [ih (fun c hc => hk c (List.mem_cons_of_mem _ hc))]
        simp
  | succ n ihn =>
    intro ks
    induction ks with
    | nil => intro hk s; simp [seqAll]
    | cons k ks ih =>
      intro hk s
      have ih := ih (fun c hc => hk c (List.mem_cons_of_mem _ hc))
      cases k with
      | none =>
        simp only [List.map_cons, seqAll, walkO, walkNil, hnil, Option.isSome_none, Bool.false_eq_true, if_false,
          Out.bind_ok]
        rw [ih]
        simp
      | some t =>
        simp only [List.map_cons, seqAll, walkO, walk_eq, hall, if_true]
        have hlt := hk t (List.mem_cons_self ..)
        have hsplit : (∃ c, some c ∈ some t :: ks ∧ ∃ u, Reached c u ∧ u.walkKids = none) ↔
            (∃ u, Reached t u ∧ u.walkKids = none) ∨ ∃ c, some c ∈ ks ∧ ∃ u, Reached c u ∧ u.walkKids = none := by
          constructor
          · rintro ⟨c, hc, h⟩
            rcases List.mem_cons.1 hc with hc | hc
            · cases hc; exact .inl h
            · exact .inr ⟨c, hc, h⟩
          · rintro (h | ⟨c, hc, h⟩)
            · exact ⟨t, List.mem_cons_self .., h⟩
            · exact ⟨c, List.mem_cons_of_mem _ hc, h⟩
        rw [hsplit]
        cases hks : t.walkKids with
        | none =>
          simp only [Out.bind_panic]
          exact ⟨fun _ => .inl ⟨t, .refl t, hks⟩, fun _ => ⟨_, rfl⟩⟩
        | some ks' =>
          have hr := ihn ks' (fun c hc =>
            Nat.lt_of_lt_of_le (child_lt (walkKids_sub hks hc)) (by omega)) (visit v (some t) s).2
          have hstuck : (∃ u, Reached t u ∧ u.walkKids = none) ↔
              ∃ c, some c ∈ ks' ∧ ∃ u, Reached c u ∧ u.walkKids = none := by
            constructor
            · rintro ⟨u, hu, hs⟩
              cases hu with
              | refl => rw [hks] at hs; cases hs
              | child hk' hc hu =>
                rw [hks] at hk'; cases hk'; exact ⟨_, hc, u, hu, hs⟩
            · rintro ⟨c, hc, u, hu, hs⟩
              exact ⟨u, .child hks hc hu, hs⟩
          rw [hstuck, ← hr]
          cases h1 : seqAll (ks'.map (walkO visit v)) (visit v (some t) s).2 with
          | ok s1 => simp only [h1, Out.bind_ok]; rw [ih]; simp
          | panic s1 => simp [h1]

theorem walk_unknown_iff {V τ : Type} {visit : V → Option Tree → τ → Option V × τ} {v : V}
    (hall : ∀ t s, (visit v (some t) s).1.isSome = true) (hnil : ∀ s, (visit v none s).1 = none) (t : Tree) (s : τ) :
    (∃ s', walk visit v t s = .panic s') ↔ ∃ u, Reached t u ∧ u.walkKids = none := by
  have := unknown_aux hall hnil (sizeOf t + 1) [some t] (by intro c hc; simp at hc; subst hc; omega) s
  simp only [List.map_cons, List.map_nil, seqAll_one, walkO] at this
  rw [this]
  constructor
  · rintro ⟨c, hc, h⟩
    simp at hc; subst hc; exact h
  · intro h; exact ⟨t, by simp, h⟩

theorem walkKids_none {t : Tree} : t.walkKids = none ↔ t.kind ∈ unknownKinds := by
  simp only [Tree.walkKids, Option.map_eq_none_iff]
  generalize t.kind = k
  constructor
  · intro h
    have : ∀ k ∈ Kind.all, k.walk = none → k ∈ unknownKinds := by decide +kernel
    exact this k k.mem_all h
  · intro h
    simp only [unknownKinds, List.mem_cons, List.not_mem_nil, or_false] at h
    rcases h with rfl | rfl | rfl | rfl | rfl | rfl <;> rfl

theorem Reached.trans {t u w : Tree} (h1 : Reached t u) (h2 : Reached u w) : Reached t w := by
  induction h1 with
  | refl => exact h2
  | child hk hm _ ih => exact .child hk hm (ih h2)

theorem Reached.occurs {t u : Tree} (h : Reached t u) : Occurs t u := by
  induction h with
  | refl => exact .refl _
  | child hk hm _ ih => exact .child (walkKids_sub hk hm) ih

end Verif
