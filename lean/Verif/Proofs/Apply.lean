import Verif.Spec.Apply
import Verif.Proofs.Walk
set_option linter.unusedSimpArgs false
/-
Lemmas about `apply`.
-/
namespace Verif

@[simp] theorem AOut.bind_ok {σ : Type} (w : World σ) (f : World σ → AOut σ) : (AOut.ok w).bind f = f w := rfl
@[simp] theorem AOut.bind_abort {σ : Type} (w : World σ) (f : World σ → AOut σ) :
    (AOut.abort w).bind f = .abort w := rfl
@[simp] theorem AOut.bind_panic {σ : Type} (w : World σ) (f : World σ → AOut σ) :
    (AOut.panic w).bind f = .panic w := rfl
@[simp] theorem AOut.bind_oof {σ : Type} (w : World σ) (f : World σ → AOut σ) :
    (AOut.oof w).bind f = .oof w := rfl

/-! ### Stopping -/

/-- A call of `post` that returned false. -/
def CbCall.stops (c : CbCall) : Prop := c.post = true ∧ c.answer = some false

/-- The log grows by calls none of which stops `Apply`, except the last one if the outcome is `abort`. -/
def Stops {σ : Type} (l0 : List CbCall) : AOut (σ × List CbCall) → Prop
  | .ok w => ∃ l, w.user.2 = l0 ++ l ∧ ∀ c ∈ l, ¬ c.stops
  | .abort w => ∃ l last, w.user.2 = l0 ++ l ++ [last] ∧ (∀ c ∈ l, ¬ c.stops) ∧ last.stops
  | .panic w => ∃ l, w.user.2 = l0 ++ l ∧ ∀ c ∈ l, ¬ c.stops
  | .oof w => ∃ l, w.user.2 = l0 ++ l ∧ ∀ c ∈ l, ¬ c.stops

theorem Stops.shift {σ : Type} {l0 l : List CbCall} {o : AOut (σ × List CbCall)} (hl : ∀ c ∈ l, ¬ c.stops)
    (h : Stops (l0 ++ l) o) : Stops l0 o := by
  have key : ∀ l' : List CbCall, (∀ c ∈ l', ¬ c.stops) → ∀ c ∈ l ++ l', ¬ c.stops := by
    intro l' h' c hc
    rcases List.mem_append.1 hc with hc | hc
    · exact hl c hc
    · exact h' c hc
  cases o with
  | ok w => obtain ⟨l', h1, h2⟩ := h; exact ⟨l ++ l', by rw [h1, List.append_assoc], key l' h2⟩
  | abort w =>
    obtain ⟨l', x, h1, h2, h3⟩ := h
    exact ⟨l ++ l', x, by rw [h1]; simp, key l' h2, h3⟩
  | panic w => obtain ⟨l', h1, h2⟩ := h; exact ⟨l ++ l', by rw [h1, List.append_assoc], key l' h2⟩
  | oof w => obtain ⟨l', h1, h2⟩ := h; exact ⟨l ++ l', by rw [h1, List.append_assoc], key l' h2⟩

theorem Stops.bind {σ : Type} {l0 : List CbCall} {o : AOut (σ × List CbCall)}
    {f : World (σ × List CbCall) → AOut (σ × List CbCall)} (h : Stops l0 o)
    (hf : ∀ w, Stops w.user.2 (f w)) : Stops l0 (o.bind f) := by
  cases o with
  | ok w => obtain ⟨l, h1, h2⟩ := h; exact Stops.shift h2 (by rw [← h1]; exact hf w)
  | abort w => exact h
  | panic w => exact h
  | oof w => exact h

theorem Stops.nil {σ : Type} {w : World (σ × List CbCall)} : Stops w.user.2 (.ok w) := ⟨[], by simp, by simp⟩

theorem stops_listLoop {σ : Type} {ap : Option Nat → World (σ × List CbCall) → AOut (σ × List CbCall)} {p : Nat}
    {f : FName} (h : ∀ x w, Stops w.user.2 (ap x w)) (n : Nat) (w : World (σ × List CbCall)) :
    Stops w.user.2 (listLoop ap p f n w) := by
  induction n generalizing w with
  | zero => exact ⟨[], by simp [listLoop], by simp⟩
  | succ n ih =>
    rw [listLoop]
    split
    · split
      · exact Stops.nil
      · split
        · exact ⟨[], by simp, by simp⟩
        · exact Stops.bind (h _ { w with step := 1 }) (fun w' => ih { w' with index := w'.index + w'.step })
    · exact ⟨[], by simp, by simp⟩

theorem stops_applySteps {σ : Type}
    {ap : FName → Bool → Option Nat → World (σ × List CbCall) → AOut (σ × List CbCall)}
    (h : ∀ name l x w, Stops w.user.2 (ap name l x w)) (a n : Nat) (ss : List AStep)
    (w : World (σ × List CbCall)) : Stops w.user.2 (applySteps ap a n ss w) := by
  induction ss generalizing w with
  | nil => exact Stops.nil
  | cons s ss ih =>
    refine Stops.bind ?_ ih
    cases s with
    | one name f => exact h _ _ _ _
    | opt name f =>
      simp only [applyStep]
      split
      · exact h _ _ _ _
      · exact Stops.nil
    | list f =>
      simp only [applyStep, applyList]
      refine Stops.bind (stops_listLoop (fun x w => h _ _ _ _) n { w with index := 0 }) ?_
      intro w'; exact ⟨[], by simp, by simp⟩
    | unlessAll name f =>
      simp only [applyStep]
      split
      · exact Stops.nil
      · exact h _ _ _ _

theorem stops_apply {σ : Type} (pre post : Callback σ) (n : Nat) (c : Cursor) (w : World (σ × List CbCall)) :
    Stops w.user.2 (apply (recorded false pre) (recorded true post) n c w) := by
  induction n generalizing c w with
  | zero => exact ⟨[], by simp [apply], by simp⟩
  | succ n ih =>
    rw [apply]
    cases hp : pre c ⟨w.user.1, w.heap, w.index, w.step⟩ with
    | panic w' =>
      simp only [recorded, hp]
      exact ⟨[_], rfl, by simp [CbCall.stops]⟩
    | ret b w' =>
      simp only [recorded, hp]
      refine Stops.shift (l := [⟨false, c.node, some b⟩]) (by simp [CbCall.stops]) ?_
      cases b with
      | false => exact Stops.nil
      | true =>
        simp only
        cases c.node with
        | none => exact ⟨[], by simp, by simp⟩
        | some a =>
          simp only
          cases (w'.heap a).kind.bind Kind.apply with
          | none => exact ⟨[], by simp, by simp⟩
          | some steps =>
            simp only
            refine Stops.bind (stops_applySteps (fun name l b w => ih _ _) a n steps _) ?_
            intro w1
            cases hq : post c ⟨w1.user.1, w1.heap, w1.index, w1.step⟩ with
            | panic w2 => exact ⟨[_], rfl, by simp [CbCall.stops]⟩
            | ret b w2 =>
              cases b with
              | true => exact ⟨[_], rfl, by simp [CbCall.stops]⟩
              | false => exact ⟨[], _, by simp; rfl, by simp, by simp [CbCall.stops]⟩

/-! ### Records -/

def World.map {σ τ : Type} (h : τ → σ) (w : World τ) : World σ := ⟨h w.user, w.heap, w.index, w.step⟩

def AOut.map {σ τ : Type} (h : τ → σ) : AOut τ → AOut σ
  | .ok w => .ok (w.map h)
  | .abort w => .abort (w.map h)
  | .panic w => .panic (w.map h)
  | .oof w => .oof (w.map h)

theorem AOut.map_bind {σ τ : Type} {h : τ → σ} {x : AOut τ} {f : World τ → AOut τ} {y : AOut σ}
    {g : World σ → AOut σ} (hx : x.map h = y) (hf : ∀ w, (f w).map h = g (w.map h)) :
    (x.bind f).map h = y.bind g := by
  subst hx
  cases x <;> first | exact hf _ | rfl

theorem map_listLoop {σ τ : Type} {h : τ → σ} {ap : Option Nat → World τ → AOut τ}
    {ap' : Option Nat → World σ → AOut σ} (hap : ∀ x w, (ap x w).map h = ap' x (w.map h)) (p : Nat) (f : FName)
    (n : Nat) (w : World τ) : (listLoop ap p f n w).map h = listLoop ap' p f n (w.map h) := by
  induction n generalizing w with
  | zero => rfl
  | succ n ih =>
    simp only [listLoop]
    show _ = match w.heap.field p f with
      | some (.list _ as) => _
      | _ => _
    cases w.heap.field p f with
    | none => rfl
    | some x =>
      cases x with
      | nil => rfl
      | one => rfl
      | list g as =>
        simp only
        show _ = if w.index ≥ as.length then _ else if w.index < 0 then _ else _
        split
        · rfl
        · split
          · rfl
          · exact AOut.map_bind (hap _ _) (fun w' => ih _)

theorem map_applySteps {σ τ : Type} {h : τ → σ} {ap : FName → Bool → Option Nat → World τ → AOut τ}
    {ap' : FName → Bool → Option Nat → World σ → AOut σ}
    (hap : ∀ f l x w, (ap f l x w).map h = ap' f l x (w.map h)) (a n : Nat) (ss : List AStep) (w : World τ) :
    (applySteps ap a n ss w).map h = applySteps ap' a n ss (w.map h) := by
  induction ss generalizing w with
  | nil => rfl
  | cons s ss ih =>
    refine AOut.map_bind ?_ ih
    cases s with
    | one name f => exact hap _ _ _ _
    | opt name f =>
      simp only [applyStep]
      show _ = match w.heap.ptr a f with | some b => _ | none => _
      cases w.heap.ptr a f with
      | none => rfl
      | some b => exact hap _ _ _ _
    | list f =>
      simp only [applyStep, applyList]
      exact AOut.map_bind (map_listLoop (ap := ap f true) (ap' := ap' f true) (fun x w => hap f true x w) a f n { w with index := 0 }) (fun w' => rfl)
    | unlessAll name f =>
      simp only [applyStep]
      show _ = if (w.heap a).all then _ else _
      split
      · rfl
      · exact hap _ _ _ _

theorem map_apply {σ : Type} (pre post : Callback σ) (n : Nat) (c : Cursor) (w : World (σ × List CbCall)) :
    (apply (recorded false pre) (recorded true post) n c w).map Prod.fst = apply pre post n c (w.map Prod.fst) := by
  induction n generalizing c w with
  | zero => rfl
  | succ n ih =>
    simp only [apply]
    cases hp : pre c (w.map Prod.fst) with
    | panic w' =>
      have hp' : pre c ⟨w.user.1, w.heap, w.index, w.step⟩ = _ := hp
      simp only [recorded, hp']; rfl
    | ret b w' =>
      have hp' : pre c ⟨w.user.1, w.heap, w.index, w.step⟩ = _ := hp
      simp only [recorded, hp']
      cases b with
      | false => rfl
      | true =>
        simp only
        cases c.node with
        | none => rfl
        | some a =>
          simp only
          cases (w'.heap a).kind.bind Kind.apply with
          | none => rfl
          | some steps =>
            simp only
            refine AOut.map_bind (map_applySteps
            (ap := fun name l b => apply (recorded false pre) (recorded true post) n ⟨a, name, l, b⟩)
            (ap' := fun name l b => apply pre post n ⟨a, name, l, b⟩)
            (fun name l b w => ih _ _) a n steps
            ⟨(w'.user, w.user.2 ++ [⟨false, some a, some true⟩]), w'.heap, w'.index, w'.step⟩) ?_
            intro w1
            cases hq : post c (w1.map Prod.fst) with
            | panic w2 =>
              have hq' : post c ⟨w1.user.1, w1.heap, w1.index, w1.step⟩ = _ := hq
              simp only [hq']; rfl
            | ret b w2 =>
              have hq' : post c ⟨w1.user.1, w1.heap, w1.index, w1.step⟩ = _ := hq
              simp only [hq']
              cases b <;> rfl

/-! ### Passes without edits -/

def AStep.toW : AStep → WStep
  | .one _ f => .one f
  | .opt _ f => .opt f
  | .list f => .list f
  | .unlessAll _ f => .unlessAll f

/-- The table of `Apply` visits the same fields in the same order as that of `Walk`. -/
theorem apply_table : ∀ k ∈ Kind.all, k.apply.map (List.map AStep.toW) =
    if applyUnknownKinds.contains k then none else k.walk := by decide +kernel

/-- `Pass`, with the children in the order of `Walk`. -/
inductive PassW : List Tree → List CbCall → Prop where
  | done : PassW [] []
  | node {t rest ks l1 l2} : t.walkKids = some (ks.map some) → PassW ks l1 → PassW rest l2 →
      PassW (t :: rest) (⟨false, some t.id, some true⟩ :: (l1 ++ ⟨true, some t.id, some true⟩ :: l2))

theorem PassW.append {ks1 ks2 : List Tree} {l1 l2 : List CbCall} (h1 : PassW ks1 l1) (h2 : PassW ks2 l2) :
    PassW (ks1 ++ ks2) (l1 ++ l2) := by
  induction h1 with
  | done => exact h2
  | node hk _ _ _ ih =>
    rename_i t rest ks a b _ _ _
    have := PassW.node hk (by assumption) ih
    simpa using this

/-- The action returns, leaves the heap and the iterator as they are and makes the calls of a pass over `ks`. -/
def Runs {σ : Type} (h : Heap) (ks : List Tree)
    (act : World (σ × List CbCall) → AOut (σ × List CbCall)) : Prop :=
  ∀ w, w.heap = h → ∃ w' l, act w = .ok w' ∧ w'.heap = h ∧ w'.index = w.index ∧ w'.step = w.step ∧
    w'.user.2 = w.user.2 ++ l ∧ PassW ks l

theorem Runs.nil {σ : Type} {h : Heap} : Runs (σ := σ) h [] AOut.ok :=
  fun w hw => ⟨w, [], rfl, hw, rfl, rfl, by simp, .done⟩

theorem Runs.bind {σ : Type} {h : Heap} {ks1 ks2 : List Tree}
    {a1 a2 : World (σ × List CbCall) → AOut (σ × List CbCall)} (h1 : Runs h ks1 a1) (h2 : Runs h ks2 a2) :
    Runs h (ks1 ++ ks2) (fun w => (a1 w).bind a2) := by
  intro w hw
  obtain ⟨w1, l1, e1, hh1, hi1, hs1, hl1, hp1⟩ := h1 w hw
  obtain ⟨w2, l2, e2, hh2, hi2, hs2, hl2, hp2⟩ := h2 w1 hh1
  exact ⟨w2, l1 ++ l2, by simp [e1, e2], hh2, hi2.trans hi1, hs2.trans hs1, by rw [hl2, hl1]; simp,
    hp1.append hp2⟩

theorem runs_listLoop {σ : Type} {h : Heap} {ap : Option Nat → World (σ × List CbCall) → AOut (σ × List CbCall)}
    {p : Nat} {f : FName} {ts : List Tree} (hf : h.field p f = some (.list f (ts.map Tree.id))) :
    ∀ (rest done : List Tree), ts = done ++ rest → (∀ t ∈ rest, Runs h [t] (ap (some t.id))) →
      ∀ n, rest.length < n → ∀ w, w.heap = h → w.index = (done.length : Int) →
      ∃ w' l, listLoop ap p f n w = .ok w' ∧ w'.heap = h ∧ w'.user.2 = w.user.2 ++ l ∧ PassW rest l := by
  intro rest
  induction rest with
  | nil =>
    intro done hts _ n hn w hw hi
    cases n with
    | zero => omega
    | succ n =>
      refine ⟨w, [], ?_, hw, by simp, .done⟩
      rw [listLoop, hw, hf]
      simp [hi, hts]
  | cons t rest ih =>
    intro done hts hruns n hn w hw hi
    cases n with
    | zero => simp at hn
    | succ n =>
      obtain ⟨w1, l1, e1, hh1, hi1, hs1, hl1, hp1⟩ := hruns t (List.mem_cons_self ..) { w with step := 1 } hw
      have hget : (ts.map Tree.id)[w.index.toNat]? = some t.id := by
        rw [hi, hts]; simp
      obtain ⟨w2, l2, e2, hh2, hl2, hp2⟩ := ih (done ++ [t]) (by simp [hts])
        (fun u hu => hruns u (List.mem_cons_of_mem _ hu)) n (by simp at hn; omega)
        { w1 with index := w1.index + w1.step } hh1 (by simp only [hi1, hs1, hi]; simp)
      refine ⟨w2, l1 ++ l2, ?_, hh2, by rw [hl2]; simp only [hl1]; simp, hp1.append hp2⟩
      rw [listLoop, hw, hf]
      have h1 : ¬ (w.index ≥ ((ts.map Tree.id).length : Int)) := by
        rw [hi, hts]; simp; omega
      have h2 : ¬ (w.index < 0) := by rw [hi]; omega
      rw [← hw]
      simp only [h1, h2, if_false, hget, e1, AOut.bind_ok, e2]

theorem find_map_ref (fs : List FieldVal) (f : FName) :
    (fs.map FieldVal.ref).find? (fun x => x.name == f) = (fs.find? (fun x => x.name == f)).map FieldVal.ref := by
  induction fs with
  | nil => rfl
  | cons x xs ih =>
    have : x.ref.name = x.name := by cases x <;> rfl
    simp only [List.map_cons, List.find?_cons, this]
    cases x.name == f <;> simp [ih]

theorem find_name {fs : List FieldVal} {f : FName} {x : FieldVal}
    (h : fs.find? (fun x => x.name == f) = some x) : x.name = f := by
  simpa using List.find?_some h

theorem runs_step {σ : Type} {h : Heap} {k : Kind} {i : Nat} {all : Bool} {fs : List FieldVal}
    (hobj : h i = ⟨some k, all, fs.map FieldVal.ref⟩)
    {ap : FName → Bool → Option Nat → World (σ × List CbCall) → AOut (σ × List CbCall)} {n : Nat}
    (hn : ∀ f ts, FieldVal.list f ts ∈ fs → ts.length < n)
    (hruns : ∀ c ∈ fs.flatMap FieldVal.nodes, ∀ name l, Runs h [c] (ap name l (some c.id)))
    (st : AStep) (hno : none ∉ st.toW.kids all fs)
    (hlist : ∀ f, st = .list f → ∃ ts, fs.find? (fun x => x.name == f) = some (.list f ts)) :
    Runs h ((st.toW.kids all fs).filterMap id) (applyStep ap i n st) := by
  have hptr : ∀ f, h.ptr i f = match fs.find? (fun x => x.name == f) with
      | some (.one _ t) => some t.id
      | _ => none := by
    intro f
    simp only [Heap.ptr, Heap.field, hobj, find_map_ref]
    cases fs.find? (fun x => x.name == f) with
    | none => rfl
    | some x => cases x <;> rfl
  have hmem : ∀ {f x}, fs.find? (fun x => x.name == f) = some x → ∀ t ∈ x.nodes, t ∈ fs.flatMap FieldVal.nodes :=
    fun hx t ht => List.mem_flatMap.2 ⟨_, List.mem_of_find?_eq_some hx, ht⟩
  cases st with
  | one name f =>
    simp only [AStep.toW, WStep.kids] at hno ⊢
    have hp := hptr f
    cases hx : fs.find? (fun x => x.name == f) with
    | none => simp [hx] at hno
    | some x =>
      cases x with
      | nil => simp [hx] at hno
      | list => simp [hx] at hno
      | one g t =>
        simp only [hx] at hp ⊢
        intro w hw
        have := hruns t (hmem hx t (by simp [FieldVal.nodes])) name false w hw
        simpa [applyStep, hw, hp] using this
  | opt name f =>
    simp only [AStep.toW, WStep.kids] at hno ⊢
    have hp := hptr f
    cases hx : fs.find? (fun x => x.name == f) with
    | none =>
      simp only [hx] at hp ⊢
      intro w hw
      have := Runs.nil (σ := σ) w hw
      simpa [applyStep, hw, hp] using this
    | some x =>
      cases x with
      | nil =>
        simp only [hx] at hp ⊢
        intro w hw
        have := Runs.nil (σ := σ) w hw
        simpa [applyStep, hw, hp] using this
      | list =>
        simp only [hx] at hp ⊢
        intro w hw
        have := Runs.nil (σ := σ) w hw
        simpa [applyStep, hw, hp] using this
      | one g t =>
        simp only [hx] at hp ⊢
        intro w hw
        have := hruns t (hmem hx t (by simp [FieldVal.nodes])) name false w hw
        simpa [applyStep, hw, hp] using this
  | unlessAll name f =>
    simp only [AStep.toW, WStep.kids] at hno ⊢
    have hp := hptr f
    cases all with
    | true =>
      intro w hw
      have := Runs.nil (σ := σ) w hw
      simpa [applyStep, hw, hobj] using this
    | false =>
      simp only [Bool.false_eq_true, if_false] at hno ⊢
      cases hx : fs.find? (fun x => x.name == f) with
      | none => simp [hx] at hno
      | some x =>
        cases x with
        | nil => simp [hx] at hno
        | list => simp [hx] at hno
        | one g t =>
          simp only [hx] at hp ⊢
          intro w hw
          have := hruns t (hmem hx t (by simp [FieldVal.nodes])) name false w hw
          simpa [applyStep, hw, hp, hobj] using this
  | list f =>
    obtain ⟨ts, hx⟩ := hlist f rfl
    simp only [AStep.toW, WStep.kids, hx, List.filterMap_map, Function.id_comp, List.filterMap_some]
    have hfield : h.field i f = some (.list f (ts.map Tree.id)) := by
      simp only [Heap.field, hobj, find_map_ref, hx]; rfl
    intro w hw
    obtain ⟨w1, l, e1, hh1, hl1, hp1⟩ := runs_listLoop (ap := ap f true) hfield ts [] rfl
      (fun t ht => hruns t (hmem hx t ht) f true) n
      (hn f ts (List.mem_of_find?_eq_some hx)) { w with index := 0 } hw rfl
    refine ⟨{ w1 with index := w.index, step := w.step }, l, ?_, hh1, rfl, rfl, hl1, hp1⟩
    simp only [applyStep, applyList, e1, AOut.bind_ok]

theorem runs_steps {σ : Type} {h : Heap} {k : Kind} {i : Nat} {all : Bool} {fs : List FieldVal}
    (hobj : h i = ⟨some k, all, fs.map FieldVal.ref⟩)
    {ap : FName → Bool → Option Nat → World (σ × List CbCall) → AOut (σ × List CbCall)} {n : Nat}
    (hn : ∀ f ts, FieldVal.list f ts ∈ fs → ts.length < n)
    (hruns : ∀ c ∈ fs.flatMap FieldVal.nodes, ∀ name l, Runs h [c] (ap name l (some c.id)))
    (sts : List AStep)
    (hlist : ∀ f, AStep.list f ∈ sts → ∃ ts, fs.find? (fun x => x.name == f) = some (.list f ts)) :
    none ∉ (sts.map AStep.toW).flatMap (WStep.kids all fs) →
    Runs h (((sts.map AStep.toW).flatMap (WStep.kids all fs)).filterMap id) (applySteps ap i n sts) := by
  induction sts with
  | nil => intro _; exact Runs.nil
  | cons st sts ih =>
    intro hno
    simp only [List.map_cons, List.flatMap_cons, List.mem_append, not_or, List.filterMap_append] at hno ⊢
    exact Runs.bind
      (runs_step hobj hn hruns st hno.1 (fun f hf => hlist f (hf ▸ List.mem_cons_self ..)))
      (ih (fun f hf => hlist f (List.mem_cons_of_mem _ hf)) hno.2)

theorem apply_lists : ∀ k ∈ Kind.all, ∀ st ∈ k.apply.getD [],
    (match st with | .list f => k.fields.any (fun d => d.name == f && d.slice) | _ => true) = true := by
  decide +kernel

theorem fitsAll_list {k : Kind} {f : FName} : ∀ {ds : List Field} {fs : List FieldVal}, fitsAll k ds fs = true →
    (ds.map Field.name).Nodup → (∃ d ∈ ds, d.name = f ∧ d.slice = true) →
    ∃ ts, fs.find? (fun x => x.name == f) = some (.list f ts) := by
  intro ds
  induction ds with
  | nil => intro fs h _ hd; simp at hd
  | cons d ds ih =>
    intro fs h hn hd
    cases fs with
    | nil => simp [fitsAll] at h
    | cons x xs =>
      simp only [fitsAll, Bool.and_eq_true] at h
      simp only [List.map_cons, List.nodup_cons] at hn
      obtain ⟨d', hmem, hname, hsl⟩ := hd
      rcases List.mem_cons.1 hmem with rfl | hmem
      · cases x with
        | nil => simp [FieldVal.fits, hsl] at h
        | one => simp [FieldVal.fits, hsl] at h
        | list g ts =>
          have : g = f := by simpa [FieldVal.name, hname] using fits_name h.1
          exact ⟨ts, by simp [FieldVal.name, this]⟩
      · have hne : (x.name == f) = false := by
          rw [beq_eq_false_iff_ne, fits_name h.1]
          rintro rfl
          exact hn.1 (hname ▸ List.mem_map_of_mem hmem)
        obtain ⟨ts, hts⟩ := ih h.2 hn.2 ⟨d', hmem, hname, hsl⟩
        exact ⟨ts, by simp [List.find?_cons, hne, hts]⟩

theorem list_length_lt {k : Kind} {i : NodeRef} {all : Bool} {fs : List FieldVal} {f : FName} {ts : List Tree}
    (h : FieldVal.list f ts ∈ fs) : ts.length + 1 < sizeOf (Tree.mk k i all fs) := by
  have h1 := sizeOf_mem_fields (k := k) (i := i) (a := all) h
  have h2 : ∀ l : List Tree, l.length < sizeOf l := by
    intro l
    induction l with
    | nil => simp
    | cons a l ih => simp only [List.length_cons, List.cons.sizeOf_spec]; omega
  have := h2 ts
  simp only [FieldVal.list.sizeOf_spec] at h1
  omega

theorem runs_apply {σ : Type} {pre post : Callback σ} (hpre : Quiet pre) (hpost : Quiet post) {h : Heap}
    (n : Nat) : ∀ t : Tree, sizeOf t ≤ n → h.Has t → t.Good → (∀ u, Occurs t u → u.kind ∉ applyUnknownKinds) →
    ∀ p name l, Runs h [t] (apply (recorded false pre) (recorded true post) n ⟨p, name, l, some t.id⟩) := by
  induction n with
  | zero => intro t ht; cases t; simp at ht
  | succ n ih =>
    intro t ht hhas hgood hknown p name l w hw
    obtain ⟨u1, hu1⟩ := hpre ⟨p, name, l, some t.id⟩ ⟨w.user.1, w.heap, w.index, w.step⟩
    have hk := hknown t (.refl t)
    have hself := hhas t (.refl t)
    have hg := hgood t (.refl t)
    have htab := apply_table t.kind (Kind.mem_all _)
    rw [if_neg (by simpa using hk)] at htab
    obtain ⟨ks, hks, hperm⟩ := walkKids_perm hg.1 hg.2
    cases hsteps : t.kind.apply with
    | none =>
      rw [hsteps] at htab
      simp only [Tree.walkKids, ← htab] at hks
      simp at hks
    | some sts =>
      rw [hsteps] at htab
      simp only [Tree.walkKids, ← htab, Option.map_some, Option.some.injEq] at hks
      have hlists := apply_lists t.kind (Kind.mem_all _)
      rw [hsteps] at hlists
      have hnd : (t.kind.fields.map Field.name).Nodup := by
        simpa [fieldNamesDistinct] using table_names t.kind (Kind.mem_all _)
      have hrun := runs_steps (σ := σ) (n := n) (ap := fun name l b =>
          apply (recorded false pre) (recorded true post) n ⟨t.id, name, l, b⟩) hself
        (fun f ts hf => by
          cases t with
          | mk k i all fs =>
            have := list_length_lt (k := k) (i := i) (all := all) hf
            simp only [Tree.fields] at this; omega)
        (fun c hc name l => by
          have hlt := child_lt (t := t) hc
          exact ih c (by omega) (fun u hu => hhas u (.child hc hu)) (hgood.child hc)
            (fun u hu => hknown u (.child hc hu)) t.id name l)
        sts
        (fun f hf => fitsAll_list hg.1.1 hnd (by
          have := hlists _ hf
          simpa using this))
        (by rw [hks]; simp)
      rw [hks] at hrun
      simp only [List.filterMap_map, Function.id_comp, List.filterMap_some] at hrun
      obtain ⟨w1, l1, e1, hh1, hi1, hs1, hl1, hp1⟩ := hrun
        ⟨(u1, w.user.2 ++ [⟨false, some t.id, some true⟩]), w.heap, w.index, w.step⟩ hw
      obtain ⟨u2, hu2⟩ := hpost ⟨p, name, l, some t.id⟩ ⟨w1.user.1, w1.heap, w1.index, w1.step⟩
      refine ⟨⟨(u2, w1.user.2 ++ [⟨true, some t.id, some true⟩]), w1.heap, w1.index, w1.step⟩,
        ⟨false, some t.id, some true⟩ :: (l1 ++ [⟨true, some t.id, some true⟩]), ?_, hh1, hi1, hs1, ?_, ?_⟩
      · rw [apply]
        have e0 : recorded false pre ⟨p, name, l, some t.id⟩ w =
            .ret true ⟨(u1, w.user.2 ++ [⟨false, some t.id, some true⟩]), w.heap, w.index, w.step⟩ := by
          simp only [recorded, hu1]
        have e2 : recorded true post ⟨p, name, l, some t.id⟩ w1 =
            .ret true ⟨(u2, w1.user.2 ++ [⟨true, some t.id, some true⟩]), w1.heap, w1.index, w1.step⟩ := by
          simp only [recorded, hu2]
        have e3 : (w.heap t.id).kind.bind Kind.apply = some sts := by
          rw [hw, hself]; exact hsteps
        simp only [e0, e3, e1, AOut.bind_ok, e2]
      · simp only [hl1]; simp
      · have : t.walkKids = some (ks.map some) := by
          simp only [Tree.walkKids, ← htab, Option.map_some, hks]
        exact PassW.node this hp1 .done

theorem passW_ordered {ks : List Tree} {l : List CbCall} (h : PassW ks l)
    (hg : ∀ t ∈ ks, t.Good ∧ ∀ u, Occurs t u → u.kind ∉ reorderedKinds) : Pass ks l := by
  induction h with
  | done => exact .done
  | node hk _ _ ih1 ih2 =>
    rename_i t rest ks a b _ _
    have ht := hg t (List.mem_cons_self ..)
    have hgt := ht.1 t (.refl t)
    rw [walkKids_ordered hgt.1 hgt.2 (ht.2 t (.refl t))] at hk
    have : ks = t.children := by
      simp only [Option.some.injEq] at hk
      exact ((List.map_inj_right (fun _ _ h => Option.some.inj h)).1 hk).symm
    subst this
    exact .node (ih1 fun c hc => ⟨ht.1.child hc, fun u hu => ht.2 u (.child hc hu)⟩)
      (ih2 fun c hc => hg c (List.mem_cons_of_mem _ hc))

/-! ### Where callbacks change nothing -/

/-- Where `bad` does not hold of the cursor the callback changes neither the heap nor the iterator nor the part of
its state that `g` sees. -/
def Calm {σ γ : Type} (g : σ → γ) (bad : Cursor → Prop) (cb : Callback σ) : Prop :=
  ∀ c w, ¬ bad c → ∃ b u, cb c w = .ret b { w with user := u } ∧ g u = g w.user

def Same {σ γ : Type} (g : σ → γ) (w : World σ) : AOut σ → Prop
  | .ok w' => w'.heap = w.heap ∧ w'.index = w.index ∧ w'.step = w.step ∧ g w'.user = g w.user
  | .abort w' => w'.heap = w.heap
  | .panic w' => w'.heap = w.heap
  | .oof w' => w'.heap = w.heap

theorem Same.bind {σ γ : Type} {g : σ → γ} {w : World σ} {o : AOut σ} {f : World σ → AOut σ} (h : Same g w o)
    (hf : ∀ w', w'.heap = w.heap → Same g w' (f w')) : Same g w (o.bind f) := by
  cases o with
  | ok w' =>
    obtain ⟨h1, h2, h3, h4⟩ := h
    have := hf w' h1
    simp only [AOut.bind_ok]
    cases hr : f w' with
    | ok w'' =>
      rw [hr] at this
      exact ⟨this.1.trans h1, this.2.1.trans h2, this.2.2.1.trans h3, this.2.2.2.trans h4⟩
    | abort w'' => rw [hr] at this; exact Eq.trans this h1
    | panic w'' => rw [hr] at this; exact Eq.trans this h1
    | oof w'' => rw [hr] at this; exact Eq.trans this h1
  | abort w' => exact h
  | panic w' => exact h
  | oof w' => exact h

/-- In a loop only the heap and the state of the callbacks stay. -/
theorem same_listLoop {σ γ : Type} {g : σ → γ} {ap : Option Nat → World σ → AOut σ} {p : Nat} {f : FName}
    {h : Heap} (hap : ∀ x w, w.heap = h → (∀ b, x = some b → ∃ a as, h.field p f = some (.list a as) ∧ b ∈ as) →
      Same g w (ap x w)) (n : Nat) (w : World σ) (hw : w.heap = h) :
    match listLoop ap p f n w with
    | .ok w' => w'.heap = h ∧ g w'.user = g w.user
    | .abort w' => w'.heap = h
    | .panic w' => w'.heap = h
    | .oof w' => w'.heap = h := by
  induction n generalizing w with
  | zero => exact hw
  | succ n ih =>
    rw [listLoop, hw]
    cases hfld : h.field p f with
    | none => exact hw
    | some x =>
      cases x with
      | nil => exact hw
      | one => exact hw
      | list a as =>
        simp only
        by_cases h1 : w.index ≥ as.length
        · simp only [h1, if_true]; exact ⟨hw, trivial⟩
        · by_cases h2 : w.index < 0
          · simp only [h1, h2, if_true, if_false]; exact hw
          · simp only [h1, h2, if_false]
            have := hap as[w.index.toNat]? { w with heap := h, step := 1 } rfl (by
              intro b hb
              exact ⟨a, as, hfld, List.mem_of_getElem? hb⟩)
            cases hr : ap as[w.index.toNat]? ⟨w.user, h, w.index, 1⟩ with
            | ok w1 =>
              rw [hr] at this
              obtain ⟨t1, t2, t3, t4⟩ := this
              have hi := ih { w1 with index := w1.index + w1.step } t1
              simp only [AOut.bind_ok]
              cases hl : listLoop ap p f n ⟨w1.user, w1.heap, w1.index + w1.step, w1.step⟩ with
              | ok w2 => rw [hl] at hi; exact ⟨hi.1, hi.2.trans t4⟩
              | abort w2 => rw [hl] at hi; exact hi
              | panic w2 => rw [hl] at hi; exact hi
              | oof w2 => rw [hl] at hi; exact hi
            | abort w1 => rw [hr] at this; exact this
            | panic w1 => rw [hr] at this; exact this
            | oof w1 => rw [hr] at this; exact this

theorem field_mem {h : Heap} {a : Nat} {f : FName} {x : FieldRef} (hx : h.field a f = some x) :
    x ∈ (h a).fields := List.mem_of_find?_eq_some hx

theorem ptr_mem {h : Heap} {a : Nat} {f : FName} {b : Nat} (hb : h.ptr a f = some b) :
    ∃ g, FieldRef.one g b ∈ (h a).fields := by
  simp only [Heap.ptr] at hb
  cases hx : h.field a f with
  | none => rw [hx] at hb; simp at hb
  | some x =>
    rw [hx] at hb
    cases x with
    | nil => simp at hb
    | list => simp at hb
    | one g c =>
      simp only [Option.some.injEq] at hb
      subst hb
      exact ⟨g, field_mem hx⟩

theorem same_applySteps {σ γ : Type} {g : σ → γ} {ap : FName → Bool → Option Nat → World σ → AOut σ}
    {h : Heap} {a : Nat}
    (hap : ∀ name l x w, w.heap = h → (∀ b, x = some b → ∀ c, Leads h b c → Leads h a c) →
      Same g w (ap name l x w)) (n : Nat) (ss : List AStep) (w : World σ) (hw : w.heap = h) :
    Same g w (applySteps ap a n ss w) := by
  have hptr : ∀ f b, h.ptr a f = some b → ∀ c, Leads h b c → Leads h a c := by
    intro f b hb c hc
    obtain ⟨g, hg⟩ := ptr_mem hb
    exact .one hg hc
  induction ss generalizing w with
  | nil => exact ⟨rfl, rfl, rfl, rfl⟩
  | cons s ss ih =>
    refine Same.bind ?_ (fun w' hw' => ih w' (hw'.trans hw))
    cases s with
    | one name f =>
      simp only [applyStep, hw]
      exact hap _ _ _ _ hw (hptr f)
    | opt name f =>
      simp only [applyStep, hw]
      cases hp : h.ptr a f with
      | none => exact ⟨rfl, rfl, rfl, rfl⟩
      | some b => exact hap _ _ _ _ hw (fun b' hb' => hptr f b' (hp.trans hb'))
    | list f =>
      simp only [applyStep, applyList]
      have := same_listLoop (g := g) (ap := ap f true) (p := a) (f := f) (h := h)
        (by
          intro x w hw hx
          refine hap _ _ _ _ hw ?_
          rintro b rfl c hc
          obtain ⟨a', as, hfld, hb⟩ := hx b rfl
          exact .list (field_mem hfld) hb hc) n { w with index := 0 } hw
      cases hr : listLoop (ap f true) a f n { w with index := 0 } with
      | ok w1 => rw [hr] at this; exact ⟨this.1.trans hw.symm, rfl, rfl, this.2⟩
      | abort w1 => rw [hr] at this; exact this.trans hw.symm
      | panic w1 => rw [hr] at this; exact this.trans hw.symm
      | oof w1 => rw [hr] at this; exact this.trans hw.symm
    | unlessAll name f =>
      simp only [applyStep, hw]
      by_cases hall : (h a).all = true
      · simp only [hall, if_true]; exact ⟨rfl, rfl, rfl, rfl⟩
      · simp only [hall, if_false]
        exact hap _ _ _ _ hw (hptr f)

theorem same_apply {σ γ : Type} {g : σ → γ} {bad : Cursor → Prop} {pre post : Callback σ} (hpre : Calm g bad pre)
    (hpost : Calm g bad post) {h : Heap} (n : Nat) : ∀ (c : Cursor) (w : World σ), w.heap = h → ¬ bad c →
    (∀ a, c.node = some a → ∀ b, Leads h a b → ∀ name l x, ¬ bad ⟨b, name, l, x⟩) →
    Same g w (apply pre post n c w) := by
  induction n with
  | zero => intro c w hw _ _; rfl
  | succ n ih =>
    intro c w hw hc hb
    obtain ⟨b1, u1, e1, g1⟩ := hpre c w hc
    rw [apply, e1]
    cases b1 with
    | false => exact ⟨rfl, rfl, rfl, g1⟩
    | true =>
      simp only
      cases hn : c.node with
      | none => rfl
      | some a =>
        simp only
        cases hk : (w.heap a).kind.bind Kind.apply with
        | none => rfl
        | some steps =>
          simp only
          have hs := same_applySteps (g := g) (h := h) (a := a)
            (ap := fun name l b => apply pre post n ⟨a, name, l, b⟩)
            (by
              intro name l x w' hw' hx
              refine ih ⟨a, name, l, x⟩ w' hw' (hb a hn a (.refl a) name l x) ?_
              intro a' ha' b hab
              exact hb a hn b (hx a' ha' b hab)) n steps { w with user := u1 } hw
          have hs' := Same.bind hs (f := fun w => match post c w with
            | .panic w => .panic w
            | .ret false w => .abort w
            | .ret true w => .ok w) (by
              intro w' _
              obtain ⟨b2, u2, e2, g2⟩ := hpost c w' hc
              simp only [e2]
              cases b2
              · rfl
              · exact ⟨rfl, rfl, rfl, g2⟩)
          revert hs'
          generalize (applySteps _ _ _ _ _).bind _ = o
          intro hs'
          cases o with
          | ok w' => exact ⟨hs'.1, hs'.2.1, hs'.2.2.1, hs'.2.2.2.trans g1⟩
          | abort w' => exact hs'
          | panic w' => exact hs'
          | oof w' => exact hs'

/-! ### Edits of a list -/

theorem Frame.refl (h : Heap) (p : Nat) (f : FName) : Frame h p f h :=
  ⟨fun _ _ => rfl, rfl, rfl, fun _ _ => rfl⟩

theorem Frame.trans {h0 h1 h2 : Heap} {p : Nat} {f : FName} (a : Frame h0 p f h1) (b : Frame h1 p f h2) :
    Frame h0 p f h2 :=
  ⟨fun c hc => (b.1 c hc).trans (a.1 c hc), b.2.1.trans a.2.1, b.2.2.1.trans a.2.2.1,
    fun g hg => (b.2.2.2 g hg).trans (a.2.2.2 g hg)⟩

theorem field_setField {h : Heap} {p : Nat} {x : FieldRef} (g : FName) :
    (h.setField p x).field p g = if g = x.name then (h.field p g).map (fun _ => x) else h.field p g := by
  simp only [Heap.field, Heap.setField, Heap.set, if_true]
  induction (h p).fields with
  | nil => simp
  | cons y ys ih =>
    simp only [List.map_cons, List.find?_cons]
    by_cases hy : y.name = x.name
    · simp only [hy, beq_self_eq_true, if_true]
      by_cases hg : x.name = g
      · simp [hg]
      · have : (x.name == g) = false := by simpa using hg
        simp only [this, ih]
    · have hy' : (y.name == x.name) = false := by simpa using hy
      simp only [hy', Bool.false_eq_true, if_false]
      by_cases hg : y.name = g
      · have : ¬ (g = x.name) := fun h => hy (hg.trans h)
        simp [hg, this]
      · have : (y.name == g) = false := by simpa using hg
        simp only [this, ih]

theorem frame_setField {h : Heap} {p : Nat} {x : FieldRef} : Frame h p x.name (h.setField p x) := by
  refine ⟨fun b hb => by simp [Heap.setField, Heap.set, hb], by simp [Heap.setField, Heap.set],
    by simp [Heap.setField, Heap.set], fun g hg => ?_⟩
  rw [field_setField, if_neg hg]

/-- The state of the loop while the callbacks work on one element: what was inserted so far is `s`. -/
structure At {σ : Type} (h0 : Heap) (p : Nat) (f : FName) (done rest : List Nat) (s : Spot) (w : World σ) : Prop where
  list : w.heap.field p f = some (.list f (done ++ s.before ++ (s.cur.toList ++ s.after ++ rest)))
  idx : w.index = (done.length : Int) + s.before.length
  step : w.step = (s.cur.toList.length : Int) + s.after.length
  frame : Frame h0 p f w.heap

theorem insertIdx_append_length (as bs : List Nat) (n : Nat) :
    (as ++ bs).insertIdx as.length n = as ++ n :: bs := by
  induction as with
  | nil => simp
  | cons a as ih => simp [ih]

theorem edit_at {σ : Type} {h0 : Heap} {p : Nat} {f : FName} {done rest : List Nat} {s : Spot} {w w' : World σ}
    {c : Cursor} (hp : c.parent = p) (hf : c.name = f) (hl : c.inList = true) (hcur : s.cur.isSome) (e : Edit)
    (ha : At h0 p f done rest s w) (he : c.edit e w = some w') :
    At h0 p f done rest (s.edit e) w' ∧ w'.user = w.user := by
  obtain ⟨x, hx⟩ := Option.isSome_iff_exists.1 hcur
  have hidx : c.idx w = ((done ++ s.before).length : Int) := by
    simp only [Cursor.idx, hl, if_true, ha.idx]; simp
  have hnat : (c.idx w).toNat = (done ++ s.before).length := by rw [hidx]; exact Int.toNat_natCast _
  have hneg : ¬ (c.idx w < 0) := by rw [hidx]; omega
  have hge : c.idx w ≥ 0 := by rw [hidx]; omega
  have hlist := ha.list
  rw [hx] at hlist
  simp only [Option.toList_some, List.singleton_append, List.cons_append, List.nil_append] at hlist
  have hst := ha.step
  rw [hx] at hst
  have hfield : ∀ ys, (w.heap.setField p (.list f ys)).field p f = some (.list f ys) := by
    intro ys
    rw [field_setField]
    simp [FieldRef.name, hlist]
  have hfr : ∀ ys, Frame h0 p f (w.heap.setField p (.list f ys)) := fun ys =>
    ha.frame.trans (frame_setField (x := .list f ys))
  cases e with
  | before n =>
    simp only [Cursor.edit, Cursor.insertBefore, if_neg hneg, hp, hf, hlist] at he
    split at he
    · simp only [Option.some.injEq] at he
      subst he
      refine ⟨⟨?_, ?_, ?_, hfr _⟩, rfl⟩
      · rw [hfield, hnat, insertIdx_append_length]
        simp [Spot.edit, hx]
      · simp [Spot.edit, ha.idx]; omega
      · simp [Spot.edit, hst, hx]
    · simp at he
  | after n =>
    simp only [Cursor.edit, Cursor.insertAfter, if_neg hneg, hp, hf, hlist] at he
    split at he
    · simp only [Option.some.injEq] at he
      subst he
      refine ⟨⟨?_, ?_, ?_, hfr _⟩, rfl⟩
      · rw [hfield, hnat]
        have : (done ++ s.before ++ x :: (s.after ++ rest)) = (done ++ s.before ++ [x]) ++ (s.after ++ rest) := by simp
        rw [this]
        have hlen : (done ++ s.before).length + 1 = (done ++ s.before ++ [x]).length := by simp; omega
        rw [hlen, insertIdx_append_length]
        simp [Spot.edit, hx]
      · simp [Spot.edit, ha.idx]
      · simp [Spot.edit, hst, hx]; omega
    · simp at he
  | replace n =>
    simp only [Cursor.edit, Cursor.replace, hp, hf, hlist, if_pos hge] at he
    split at he
    · split at he
      · simp only [Option.some.injEq] at he
        subst he
        refine ⟨⟨?_, ?_, ?_, hfr _⟩, rfl⟩
        · rw [hfield, hnat, List.set_append_right _ _ (Nat.le_refl _)]
          simp [Spot.edit]
        · simp [Spot.edit, ha.idx]
        · simp [Spot.edit, hst]
      · simp at he
    · simp at he
  | delete =>
    simp only [Cursor.edit, Cursor.delete, if_neg hneg, hp, hf, hlist] at he
    split at he
    · simp only [Option.some.injEq] at he
      subst he
      refine ⟨⟨?_, ?_, ?_, hfr _⟩, rfl⟩
      · rw [hfield, hnat, List.eraseIdx_append_of_length_le (Nat.le_refl _)]
        simp [Spot.edit]
      · simp [Spot.edit, ha.idx]
      · simp [Spot.edit, hst]; omega
    · simp at he

theorem cur_isSome {s : Spot} {e : Edit} (he : e ≠ .delete) (hs : s.cur.isSome) : (s.edit e).cur.isSome := by
  cases e <;> simp_all [Spot.edit]

theorem edits_at {σ : Type} {h0 : Heap} {p : Nat} {f : FName} {done rest : List Nat} {c : Cursor}
    (hp : c.parent = p) (hf : c.name = f) (hl : c.inList = true) : ∀ (es : List Edit) (s : Spot) (w w' : World σ),
    DeleteLast es → s.cur.isSome → At h0 p f done rest s w → c.edits es w = some w' →
    At h0 p f done rest (es.foldl Spot.edit s) w' ∧ w'.user = w.user ∧
      (Edit.delete ∉ es → (es.foldl Spot.edit s).cur.isSome) := by
  intro es
  induction es with
  | nil =>
    intro s w w' _ hs ha he
    simp only [Cursor.edits, Option.some.injEq] at he
    subst he
    exact ⟨ha, rfl, fun _ => hs⟩
  | cons e es ih =>
    intro s w w' hd hs ha he
    simp only [Cursor.edits] at he
    cases h1 : c.edit e w with
    | none => rw [h1] at he; simp at he
    | some w1 =>
      rw [h1] at he
      simp only [Option.bind_some] at he
      obtain ⟨ha1, hu1⟩ := edit_at hp hf hl hs e ha h1
      by_cases hde : e = .delete
      · have : es = [] := hd [] es (by rw [hde]; rfl)
        subst this
        simp only [Cursor.edits, Option.some.injEq] at he
        subst he
        exact ⟨ha1, hu1, fun hm => absurd (hde ▸ List.mem_cons_self ..) hm⟩
      · obtain ⟨h2, h3, h4⟩ := ih (s.edit e) w1 w' (fun a b hab => hd (e :: a) b (by rw [hab]; rfl))
          (cur_isSome hde hs) ha1 he
        exact ⟨h2, h3.trans hu1, fun hm => h4 (fun h => hm (List.mem_cons_of_mem _ h))⟩

theorem leads_frame {h0 h : Heap} {p : Nat} (hfr : ∀ b, b ≠ p → h b = h0 b) {x b : Nat} (hl : Leads h x b) :
    ¬ Leads h0 x p → Leads h0 x b := by
  induction hl with
  | refl a => intro _; exact .refl a
  | one hm hrest ih =>
    rename_i a b c f
    clear hrest
    intro hn
    have : a ≠ p := fun h => hn (by rw [h]; exact .refl p)
    rw [hfr a this] at hm
    exact .one hm (ih fun h => hn (.one hm h))
  | list hm hb hrest ih =>
    rename_i a b c f as
    intro hn
    have : a ≠ p := fun h => hn (by rw [h]; exact .refl p)
    rw [hfr a this] at hm
    exact .list hm hb (ih fun h => hn (.list hm hb h))

/-- The cursors at the list `f` of `p`. -/
def AtList (p : Nat) (f : FName) (c : Cursor) : Prop := c.parent = p ∧ c.name = f ∧ c.inList = true

theorem scripted_calm {σ : Type} (b : Bool) (p : Nat) (f : FName) (script : Nat → σ → Script σ)
    (other : Cursor → σ → Bool × σ) : Calm Prod.snd (AtList p f) (scripted b p f script other) := by
  intro c w hc
  refine ⟨(other c w.user.1).1, ((other c w.user.1).2, w.user.2), ?_, rfl⟩
  have : ¬ (c.parent = p ∧ c.name = f ∧ c.inList = true) := hc
  simp only [scripted, if_neg this]

theorem scripted_at {σ : Type} {b : Bool} {p : Nat} {f : FName} {script : Nat → σ → Script σ}
    {other : Cursor → σ → Bool × σ} {x : Nat} {w : World (σ × List (Bool × Nat × List Edit))} :
    scripted b p f script other ⟨p, f, true, some x⟩ w =
      match (Cursor.edits ⟨p, f, true, some x⟩ (script x w.user.1).edits
        { w with user := ((script x w.user.1).user, w.user.2 ++ [(b, x, (script x w.user.1).edits)]) }) with
      | some w' => .ret (script x w.user.1).answer w'
      | none => .panic w := by
  simp only [scripted, and_self, if_true]
  split <;> simp_all

theorem loop_edited {σ : Type} {p : Nat} {f : FName} {h0 : Heap} {spre spost : Nat → σ → Script σ}
    {opre opost : Cursor → σ → Bool × σ}
    (hpre : ∀ x u, DeleteLast (spre x u).edits ∧ (Edit.delete ∈ (spre x u).edits → (spre x u).answer = false))
    (hpost : ∀ x u, DeleteLast (spost x u).edits) (m : Nat) (n : Nat) :
    ∀ (rest done : List Nat) (w w' : World (σ × List (Bool × Nat × List Edit))),
    (∀ x ∈ rest, ¬ Leads h0 x p) →
    w.heap.field p f = some (.list f (done ++ rest)) → w.index = (done.length : Int) → Frame h0 p f w.heap →
    listLoop (fun b => apply (scripted false p f spre opre) (scripted true p f spost opost) m ⟨p, f, true, b⟩)
      p f n w = .ok w' →
    ∃ l ys, w'.user.2 = w.user.2 ++ l ∧ Edited rest l ys ∧
      w'.heap.field p f = some (.list f (done ++ ys)) ∧ Frame h0 p f w'.heap := by
  induction n with
  | zero => intro rest done w w' _ _ _ _ h; simp [listLoop] at h
  | succ n ih =>
    intro rest done w w' hleads hfield hidx hframe h
    rw [listLoop, hfield] at h
    simp only at h
    cases rest with
    | nil =>
      have : w.index ≥ ((done ++ ([] : List Nat)).length : Int) := by rw [hidx]; simp
      rw [if_pos this] at h
      simp only [AOut.ok.injEq] at h
      subst h
      exact ⟨[], [], by simp, .nil, by simpa using hfield, hframe⟩
    | cons x rest =>
      have h1 : ¬ (w.index ≥ ((done ++ x :: rest).length : Int)) := by rw [hidx]; simp; omega
      have h2 : ¬ (w.index < 0) := by rw [hidx]; omega
      have hget : (done ++ x :: rest)[w.index.toNat]? = some x := by rw [hidx]; simp
      rw [if_neg h1, if_neg h2, hget] at h
      cases m with
      | zero => simp [apply] at h
      | succ m =>
        rw [apply, scripted_at] at h
        simp only at h
        have ha : At h0 p f done rest ⟨[], some x, []⟩
            { w with step := 1, user := ((spre x w.user.1).user, w.user.2 ++ [(false, x, (spre x w.user.1).edits)]) } := by
          refine ⟨?_, ?_, ?_, hframe⟩
          · simpa using hfield
          · simpa using hidx
          · simp
        cases he : Cursor.edits (σ := σ × List (Bool × Nat × List Edit)) ⟨p, f, true, some x⟩ (spre x w.user.1).edits
            { w with step := 1, user := ((spre x w.user.1).user, w.user.2 ++ [(false, x, (spre x w.user.1).edits)]) } with
        | none => simp only [he] at h; simp at h
        | some w1 =>
          simp only [he] at h
          obtain ⟨ha1, hu1, hd1⟩ := edits_at rfl rfl rfl _ _ _ _ (hpre x w.user.1).1 rfl ha he
          -- what remains to be done once the element is finished
          have fin : ∀ (s : Spot) (w2 : World (σ × List (Bool × Nat × List Edit))),
              At h0 p f done rest s w2 →
              listLoop (fun b => apply (scripted false p f spre opre) (scripted true p f spost opost) (m + 1)
                ⟨p, f, true, b⟩) p f n { w2 with index := w2.index + w2.step } = .ok w' →
              ∃ l ys, w'.user.2 = w2.user.2 ++ l ∧ Edited rest l ys ∧
                w'.heap.field p f = some (.list f (done ++ (s.before ++ s.cur.toList ++ s.after ++ ys))) ∧
                Frame h0 p f w'.heap := by
            intro s w2 ha2 hl
            obtain ⟨l, ys, g1, g2, g3, g4⟩ := ih rest (done ++ s.before ++ s.cur.toList ++ s.after)
              { w2 with index := w2.index + w2.step } w'
              (fun y hy => hleads y (List.mem_cons_of_mem _ hy)) (by simpa using ha2.list)
              (by simp only [ha2.idx, ha2.step]; simp; omega) ha2.frame hl
            exact ⟨l, ys, g1, g2, by simpa using g3, g4⟩
          cases hans : (spre x w.user.1).answer with
          | false =>
            simp only [hans, AOut.bind_ok] at h
            obtain ⟨l, ys, g1, g2, g3, g4⟩ := fin _ _ ha1 h
            refine ⟨(false, x, (spre x w.user.1).edits) :: l, _, ?_, .pruned g2, g3, g4⟩
            rw [g1, hu1]; simp
          | true =>
            simp only [hans] at h
            have hnd : Edit.delete ∉ (spre x w.user.1).edits := by
              intro hm
              have := (hpre x w.user.1).2 hm
              rw [hans] at this; cases this
            have hx := hleads x (List.mem_cons_self ..)
            cases hk : (w1.heap x).kind.bind Kind.apply with
            | none => simp only [hk] at h; simp at h
            | some steps =>
              simp only [hk] at h
              have hs := same_applySteps (g := Prod.snd) (h := w1.heap) (a := x)
                (ap := fun name l b =>
                  apply (scripted false p f spre opre) (scripted true p f spost opost) m ⟨x, name, l, b⟩)
                (by
                  have hno : ∀ b, Leads w1.heap x b → ∀ name l z, ¬ AtList p f ⟨b, name, l, z⟩ := by
                    intro b hb name l z hbad
                    have hb' := leads_frame ha1.frame.1 hb hx
                    rw [show b = p from hbad.1] at hb'
                    exact hx hb'
                  intro name l y w2 hw2 hy
                  refine same_apply (scripted_calm _ _ _ _ _) (scripted_calm _ _ _ _ _) m ⟨x, name, l, y⟩ w2 hw2
                    (hno x (.refl x) name l y) ?_
                  intro a haa b hb
                  exact hno b (hy a haa b hb)) m steps w1 rfl
              cases hr : applySteps (fun name l b =>
                  apply (scripted false p f spre opre) (scripted true p f spost opost) m ⟨x, name, l, b⟩)
                  x m steps w1 with
              | panic w2 => simp only [hr] at h; simp at h
              | abort w2 => simp only [hr] at h; simp at h
              | oof w2 => simp only [hr] at h; simp at h
              | ok w2 =>
                rw [hr] at hs
                obtain ⟨s1, s2, s3, s4⟩ := hs
                simp only [hr, AOut.bind_ok, scripted_at] at h
                have ha2 : At h0 p f done rest ((spre x w.user.1).edits.foldl Spot.edit ⟨[], some x, []⟩)
                    { w2 with user := ((spost x w2.user.1).user, w2.user.2 ++ [(true, x, (spost x w2.user.1).edits)]) } :=
                  ⟨by simp only [s1]; exact ha1.list, by simp only [s2]; exact ha1.idx,
                    by simp only [s3]; exact ha1.step, by simp only [s1]; exact ha1.frame⟩
                cases he2 : Cursor.edits (σ := σ × List (Bool × Nat × List Edit)) ⟨p, f, true, some x⟩
                    (spost x w2.user.1).edits { w2 with
                      user := ((spost x w2.user.1).user, w2.user.2 ++ [(true, x, (spost x w2.user.1).edits)]) } with
                | none => simp only [he2] at h; simp at h
                | some w3 =>
                  simp only [he2] at h
                  obtain ⟨ha3, hu3, _⟩ := edits_at rfl rfl rfl _ _ _ _ (hpost x w2.user.1) (hd1 hnd) ha2 he2
                  cases hans2 : (spost x w2.user.1).answer with
                  | false => simp only [hans2] at h; simp at h
                  | true =>
                    simp only [hans2, AOut.bind_ok] at h
                    obtain ⟨l, ys, g1, g2, g3, g4⟩ := fin _ _ ha3 h
                    refine ⟨(false, x, (spre x w.user.1).edits) :: (true, x, (spost x w2.user.1).edits) :: l, _, ?_,
                      .full g2, ?_, g4⟩
                    · rw [g1, hu3]; simp only [s4, hu1]; simp
                    · rw [g3, ← List.foldl_append]; rfl

/-! Editing does not fail -/

theorem assignable_frame {h0 h : Heap} {p : Nat} {f : FName} (hfr : Frame h0 p f h) (n : Nat) :
    h.assignable p f n = h0.assignable p f n := by
  have h1 : (h p).decl = (h0 p).decl := by simp only [Obj.decl, hfr.2.1]
  have h2 : (h n).kind = (h0 n).kind := by
    by_cases hn : n = p
    · rw [hn, hfr.2.1]
    · rw [hfr.1 n hn]
  simp only [Heap.assignable, h1, h2]

theorem edit_total {σ : Type} {h0 : Heap} {p : Nat} {f : FName} {done rest : List Nat} {s : Spot} {w : World σ}
    {c : Cursor} (hp : c.parent = p) (hf : c.name = f) (hl : c.inList = true) (hcur : s.cur.isSome) (e : Edit)
    (ha : At h0 p f done rest s w) (hn : ∀ n, e.node? = some n → h0.assignable p f n = true) :
    ∃ w', c.edit e w = some w' := by
  obtain ⟨x, hx⟩ := Option.isSome_iff_exists.1 hcur
  have hidx : c.idx w = ((done ++ s.before).length : Int) := by
    simp only [Cursor.idx, hl, if_true, ha.idx]; simp
  have hnat : (c.idx w).toNat = (done ++ s.before).length := by rw [hidx]; exact Int.toNat_natCast _
  have hneg : ¬ (c.idx w < 0) := by rw [hidx]; omega
  have hge : c.idx w ≥ 0 := by rw [hidx]; omega
  have hlist := ha.list
  rw [hx] at hlist
  simp only [Option.toList_some, List.singleton_append, List.cons_append, List.nil_append] at hlist
  have hlt : (c.idx w).toNat < (done ++ s.before ++ x :: (s.after ++ rest)).length := by rw [hnat]; simp
  have has : ∀ n, e.node? = some n → w.heap.assignable p f n = true := fun n h => by
    rw [assignable_frame ha.frame]; exact hn n h
  cases e with
  | before n =>
    simp only [Cursor.edit, Cursor.insertBefore, if_neg hneg, hp, hf, hlist,
      if_pos (show _ ∧ _ from ⟨Nat.le_of_lt hlt, has n rfl⟩)]
    exact ⟨_, rfl⟩
  | after n =>
    simp only [Cursor.edit, Cursor.insertAfter, if_neg hneg, hp, hf, hlist,
      if_pos (show _ ∧ _ from ⟨hlt, has n rfl⟩)]
    exact ⟨_, rfl⟩
  | replace n =>
    simp only [Cursor.edit, Cursor.replace, hp, hf, hlist, if_pos hge, if_pos hlt, if_pos (has n rfl)]
    exact ⟨_, rfl⟩
  | delete =>
    simp only [Cursor.edit, Cursor.delete, if_neg hneg, hp, hf, hlist, if_pos hlt]
    exact ⟨_, rfl⟩

theorem edits_total {σ : Type} {h0 : Heap} {p : Nat} {f : FName} {done rest : List Nat} {c : Cursor}
    (hp : c.parent = p) (hf : c.name = f) (hl : c.inList = true) : ∀ (es : List Edit) (s : Spot) (w : World σ),
    DeleteLast es → s.cur.isSome → At h0 p f done rest s w →
    (∀ e ∈ es, ∀ n, e.node? = some n → h0.assignable p f n = true) → ∃ w', c.edits es w = some w' := by
  intro es
  induction es with
  | nil => intro s w _ _ _ _; exact ⟨w, rfl⟩
  | cons e es ih =>
    intro s w hd hs ha hn
    obtain ⟨w1, h1⟩ := edit_total hp hf hl hs e ha (hn e (List.mem_cons_self ..))
    obtain ⟨ha1, _⟩ := edit_at hp hf hl hs e ha h1
    simp only [Cursor.edits, h1, Option.bind_some]
    by_cases hde : e = .delete
    · have : es = [] := hd [] es (by rw [hde]; rfl)
      subst this
      exact ⟨w1, rfl⟩
    · exact ih (s.edit e) w1 (fun a b hab => hd (e :: a) b (by rw [hab]; rfl)) (cur_isSome hde hs) ha1
        (fun e' he' => hn e' (List.mem_cons_of_mem _ he'))

/-- If `pre` never wants to go down and puts only nodes of the right type into the list, the loop ends. -/
theorem loop_total {σ : Type} {p : Nat} {f : FName} {h0 : Heap} {spre spost : Nat → σ → Script σ}
    {opre opost : Cursor → σ → Bool × σ}
    (hpre : ∀ x u, DeleteLast (spre x u).edits ∧ (spre x u).answer = false ∧
      ∀ e ∈ (spre x u).edits, ∀ n, e.node? = some n → h0.assignable p f n = true) (m : Nat) (n : Nat) :
    ∀ (rest done : List Nat) (w : World (σ × List (Bool × Nat × List Edit))), rest.length < n →
    w.heap.field p f = some (.list f (done ++ rest)) → w.index = (done.length : Int) → Frame h0 p f w.heap →
    ∃ w', listLoop (fun b => apply (scripted false p f spre opre) (scripted true p f spost opost) (m + 1)
      ⟨p, f, true, b⟩) p f n w = .ok w' := by
  induction n with
  | zero => intro rest done w h; omega
  | succ n ih =>
    intro rest done w hlen hfield hidx hframe
    rw [listLoop, hfield]
    simp only
    cases rest with
    | nil =>
      have : w.index ≥ ((done ++ ([] : List Nat)).length : Int) := by rw [hidx]; simp
      rw [if_pos this]
      exact ⟨_, rfl⟩
    | cons x rest =>
      have h1 : ¬ (w.index ≥ ((done ++ x :: rest).length : Int)) := by rw [hidx]; simp; omega
      have h2 : ¬ (w.index < 0) := by rw [hidx]; omega
      have hget : (done ++ x :: rest)[w.index.toNat]? = some x := by rw [hidx]; simp
      rw [if_neg h1, if_neg h2, hget, apply, scripted_at]
      have ha : At h0 p f done rest ⟨[], some x, []⟩
          { w with step := 1, user := ((spre x w.user.1).user, w.user.2 ++ [(false, x, (spre x w.user.1).edits)]) } := by
        refine ⟨?_, ?_, ?_, hframe⟩
        · simpa using hfield
        · simpa using hidx
        · simp
      obtain ⟨hd, hans, hn⟩ := hpre x w.user.1
      obtain ⟨w1, he⟩ := edits_total (c := ⟨p, f, true, some x⟩) rfl rfl rfl _ _ _ hd rfl ha hn
      obtain ⟨ha1, _, _⟩ := edits_at rfl rfl rfl _ _ _ _ hd rfl ha he
      simp only [he, hans, AOut.bind_ok]
      refine ih rest (done ++ ((spre x w.user.1).edits.foldl Spot.edit ⟨[], some x, []⟩).before ++
        ((spre x w.user.1).edits.foldl Spot.edit ⟨[], some x, []⟩).cur.toList ++
        ((spre x w.user.1).edits.foldl Spot.edit ⟨[], some x, []⟩).after) _ (by simpa using hlen) ?_ ?_ ha1.frame
      · simpa using ha1.list
      · simp only [ha1.idx, ha1.step]; simp; omega

/-! ### What the cursors say -/

/-- The names that `apply` passes are the names of the fields that it reads, except for "QueryStmt". -/
theorem apply_names : ∀ k ∈ Kind.all, ∀ st ∈ k.apply.getD [],
    (match st with
      | .one name f | .opt name f | .unlessAll name f => name == f || name == .QueryStmt
      | .list _ => true) = true := by
  decide +kernel

def ExactOr (e : Cursor × Heap × Int) : Prop := e.1.name = .QueryStmt ∨ e.1.Exact e.2.1 e.2.2

def AllExact {σ : Type} (o : AOut (σ × List (Cursor × Heap × Int))) : Prop :=
  match o with
  | .ok w | .abort w | .panic w | .oof w => ∀ e ∈ w.user.2, ExactOr e

theorem AllExact.bind {σ : Type} {o : AOut (σ × List (Cursor × Heap × Int))}
    {f : World (σ × List (Cursor × Heap × Int)) → AOut (σ × List (Cursor × Heap × Int))} (h : AllExact o)
    (hf : ∀ w, (∀ e ∈ w.user.2, ExactOr e) → AllExact (f w)) : AllExact (o.bind f) := by
  cases o with
  | ok w => exact hf w h
  | abort w => exact h
  | panic w => exact h
  | oof w => exact h

theorem exact_listLoop {σ : Type}
    {ap : Option Nat → World (σ × List (Cursor × Heap × Int)) → AOut (σ × List (Cursor × Heap × Int))} {p : Nat}
    {f : FName} (hap : ∀ x w, (∀ e ∈ w.user.2, ExactOr e) →
      (∃ g as, w.heap.field p f = some (.list g as) ∧ 0 ≤ w.index ∧ as[w.index.toNat]? = x ∧ x ≠ none) →
      AllExact (ap x w)) (n : Nat) : ∀ w, (∀ e ∈ w.user.2, ExactOr e) → AllExact (listLoop ap p f n w) := by
  induction n with
  | zero => intro w hw; exact hw
  | succ n ih =>
    intro w hw
    rw [listLoop]
    cases hfld : w.heap.field p f with
    | none => exact hw
    | some x =>
      cases x with
      | nil => exact hw
      | one => exact hw
      | list a as =>
        simp only
        by_cases h1 : w.index ≥ as.length
        · simp only [h1, if_true]; exact hw
        · by_cases h2 : w.index < 0
          · simp only [h1, h2, if_true, if_false]; exact hw
          · simp only [h1, h2, if_false]
            refine AllExact.bind (hap _ { w with step := 1 } hw ⟨a, as, hfld, by show 0 ≤ w.index; omega, rfl, ?_⟩)
              (fun w' hw' => ih { w' with index := w'.index + w'.step } hw')
            simp only [ne_eq, List.getElem?_eq_none_iff]
            omega

theorem exact_applySteps {σ : Type}
    {ap : FName → Bool → Option Nat → World (σ × List (Cursor × Heap × Int)) →
      AOut (σ × List (Cursor × Heap × Int))} {a : Nat}
    (hap : ∀ name l x w, (∀ e ∈ w.user.2, ExactOr e) → ExactOr (⟨a, name, l, x⟩, w.heap, w.index) →
      AllExact (ap name l x w)) (n : Nat) (ss : List AStep)
    (hss : ∀ st ∈ ss, (match st with
      | .one name f | .opt name f | .unlessAll name f => name == f || name == .QueryStmt
      | .list _ => true) = true) :
    ∀ w, (∀ e ∈ w.user.2, ExactOr e) → AllExact (applySteps ap a n ss w) := by
  induction ss with
  | nil => intro w hw; exact hw
  | cons s ss ih =>
    intro w hw
    have hs := hss s (List.mem_cons_self ..)
    have key : ∀ name f x, (name == f || name == FName.QueryStmt) = true → w.heap.ptr a f = x →
        ExactOr (⟨a, name, false, x⟩, w.heap, w.index) := by
      intro name f x hn hx
      simp only [Bool.or_eq_true, beq_iff_eq] at hn
      rcases hn with rfl | rfl
      · right; simpa [Cursor.Exact] using hx
      · left; rfl
    refine AllExact.bind ?_ (ih (fun st hst => hss st (List.mem_cons_of_mem _ hst)))
    cases s with
    | one name f => exact hap _ _ _ _ hw (key name f _ hs rfl)
    | opt name f =>
      simp only [applyStep]
      cases hp : w.heap.ptr a f with
      | none => exact hw
      | some b => exact hap _ _ _ _ hw (key name f _ hs hp)
    | list f =>
      simp only [applyStep, applyList]
      refine AllExact.bind (exact_listLoop ?_ n { w with index := 0 } hw) (fun w' hw' => hw')
      intro x w' hw' hx
      refine hap _ _ _ _ hw' (.inr ?_)
      simpa [Cursor.Exact] using hx
    | unlessAll name f =>
      simp only [applyStep]
      split
      · exact hw
      · exact hap _ _ _ _ hw (key name f _ hs rfl)

theorem exact_apply {σ : Type} (pre : Callback σ) (post : Callback (σ × List (Cursor × Heap × Int)))
    (hpost : ∀ c w, match post c w with | .ret _ w' | .panic w' => w'.user.2 = w.user.2) (n : Nat) :
    ∀ c w, (∀ e ∈ w.user.2, ExactOr e) → ExactOr (c, w.heap, w.index) →
    AllExact (apply (witnessed pre) post n c w) := by
  induction n with
  | zero => intro c w hw _; exact hw
  | succ n ih =>
    intro c w hw hc
    have hw' : ∀ e ∈ w.user.2 ++ [(c, w.heap, w.index)], ExactOr e := by
      intro e he
      rcases List.mem_append.1 he with he | he
      · exact hw e he
      · rw [List.mem_singleton.1 he]; exact hc
    rw [apply]
    cases hp : pre c ⟨w.user.1, w.heap, w.index, w.step⟩ with
    | panic w1 => simp only [witnessed, hp]; exact hw'
    | ret b w1 =>
      simp only [witnessed, hp]
      cases b with
      | false => exact hw'
      | true =>
        simp only
        cases c.node with
        | none => exact hw'
        | some a =>
          simp only
          cases hk : (w1.heap a).kind with
          | none => exact hw'
          | some k =>
            simp only [Option.bind_some]
            cases hs : k.apply with
            | none => exact hw'
            | some steps =>
              simp only
              have hn := apply_names k (Kind.mem_all _)
              rw [hs] at hn
              refine AllExact.bind (exact_applySteps (fun name l x w hw hc => ih _ _ hw hc) n steps hn _ hw') ?_
              intro w2 hw2
              have := hpost c w2
              cases hq : post c w2 with
              | panic w3 => rw [hq] at this; simp only [AllExact, this]; exact hw2
              | ret b w3 =>
                rw [hq] at this
                cases b <;> simp only [AllExact, this] <;> exact hw2

theorem passW_any {ks : List Tree} {l : List CbCall} (h : PassW ks l) (hg : ∀ t ∈ ks, t.Good) : PassAny ks l := by
  induction h with
  | done => exact .done
  | node hk _ _ ih1 ih2 =>
    rename_i t rest ks a b _ _
    have ht := hg t (List.mem_cons_self ..)
    have hgt := ht t (.refl t)
    obtain ⟨ks', hk', hperm⟩ := walkKids_perm hgt.1 hgt.2
    rw [hk'] at hk
    have : ks' = ks := by
      simp only [Option.some.injEq] at hk
      exact (List.map_inj_right (fun _ _ h => Option.some.inj h)).1 hk
    subst this
    exact .node hperm (ih1 fun c hc => ht.child (hperm.mem_iff.1 hc))
      (ih2 fun c hc => hg c (List.mem_cons_of_mem _ hc))

end Verif
