import Verif.Proofs.Walk
import Verif.Proofs.NodeCount
/-
How often `Walk` calls the visitor: for every node at most twice, and for at most one missing child of every node.
-/
set_option linter.unusedVariables false
namespace Verif

/-- The nodes below the children that are there. -/
def someCount (ks : List (Option Tree)) : Nat := (ks.map fun k => (k.map Tree.count).getD 0).sum

/-- The children that are missing. -/
def noneCount (ks : List (Option Tree)) : Nat := ks.countP (·.isNone)

@[simp] theorem someCount_nil : someCount [] = 0 := rfl
@[simp] theorem someCount_some (t : Tree) (ks : List (Option Tree)) : someCount (some t :: ks) = t.count + someCount ks := by
  simp [someCount]
@[simp] theorem someCount_none (ks : List (Option Tree)) : someCount (none :: ks) = someCount ks := by
  simp [someCount]
@[simp] theorem someCount_append (ks ls : List (Option Tree)) : someCount (ks ++ ls) = someCount ks + someCount ls := by
  simp [someCount]
theorem someCount_map (ts : List Tree) : someCount (ts.map some) = countList ts := by
  induction ts with
  | nil => rfl
  | cons t ts ih => simp [ih]

@[simp] theorem noneCount_nil : noneCount [] = 0 := rfl
@[simp] theorem noneCount_some (t : Tree) (ks : List (Option Tree)) : noneCount (some t :: ks) = noneCount ks := by
  simp [noneCount]
@[simp] theorem noneCount_none (ks : List (Option Tree)) : noneCount (none :: ks) = noneCount ks + 1 := by
  simp [noneCount]
@[simp] theorem noneCount_append (ks ls : List (Option Tree)) : noneCount (ks ++ ls) = noneCount ks + noneCount ls := by
  simp [noneCount]
theorem noneCount_map (ts : List Tree) : noneCount (ts.map some) = 0 := by
  induction ts with
  | nil => rfl
  | cons t ts ih => simpa using ih

/-- The name of the field that a statement of `Walk` visits. -/
def WStep.field : WStep → FName
  | .one f | .opt f | .list f | .unlessAll f => f

/-- `Walk` visits no field twice. -/
theorem table_once : ∀ k ∈ Kind.all, (match k.walk with
    | some sts => decide (sts.map WStep.field).Nodup
    | none => true) = true := by decide +kernel

/-- The fields without those of a name. -/
def without (f : FName) (fs : List FieldVal) : List FieldVal := fs.filter fun x => !(x.name == f)

theorem find_without {f g : FName} (h : g ≠ f) (fs : List FieldVal) :
    (without f fs).find? (fun x => x.name == g) = fs.find? (fun x => x.name == g) := by
  induction fs with
  | nil => rfl
  | cons x xs ih =>
    unfold without at ih ⊢
    by_cases hx : x.name = f
    · have h1 : (x.name == g) = false := by rw [beq_eq_false_iff_ne, hx]; exact fun h' => h h'.symm
      simp only [List.filter_cons, hx, beq_self_eq_true, Bool.not_true, Bool.false_eq_true, if_false, List.find?_cons]
      rw [hx] at h1
      simp only [h1, ih]
    · have h1 : (x.name == f) = false := by rw [beq_eq_false_iff_ne]; exact hx
      simp only [List.filter_cons, h1, Bool.not_false, if_true, List.find?_cons, ih]

theorem kids_without {f : FName} {st : WStep} (h : st.field ≠ f) (all : Bool) (fs : List FieldVal) :
    st.kids all (without f fs) = st.kids all fs := by
  cases st <;> simp only [WStep.field] at h <;> simp only [WStep.kids, find_without h]

theorem countFields_cons (x : FieldVal) (xs : List FieldVal) : countFields (x :: xs) = countFields [x] + countFields xs := by
  simp [countFields, Tree.nodesFields]

theorem countFields_without (f : FName) (fs : List FieldVal) : countFields (without f fs) ≤ countFields fs := by
  induction fs with
  | nil => exact Nat.le_refl _
  | cons x xs ih =>
    unfold without at ih ⊢
    rw [List.filter_cons, countFields_cons x xs]
    split
    · rw [countFields_cons]; omega
    · omega

theorem countFields_found {f : FName} {x : FieldVal} {fs : List FieldVal} (h : fs.find? (fun x => x.name == f) = some x) :
    countFields [x] + countFields (without f fs) ≤ countFields fs := by
  induction fs with
  | nil => simp at h
  | cons y ys ih =>
    rw [List.find?_cons] at h
    rw [countFields_cons y ys]
    unfold without at ih ⊢
    rw [List.filter_cons]
    split at h
    · rename_i hy
      cases h
      have := countFields_without f ys
      unfold without at this
      simp only [hy, Bool.not_true, Bool.false_eq_true, if_false]
      omega
    · rename_i hy
      have := ih h
      simp only [hy, Bool.not_false, if_true]
      rw [countFields_cons y]
      omega

theorem step_count (st : WStep) (all : Bool) (fs : List FieldVal) :
    someCount (st.kids all fs) + countFields (without st.field fs) ≤ countFields fs := by
  have h0 := countFields_without st.field fs
  have key : ∀ f, st.field = f → someCount (st.kids all fs) = 0 ∨
      ∃ x, fs.find? (fun x => x.name == f) = some x ∧ someCount (st.kids all fs) ≤ countFields [x] := by
    intro f hf
    cases st <;> (
      simp only [WStep.field] at hf
      subst hf
      simp only [WStep.kids]
      cases hx : fs.find? _ with
      | none => left; simp <;> (split <;> rfl)
      | some x => cases x <;> simp [someCount_map] <;> (split <;> simp))
  rcases key _ rfl with h | ⟨x, hx, h⟩
  · omega
  · have := countFields_found hx
    omega

theorem steps_count (all : Bool) : ∀ (sts : List WStep) (fs : List FieldVal), (sts.map WStep.field).Nodup →
    someCount (sts.flatMap (WStep.kids all fs)) ≤ countFields fs
  | [], fs, _ => Nat.zero_le _
  | st :: sts, fs, h => by
    simp only [List.map_cons, List.nodup_cons, List.mem_map, not_exists, not_and] at h
    have h1 := steps_count all sts (without st.field fs) h.2
    have h2 : sts.flatMap (WStep.kids all (without st.field fs)) = sts.flatMap (WStep.kids all fs) := by
      simp only [List.flatMap_def]
      congr 1
      exact List.map_congr_left fun s hs => kids_without (h.1 s hs) all fs
    have h3 := step_count st all fs
    rw [h2] at h1
    rw [List.flatMap_cons, someCount_append]
    omega

theorem count_children (t : Tree) : t.count = countFields t.fields + 1 := by cases t; simp [Tree.fields]

/-- The trees of the children that `Walk` visits have together fewer nodes. -/
theorem walkKids_count {t : Tree} {ks : List (Option Tree)} (h : t.walkKids = some ks) : someCount ks + 1 ≤ t.count := by
  simp only [Tree.walkKids, Option.map_eq_some_iff] at h
  obtain ⟨sts, hs, rfl⟩ := h
  have := table_once t.kind (Kind.mem_all _)
  rw [hs] at this
  have := steps_count t.all sts t.fields (by simpa using this)
  rw [count_children]
  omega

/-- The statements of `Walk` that may visit a field although it is nil. -/
def WStep.blind (k : Kind) : WStep → Bool
  | .one f => uncheckedFields.contains (k, f)
  | _ => false

/-- The other statements visit a field of the declared kind, which is never nil. -/
def WStep.sighted (k : Kind) : WStep → Bool
  | .one f => uncheckedFields.contains (k, f) ||
    k.fields.any fun d => d.name == f && !d.slice && !(optionalFields.contains (k, f))
  | .unlessAll f => k == .LimitExpr && f == .LimitValue && k.fields.any fun d => d.name == f && !d.slice
  | _ => true

theorem table_blind : ∀ k ∈ Kind.all, (match k.walk with
    | some sts => decide (sts.countP (WStep.blind k) ≤ 1) && sts.all (WStep.sighted k)
    | none => true) = true := by decide +kernel

theorem fitsAll_mem {k : Kind} : ∀ {ds : List Field} {fs : List FieldVal}, fitsAll k ds fs = true → ∀ d ∈ ds,
    ∃ x ∈ fs, x.fits k d = true
  | [], _, _, _, h => by cases h
  | d :: ds, [], h, _, _ => by simp [fitsAll] at h
  | d :: ds, x :: xs, h, d', hd => by
    simp only [fitsAll, Bool.and_eq_true] at h
    rcases List.mem_cons.1 hd with rfl | hd
    · exact ⟨x, List.mem_cons_self, h.1⟩
    · obtain ⟨y, hy, hf⟩ := fitsAll_mem h.2 d' hd
      exact ⟨y, List.mem_cons_of_mem _ hy, hf⟩

theorem step_none {t : Tree} (hw : t.WellTyped) {st : WStep} (h : st.sighted t.kind = true) :
    noneCount (st.kids t.all t.fields) ≤ if st.blind t.kind then 1 else 0 := by
  have hn : (t.fields.map FieldVal.name).Nodup := by
    rw [fitsAll_names hw.1]
    simpa [fieldNamesDistinct] using table_names t.kind (Kind.mem_all _)
  cases st with
  | list f =>
    simp only [WStep.kids]
    split <;> simp [noneCount_map]
  | opt f =>
    simp only [WStep.kids]
    split <;> simp
  | one f =>
    cases hu : (WStep.one f).blind t.kind with
    | true => simp only [WStep.kids, if_true]; split <;> simp
    | false =>
      simp only [WStep.blind] at hu
      simp only [WStep.sighted, hu, Bool.false_or, List.any_eq_true, Bool.and_eq_true, beq_iff_eq, Bool.not_eq_true'] at h
      obtain ⟨d, hd, ⟨rfl, h2⟩, h3⟩ := h
      obtain ⟨x, hx, hf⟩ := fitsAll_mem hw.1 d hd
      have h4 := find_of_nodup hn hx
      rw [fits_name hf] at h4
      simp only [WStep.kids, h4]
      cases x with
      | one g u => simp
      | list g us => simp [FieldVal.fits, h2] at hf
      | nil g =>
        simp only [FieldVal.fits, Bool.and_eq_true, beq_iff_eq] at hf
        rw [hf.1.1, h3] at hf
        simp at hf
  | unlessAll f =>
    simp only [WStep.sighted, Bool.and_eq_true, beq_iff_eq, List.any_eq_true, Bool.not_eq_true'] at h
    obtain ⟨⟨h0, rfl⟩, d, hd, h1, h2⟩ := h
    obtain ⟨x, hx, hf⟩ := fitsAll_mem hw.1 d hd
    have h4 := find_of_nodup hn hx
    rw [fits_name hf, h1] at h4
    have h5 := hw.2 h0
    simp only [WStep.kids, h4]
    cases hb : t.all with
    | true => simp
    | false =>
      simp only [Bool.false_eq_true, if_false]
      cases x with
      | one g u => simp
      | list g us => simp [FieldVal.fits, h2] at hf
      | nil g =>
        simp only [FieldVal.fits, Bool.and_eq_true, beq_iff_eq] at hf
        rw [hf.1.1, h1] at hx
        rw [hb] at h5
        exact absurd (h5.2 hx) (by simp)

/-- At most one child of a node is missing. -/
theorem walkKids_missing {t : Tree} (hw : t.WellTyped) {ks : List (Option Tree)} (h : t.walkKids = some ks) : noneCount ks ≤ 1 := by
  simp only [Tree.walkKids, Option.map_eq_some_iff] at h
  obtain ⟨sts, hs, rfl⟩ := h
  have ht := table_blind t.kind (Kind.mem_all _)
  rw [hs] at ht
  simp only [Bool.and_eq_true, decide_eq_true_eq, List.all_eq_true] at ht
  refine Nat.le_trans ?_ ht.1
  have h2 := ht.2
  clear ht hs
  induction sts with
  | nil => exact Nat.le_refl _
  | cons st sts ih =>
    have h1 := step_none hw (h2 st (by simp))
    have h3 := ih fun s hs => h2 s (by simp [hs])
    rw [List.flatMap_cons, noneCount_append, List.countP_cons]
    omega

/-- A traversal calls the visitor for no more nodes than there are. -/
theorem traversal_nodes {ks : List (Option Tree)} {l : List (Option Tree × Bool)} (h : Traversal Tree.walkKids ks l) :
    l.countP (·.1.isSome) ≤ someCount ks := by
  induction h with
  | done => exact Nat.le_refl _
  | nil _ ih => simpa using ih
  | pruned _ ih =>
    rename_i t _ _ _
    have := count_children t
    simp
    omega
  | visited hk _ _ ih1 ih2 =>
    have := walkKids_count hk
    simp
    omega

/-- A traversal of typed trees has at most three calls for every node. -/
theorem traversal_calls {ks : List (Option Tree)} {l : List (Option Tree × Bool)} (h : Traversal Tree.walkKids ks l)
    (hw : ∀ c, some c ∈ ks → ∀ u, Occurs c u → u.WellTyped) : l.length ≤ 3 * someCount ks + noneCount ks := by
  induction h with
  | done => exact Nat.le_refl _
  | nil _ ih =>
    have := ih fun c hc => hw c (by simp [hc])
    simp
    omega
  | pruned _ ih =>
    rename_i t _ _ _
    have := count_children t
    have := ih fun c hc => hw c (by simp [hc])
    simp
    omega
  | visited hk _ _ ih1 ih2 =>
    have h1 := walkKids_count hk
    have h2 := walkKids_missing (hw _ (by simp) _ (.refl _)) hk
    have h3 := ih1 fun c hc u hu => hw _ (by simp) u (.child (walkKids_sub hk hc) hu)
    have h4 := ih2 fun c hc => hw c (by simp [hc])
    simp
    omega

end Verif
