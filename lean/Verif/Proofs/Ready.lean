/-
Lemmas for C85: `Apply` does not panic by itself.
-/
import Verif.Proofs.Typed

namespace Verif

/-- What a statement of a case takes for granted. -/
def AStep.needs (k : Kind) : AStep → Bool
  | .one _ f => k.fields.any fun d => d.name == f && !d.slice &&
      (!optionalFields.contains (k, f) || uncheckedFields.contains (k, f))
  | .opt _ _ => true
  | .list f => k.fields.any fun d => d.name == f && d.slice
  | .unlessAll _ f => k == .LimitExpr && f == .LimitValue

theorem needs_table : ∀ k ∈ Kind.all, applyUnknownKinds.contains k = true ∨
    ∃ steps, k.apply = some steps ∧ (steps.all (AStep.needs k)) = true := by
  have h : ∀ k ∈ Kind.all, (applyUnknownKinds.contains k || (match k.apply with
      | some steps => steps.all (AStep.needs k)
      | none => false)) = true := by decide +kernel
  intro k hk
  have := h k hk
  cases ha : k.apply with
  | none => rw [ha] at this; exact .inl (by simpa using this)
  | some steps =>
    rw [ha] at this
    rcases Bool.or_eq_true _ _ |>.mp this with h | h
    · exact .inl h
    · exact .inr ⟨steps, rfl, h⟩

theorem ready_same {h g : Heap} (hr : h.Ready) (hs : SameStructs h g) : g.Ready := by
  intro a k hk
  obtain ⟨h1, h2, h3, h4⟩ := hs a
  obtain ⟨r1, r2, r3, r4⟩ := hr a k (by rw [← h1, hk])
  refine ⟨r1, by rw [h3, r2], fun d hd hsl ho => h4 _ (r3 d hd hsl ho), fun hkl hall => ?_⟩
  exact h4 _ (r4 hkl (by rw [← h2, hall]))

theorem ready_steps {h : Heap} (hr : h.Ready) {a : Nat} {k : Kind} (hk : (h a).kind = some k) :
    ∃ steps, k.apply = some steps ∧ ∀ st ∈ steps, st.needs k = true := by
  rcases needs_table k (Kind.mem_all k) with h1 | ⟨steps, h1, h2⟩
  · exact absurd (by simpa using h1) (hr a k hk).1
  · exact ⟨steps, h1, List.all_eq_true.1 h2⟩

theorem ready_list {h : Heap} (ht : h.Typed) (hr : h.Ready) {a : Nat} {k : Kind} (hk : (h a).kind = some k) {f : FName}
    (hn : (AStep.list f).needs k = true) : ∃ g as, h.field a f = some (.list g as) := by
  simp only [AStep.needs, List.any_eq_true, Bool.and_eq_true, beq_iff_eq] at hn
  obtain ⟨d, hd, hdf, hsl⟩ := hn
  obtain ⟨_, hnames, _⟩ := hr a k hk
  have hm : d.name ∈ (h a).fields.map FieldRef.name := hnames ▸ List.mem_map_of_mem hd
  cases hf : h.field a f with
  | none =>
    obtain ⟨x, hx, hxn⟩ := List.mem_map.1 hm
    exact absurd (List.find?_eq_none.1 hf x hx) (by simp [hxn, hdf])
  | some x =>
    obtain ⟨hx, hxn⟩ := fieldRef_mem hf
    obtain ⟨d', hd', hfit⟩ := ht a x hx
    have hdm : d ∈ (h a).decl := by simp only [Obj.decl, hk]; exact hd
    have hname : x.name = d'.name := by cases x <;> exact hfit.1
    obtain rfl := decl_unique _ d' hd' d hdm (by rw [← hname, hxn, hdf])
    cases x with
    | list g as => exact ⟨g, as, rfl⟩
    | nil g => have := hfit.2; rw [hsl] at this; cases this
    | one g b => have := hfit.2.1; rw [hsl] at this; cases this

/-- A pointer in memory is to a node. -/
theorem typed_ptr {h : Heap} (ht : h.Typed) {a b : Nat} {f : FName} (hp : h.ptr a f = some b) : (h b).kind ≠ none := by
  cases hf : h.field a f with
  | none => simp [Heap.ptr, hf] at hp
  | some x =>
    cases x with
    | nil => simp [Heap.ptr, hf] at hp
    | list => simp [Heap.ptr, hf] at hp
    | one g c =>
      simp only [Heap.ptr, hf, Option.some.injEq] at hp
      subst hp
      obtain ⟨_, _, _, _, k, h1, _⟩ := ht a _ (fieldRef_mem hf).1
      rw [h1]; simp

theorem edit_iter {σ : Type} {c : Cursor} {w w' : World σ} {e : Edit} (he : c.edit e w = some w') :
    w.index ≤ w'.index ∧ w.step - deletions [e] ≤ w'.step ∧
    (c.inList = false → w'.index = w.index ∧ w'.step = w.step) := by
  cases e with
  | before n =>
    simp only [Cursor.edit, Cursor.insertBefore] at he
    split at he
    · cases he
    · rename_i hi
      split at he
      · split at he
        · cases he
          refine ⟨by show w.index ≤ w.index + 1; omega, by show w.step - _ ≤ w.step; omega, fun hl => ?_⟩
          simp [Cursor.idx, hl] at hi
        · cases he
      · cases he
  | after n =>
    simp only [Cursor.edit, Cursor.insertAfter] at he
    split at he
    · cases he
    · rename_i hi
      split at he
      · split at he
        · cases he
          refine ⟨Int.le_refl _, by show w.step - _ ≤ w.step + 1; omega, fun hl => ?_⟩
          simp [Cursor.idx, hl] at hi
        · cases he
      · cases he
  | delete =>
    simp only [Cursor.edit, Cursor.delete] at he
    split at he
    · cases he
    · rename_i hi
      split at he
      · split at he
        · cases he
          refine ⟨Int.le_refl _, Int.le_refl _, fun hl => ?_⟩
          simp [Cursor.idx, hl] at hi
        · cases he
      · cases he
  | replace n =>
    have : w'.index = w.index ∧ w'.step = w.step := by
      simp only [Cursor.edit, Cursor.replace] at he
      split at he
      · cases he
      · split at he
        · split at he
          · split at he
            · split at he
              · cases he; exact ⟨rfl, rfl⟩
              · cases he
            · cases he
          · split at he
            · cases he
            · cases he; exact ⟨rfl, rfl⟩
        · cases he
    exact ⟨by omega, by omega, fun _ => this⟩

theorem edits_iter {σ : Type} {c : Cursor} : ∀ (es : List Edit) {w w' : World σ}, c.edits es w = some w' →
    w.index ≤ w'.index ∧ w.step - deletions es ≤ w'.step ∧
    (c.inList = false → w'.index = w.index ∧ w'.step = w.step)
  | [], w, w', he => by cases he; exact ⟨Int.le_refl _, by omega, fun _ => ⟨rfl, rfl⟩⟩
  | e :: es, w, w', he => by
    simp only [Cursor.edits] at he
    cases h1 : c.edit e w with
    | none => rw [h1] at he; cases he
    | some w1 =>
      rw [h1] at he
      obtain ⟨a1, b1, c1⟩ := edit_iter h1
      obtain ⟨a2, b2, c2⟩ := edits_iter es he
      have hd : deletions (e :: es) = deletions [e] + deletions es := by
        simp only [deletions]; rw [← List.countP_append]; rfl
      refine ⟨by omega, by omega, fun hl => ?_⟩
      exact ⟨(c2 hl).1.trans (c1 hl).1, (c2 hl).2.trans (c1 hl).2⟩

/-- No panic; after a normal return the memory is as good as before, and the iterator has moved at most `k` back. -/
def Safe {σ : Type} (l : Bool) (k : Nat) (w : World σ) (o : AOut σ) : Prop :=
  match o with
  | .ok w' => w'.heap.Typed ∧ w'.heap.Ready ∧ SameStructs w.heap w'.heap ∧ w.index ≤ w'.index ∧ w.step - k ≤ w'.step ∧
      (l = false → w'.index = w.index ∧ w'.step = w.step)
  | .abort _ => True
  | .panic _ => False
  | .oof _ => True

theorem safe_mild {σ : Type} {k : Nat} {cb : Callback σ} (hcb : Mild k cb) (c : Cursor) (w : World σ)
    (ht : w.heap.Typed) (hr : w.heap.Ready) : ∃ b w', cb c w = .ret b w' ∧ Safe c.inList k w (.ok w') := by
  obtain ⟨es, w1, b, u, he, hd, hc⟩ := hcb c w
  obtain ⟨h1, h2⟩ := typed_edits es ht he
  obtain ⟨h3, h4, h5⟩ := edits_iter es he
  exact ⟨b, _, hc, h1, ready_same hr h2, h2, h3, by show w.step - k ≤ w1.step; omega, h5⟩

theorem safe_listLoop {σ : Type} {ap : Option Nat → World σ → AOut σ} {p : Nat} {f : FName} {k : Kind}
    (hn : (AStep.list f).needs k = true)
    (hap : ∀ x w, w.heap.Typed → w.heap.Ready → (∃ b, x = some b ∧ (w.heap b).kind ≠ none) →
      Safe true 1 w (ap x w)) (n : Nat) :
    ∀ w : World σ, w.heap.Typed → w.heap.Ready → (w.heap p).kind = some k → 0 ≤ w.index →
      match listLoop ap p f n w with
      | .ok w' => w'.heap.Typed ∧ w'.heap.Ready ∧ SameStructs w.heap w'.heap
      | .panic _ => False
      | _ => True := by
  induction n with
  | zero => intro w _ _ _ _; simp [listLoop]
  | succ n ih =>
    intro w ht hr hk hi
    obtain ⟨g, as, hf⟩ := ready_list ht hr hk hn
    rw [listLoop, hf]
    simp only []
    by_cases hlt : w.index ≥ as.length
    · rw [if_pos hlt]; exact ⟨ht, hr, .refl _⟩
    · rw [if_neg hlt, if_neg (by omega)]
      have hlen : w.index.toNat < as.length := by omega
      have hx : ∃ b, as[w.index.toNat]? = some b ∧ (w.heap b).kind ≠ none := by
        refine ⟨as[w.index.toNat], List.getElem?_eq_getElem hlen, ?_⟩
        obtain ⟨d, _, _, _, h3⟩ := ht p _ (fieldRef_mem hf).1
        obtain ⟨k', h4, _⟩ := h3 _ (List.getElem_mem hlen)
        rw [h4]; simp
      have h1 := hap as[w.index.toNat]? { w with step := 1 } ht hr hx
      cases ho : ap as[w.index.toNat]? { w with step := 1 } with
      | panic w1 => rw [ho] at h1; exact h1
      | abort w1 => trivial
      | oof w1 => trivial
      | ok w1 =>
        rw [ho] at h1
        obtain ⟨t1, r1, s1, i1, st1, _⟩ := h1
        have i1' : w.index ≤ w1.index := i1
        have st1' : (1 : Int) - 1 ≤ w1.step := st1
        have h2 := ih { w1 with index := w1.index + w1.step } t1 r1 ((s1 p).1.trans hk)
          (by show 0 ≤ w1.index + w1.step; omega)
        simp only [AOut.bind]
        cases ho2 : listLoop ap p f n { w1 with index := w1.index + w1.step } with
        | ok w2 => rw [ho2] at h2; exact ⟨h2.1, h2.2.1, SameStructs.trans s1 h2.2.2⟩
        | panic w2 => rw [ho2] at h2; exact h2
        | abort w2 => trivial
        | oof w2 => trivial

theorem Safe.bind {σ : Type} {w : World σ} {o : AOut σ} {f : World σ → AOut σ} {k1 k2 : Nat} {l : Bool}
    (ho : Safe l k1 w o) (hf : ∀ w', Safe l k1 w (.ok w') → Safe l k2 w' (f w')) : Safe l (k1 + k2) w (o.bind f) := by
  cases o with
  | panic => exact ho
  | abort => trivial
  | oof => trivial
  | ok w1 =>
    have h1 := hf w1 ho
    obtain ⟨t1, r1, s1, i1, p1, e1⟩ := ho
    simp only [AOut.bind]
    cases hfw : f w1 with
    | panic => rw [hfw] at h1; exact h1
    | abort => trivial
    | oof => trivial
    | ok w2 =>
      rw [hfw] at h1
      obtain ⟨t2, r2, s2, i2, p2, e2⟩ := h1
      exact ⟨t2, r2, s1.trans s2, by omega, by omega, fun hl => ⟨(e2 hl).1.trans (e1 hl).1, (e2 hl).2.trans (e1 hl).2⟩⟩

theorem safe_applyStep {σ : Type} {ap : FName → Bool → Option Nat → World σ → AOut σ} {a : Nat} {k : Kind} {st : AStep}
    (hn : st.needs k = true)
    (hap : ∀ name l x w, w.heap.Typed → w.heap.Ready → (∃ b, x = some b ∧ (w.heap b).kind ≠ none) →
      Safe l 1 w (ap name l x w)) (n : Nat) (w : World σ) (ht : w.heap.Typed) (hr : w.heap.Ready)
    (hk : (w.heap a).kind = some k) : Safe false 0 w (applyStep ap a n st w) := by
  have one : ∀ (name f : FName), w.heap.ptr a f ≠ none → Safe false 0 w (ap name false (w.heap.ptr a f) w) := by
    intro name f hp
    cases hb : w.heap.ptr a f with
    | none => exact absurd hb hp
    | some b =>
      have := hap name false (some b) w ht hr ⟨b, rfl, typed_ptr ht hb⟩
      cases ho : ap name false (some b) w with
      | panic => rw [ho] at this; exact this
      | abort => trivial
      | oof => trivial
      | ok w' =>
        rw [ho] at this
        obtain ⟨t, r, s, i, p, e⟩ := this
        exact ⟨t, r, s, i, by have := (e rfl).2; omega, e⟩
  have stay : Safe false 0 w (.ok w) := ⟨ht, hr, .refl _, Int.le_refl _, by omega, fun _ => ⟨rfl, rfl⟩⟩
  obtain ⟨_, _, h3, h4⟩ := hr a k hk
  cases st with
  | one name f =>
    refine one name f ?_
    simp only [AStep.needs, List.any_eq_true, Bool.and_eq_true, beq_iff_eq, Bool.not_eq_true', Bool.or_eq_true] at hn
    obtain ⟨d, hd, ⟨rfl, hsl⟩, ho⟩ := hn
    refine h3 d hd hsl fun hm => ?_
    rcases ho with ho | ho
    · have : optionalFields.contains (k, d.name) = true := by simpa using hm
      rw [ho] at this; cases this
    · simpa using ho
  | opt name f =>
    simp only [applyStep]
    split
    · rename_i b hb
      have := one name f (by rw [hb]; simp)
      rw [hb] at this
      exact this
    · exact stay
  | list f =>
    simp only [applyStep, applyList]
    have := safe_listLoop (p := a) hn (hap f true) n { w with index := 0 } ht hr hk (Int.le_refl _)
    cases ho : listLoop (ap f true) a f n { w with index := 0 } with
    | panic => rw [ho] at this; exact this
    | abort => trivial
    | oof => trivial
    | ok w' =>
      rw [ho] at this
      exact ⟨this.1, this.2.1, this.2.2, Int.le_refl _, by show w.step - (0 : Nat) ≤ w.step; omega, fun _ => ⟨rfl, rfl⟩⟩
  | unlessAll name f =>
    simp only [AStep.needs, Bool.and_eq_true, beq_iff_eq] at hn
    obtain ⟨rfl, rfl⟩ := hn
    simp only [applyStep]
    split
    · exact stay
    · rename_i hall
      exact one name _ (h4 rfl (by simpa using hall))

theorem safe_applySteps {σ : Type} {ap : FName → Bool → Option Nat → World σ → AOut σ} {a : Nat} {k : Kind}
    (hap : ∀ name l x w, w.heap.Typed → w.heap.Ready → (∃ b, x = some b ∧ (w.heap b).kind ≠ none) →
      Safe l 1 w (ap name l x w)) (n : Nat) : ∀ (ss : List AStep), (∀ st ∈ ss, st.needs k = true) →
    ∀ (w : World σ), w.heap.Typed → w.heap.Ready → (w.heap a).kind = some k → Safe false 0 w (applySteps ap a n ss w)
  | [], _, w, ht, hr, _ => ⟨ht, hr, .refl _, Int.le_refl _, by omega, fun _ => ⟨rfl, rfl⟩⟩
  | s :: ss, hss, w, ht, hr, hk => by
    refine Safe.bind (k1 := 0) (k2 := 0) (safe_applyStep (hss s (List.mem_cons_self ..)) hap n w ht hr hk) fun w' h1 => ?_
    exact safe_applySteps hap n ss (fun st hst => hss st (List.mem_cons_of_mem _ hst)) w' h1.1 h1.2.1
      ((h1.2.2.1 a).1.trans hk)

theorem safe_apply {σ : Type} {pre post : Callback σ} {k1 k2 : Nat} (hpre : Mild k1 pre) (hpost : Mild k2 post)
    (hkk : k1 + k2 ≤ 1) (n : Nat) : ∀ (c : Cursor) (w : World σ), w.heap.Typed → w.heap.Ready →
    (∃ b, c.node = some b ∧ (w.heap b).kind ≠ none) → Safe c.inList 1 w (apply pre post n c w) := by
  induction n with
  | zero => intro c w _ _ _; trivial
  | succ n ih =>
    intro c w ht hr hc
    obtain ⟨a, hca, hak⟩ := hc
    obtain ⟨b, w1, hp, h1⟩ := safe_mild hpre c w ht hr
    rw [apply, hp]
    have weaken : ∀ {k : Nat} {w' : World σ}, k ≤ 1 → Safe c.inList k w (.ok w') → Safe c.inList 1 w (.ok w') := by
      rintro k w' hk ⟨t, r, s, i, p, e⟩
      exact ⟨t, r, s, i, by omega, e⟩
    cases b with
    | false => exact weaken (by omega) h1
    | true =>
      simp only [hca]
      cases hk : (w1.heap a).kind with
      | none => exact absurd ((h1.2.2.1 a).1.symm.trans hk) hak
      | some k =>
        obtain ⟨steps, hs1, hs2⟩ := ready_steps h1.2.1 hk
        simp only [Option.bind_some, hs1]
        have h2 := safe_applySteps (a := a) (fun name l x w ht hr hx => ih ⟨a, name, l, x⟩ w ht hr hx) n steps hs2
          w1 h1.1 h1.2.1 hk
        cases ho : applySteps (fun name l b => apply pre post n ⟨a, name, l, b⟩) a n steps w1 with
        | panic => rw [ho] at h2; exact h2
        | abort => trivial
        | oof => trivial
        | ok w2 =>
          rw [ho] at h2
          obtain ⟨t1, r1, s1, i1, p1, e1⟩ := h1
          obtain ⟨t2, r2, s2, i2, p2, e2⟩ := h2
          obtain ⟨b2, w3, hq, t3, r3, s3, i3, p3, e3⟩ := safe_mild hpost c w2 t2 r2
          simp only [AOut.bind, hq]
          cases b2 with
          | false => trivial
          | true =>
            obtain ⟨e21, e22⟩ := e2 rfl
            exact ⟨t3, r3, (s1.trans s2).trans s3, by omega, by omega, fun hl =>
              ⟨((e3 hl).1.trans e21).trans (e1 hl).1, ((e3 hl).2.trans e22).trans (e1 hl).2⟩⟩

end Verif
