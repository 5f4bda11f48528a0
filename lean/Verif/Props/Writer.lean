import Verif.Proofs.Writer
/-
C32-C35: writing a node to an arbitrary writer.
-/
namespace Verif

/-- Tracing observes the run of `WriteTo` without changing it: count, error and final state of the writer are
those of the run on the writer itself. -/
theorem C32_trace_faithful (fns : FloatFns) (x : Node) (w : IOWriter σ ε) (s : σ) (log : List (Call ε)) :
    ((x.wt fns).run w s).1 = ((x.wt fns).run w.traced (s, log)).1 ∧
    ((x.wt fns).run w s).2.1 = ((x.wt fns).run w.traced (s, log)).2.1 ∧
    ((x.wt fns).run w s).2.2 = ((x.wt fns).run w.traced (s, log)).2.2.1 := by
  have h := untrace_run w (x.wt fns) (s, log)
  simp only at h
  rw [← h]
  exact ⟨rfl, rfl, rfl⟩

/-- C32: the count `WriteTo` returns is the sum of the counts of the calls it made, for every node and every
writer, also one that lies about its counts or fails. -/
theorem C32_count (fns : FloatFns) (x : Node) (w : IOWriter σ ε) (s : σ) :
    ((x.wt fns).run w s).1 = (((x.wt fns).run w.traced (s, [])).2.2.2.map (·.n)).sum := by
  rw [(C32_trace_faithful fns x w s []).1]
  obtain ⟨calls, hl, hg⟩ := Wt.run_good w (x.wt fns) (Node.wt_ok fns x) (s, [])
  simp only [List.nil_append] at hl
  rw [hl]
  exact hg.1

/-- C33: if no call failed the returned error is nil. -/
theorem C33_nil_iff (fns : FloatFns) (x : Node) (w : IOWriter σ ε) (s : σ) :
    ((x.wt fns).run w s).2.1 = none ↔ ∀ c ∈ ((x.wt fns).run w.traced (s, [])).2.2.2, c.err = none := by
  rw [(C32_trace_faithful fns x w s []).2.1]
  obtain ⟨calls, hl, hg⟩ := Wt.run_good w (x.wt fns) (Node.wt_ok fns x) (s, [])
  simp only [List.nil_append] at hl
  rw [hl]
  rcases hg.2 with ⟨he, hc, _⟩ | ⟨oks, c, rest, hc, ho, he, hs, _⟩
  · simp [he]
    exact hc
  · constructor
    · intro h
      rw [h] at hs
      simp at hs
    · intro h
      rw [← he]
      exact h c (by simp [hc])

/-- C33: a call that failed is the last one, and its error is what `WriteTo` returns. -/
theorem C33_stops (fns : FloatFns) (x : Node) (w : IOWriter σ ε) (s : σ) (before after : List (Call ε))
    (c : Call ε) (e : ε)
    (h : ((x.wt fns).run w.traced (s, [])).2.2.2 = before ++ c :: after) (hc : c.err = some e) :
    after = [] ∧ ((x.wt fns).run w s).2.1 = some e := by
  rw [(C32_trace_faithful fns x w s []).2.1]
  obtain ⟨calls, hl, hg⟩ := Wt.run_good w (x.wt fns) (Node.wt_ok fns x) (s, [])
  simp only [List.nil_append] at hl
  rw [hl] at h
  rcases hg.2 with ⟨_, ho, _⟩ | ⟨oks, d, rest, hd, ho, he, hs, _⟩
  · have := ho c (by simp [h])
    simp [this] at hc
  · have hcd := hd.symm.trans h
    have hafter : after = [] := by
      rcases List.eq_nil_or_concat after with h0 | ⟨l, d', h0⟩
      · exact h0
      · exfalso
        have h1 : oks ++ [d] = (before ++ c :: l) ++ [d'] := by rw [hcd, h0]; simp
        have h2 := List.append_inj_left' h1 rfl
        have := ho c (by simp [h2])
        simp [this] at hc
    refine ⟨hafter, ?_⟩
    rw [hafter] at hcd
    have : [d] = [c] := List.append_inj_right' hcd rfl
    simp only [List.cons.injEq, and_true] at this
    rw [← he, this, hc]

theorem utf8_append (a b : Str) : utf8 (a ++ b) = utf8 a ++ utf8 b := by simp [utf8]

theorem utf8_flatMap (l : List (Call ε)) : utf8 (l.flatMap (·.text)) = l.flatMap fun c => utf8 c.text := by
  induction l with
  | nil => rfl
  | cons c l ih => simp [utf8_append, ih]

theorem utf8_length (s : Str) : (utf8 s).length = byteLen s := by
  induction s with
  | nil => rfl
  | cons c s ih =>
    simp only [utf8, List.flatMap_cons, List.length_append, String.length_utf8EncodeChar] at ih ⊢
    simp [byteLen, ih]

/-- A call within the contract of `io.Writer`. -/
def Call.InContract (c : Call ε) : Prop :=
  0 ≤ c.n ∧ c.n ≤ (byteLen c.text : Nat) ∧ (c.n < (byteLen c.text : Nat) → c.err ≠ none)

/-- All calls on a writer that honours the contract are within it. -/
theorem traced_contract (w : IOWriter σ ε) (hw : w.Contract) (x : Wt) (s : σ) :
    ∀ c ∈ (x.run w.traced (s, [])).2.2.2, c.InContract := by
  refine inv_run (w := w.traced) (I := fun s => ∀ c ∈ s.2, c.InContract) ?_ ?_ x (s, []) (by simp)
  · intro s b h c hc
    simp only [IOWriter.traced, List.mem_append, List.mem_singleton] at hc
    rcases hc with hc | rfl
    · exact h c hc
    · exact hw.write _ _
  · intro ws hws s b h c hc
    simp only [IOWriter.traced, Option.map_eq_some_iff] at hws
    obtain ⟨ws', hws', rfl⟩ := hws
    simp only [List.mem_append, List.mem_singleton] at hc
    rcases hc with hc | rfl
    · exact h c hc
    · exact hw.writeString _ hws' _ _

theorem accepted_ok (l : List (Call ε)) (h : ∀ c ∈ l, c.InContract) (ho : ∀ c ∈ l, c.err = none) :
    accepted l = utf8 (l.flatMap (·.text)) := by
  rw [utf8_flatMap]
  unfold accepted
  induction l with
  | nil => rfl
  | cons c l ih =>
    simp only [List.flatMap_cons]
    rw [ih (fun c hc => h c (by simp [hc])) (fun c hc => ho c (by simp [hc]))]
    congr 1
    apply List.take_of_length_le
    have h1 := h c (by simp)
    have h2 := ho c (by simp)
    have h3 : ¬ c.n < (byteLen c.text : Nat) := fun h3 => h1.2.2 h3 h2
    rw [utf8_length]
    omega

/-- C34: on a writer that honours the contract of `io.Writer`, the accepted bytes are a prefix of the bytes of
`ToSQLString`, and all of them if no error is returned. -/
theorem C34_prefix (fns : FloatFns) (x : Node) (w : IOWriter σ ε) (hw : w.Contract) (s : σ) :
    accepted ((x.wt fns).run w.traced (s, [])).2.2.2 <+: utf8 (x.toSQLString fns) ∧
    (((x.wt fns).run w s).2.1 = none →
      accepted ((x.wt fns).run w.traced (s, [])).2.2.2 = utf8 (x.toSQLString fns)) := by
  rw [(C32_trace_faithful fns x w s []).2.1]
  have hc := traced_contract w hw (x.wt fns) s
  obtain ⟨calls, hl, hg⟩ := Wt.run_good w (x.wt fns) (Node.wt_ok fns x) (s, [])
  simp only [List.nil_append] at hl
  rw [hl] at hc ⊢
  rw [Node.toSQLString_eq]
  rcases hg.2 with ⟨_, ho, ht⟩ | ⟨oks, d, rest, hd, ho, he, hs, ht⟩
  · rw [accepted_ok calls hc ho, ht]
    exact ⟨List.prefix_refl _, fun _ => rfl⟩
  · constructor
    · rw [← ht, hd]
      have := accepted_ok oks (fun c h => hc c (by simp [hd, h])) ho
      unfold accepted at this ⊢
      simp only [List.flatMap_append, this, utf8_append, List.append_assoc]
      refine (List.prefix_append_right_inj _).2 ?_
      simp only [List.flatMap_cons, List.flatMap_nil, List.append_nil]
      exact (List.take_prefix _ _).trans (List.prefix_append _ _)
    · intro h
      rw [h] at hs
      simp at hs

/-- C34: what is handed to any writer, contract or not, are consecutive pieces of `ToSQLString` from its
beginning; all pieces if no error is returned. -/
theorem C34_offered (fns : FloatFns) (x : Node) (w : IOWriter σ ε) (s : σ) :
    ((x.wt fns).run w.traced (s, [])).2.2.2.flatMap (·.text) <+: x.toSQLString fns ∧
    (((x.wt fns).run w s).2.1 = none →
      ((x.wt fns).run w.traced (s, [])).2.2.2.flatMap (·.text) = x.toSQLString fns) := by
  rw [(C32_trace_faithful fns x w s []).2.1]
  obtain ⟨calls, hl, hg⟩ := Wt.run_good w (x.wt fns) (Node.wt_ok fns x) (s, [])
  simp only [List.nil_append] at hl
  rw [hl, Node.toSQLString_eq]
  rcases hg.2 with ⟨_, ho, ht⟩ | ⟨oks, d, rest, hd, ho, he, hs, ht⟩
  · rw [ht]
    exact ⟨List.prefix_refl _, fun _ => rfl⟩
  · refine ⟨?_, ?_⟩
    · rw [← ht]
      exact List.prefix_append _ _
    · intro h
      rw [h] at hs
      simp at hs

/-- C35: `ToSQLString` is the text `WriteTo` hands to a writer that never fails, for every node type. -/
theorem C35_agree (fns : FloatFns) (x : Node) (w : IOWriter σ ε)
    (hw : ∀ s b, (w.write s b).2.1 = none)
    (hs : ∀ ws, w.writeString = some ws → ∀ s b, (ws s b).2.1 = none) (s : σ) :
    x.toSQLString fns = ((x.wt fns).run w.traced (s, [])).2.2.2.flatMap (·.text) := by
  refine ((C34_offered fns x w s).2 ?_).symm
  rw [C33_nil_iff]
  refine inv_run (w := w.traced) (I := fun s => ∀ c ∈ s.2, c.err = none) ?_ ?_ (x.wt fns) (s, []) (by simp)
  · intro s b h c hc
    simp only [IOWriter.traced, List.mem_append, List.mem_singleton] at hc
    rcases hc with hc | rfl
    · exact h c hc
    · exact hw _ _
  · intro ws hws s b h c hc
    simp only [IOWriter.traced, Option.map_eq_some_iff] at hws
    obtain ⟨ws', hws', rfl⟩ := hws
    simp only [List.mem_append, List.mem_singleton] at hc
    rcases hc with hc | rfl
    · exact h c hc
    · exact hs _ hws' _ _

/-- C35: in particular `ToSQLString` is what a `strings.Builder` holds after `WriteTo`. -/
theorem C35_builder (fns : FloatFns) (x : Node) : x.toSQLString fns = ((x.wt fns).run builder []).2.2 := by
  rw [Node.toSQLString_eq]
  exact (Wt.builderString_eq _).symm

/-! ### Non-vacuity -/

/-- A writer with room for `n` more bytes, as a full disk: short write and an error. -/
def fullDisk : IOWriter Nat Unit where
  write room b := if byteLen b ≤ room then (byteLen b, none, room - byteLen b) else (room, some (), 0)
  writeString := none

theorem fullDisk_contract : fullDisk.Contract where
  write s b := by
    simp only [fullDisk]
    split
    · simp
    · simp; omega
  writeString ws h := by simp [fullDisk] at h

/-- `NOT (a = 'x')`. -/
def sampleNode : Node :=
  .expr (.unary ⟨0, 0⟩ ⟨.Not, ⟨0, 0⟩, ⟨0, 0⟩⟩ (.nested (.binary (.ident ⟨str% "a", ⟨0, 0⟩, ⟨0, 0⟩⟩)
    ⟨.Eq, ⟨0, 0⟩, ⟨0, 0⟩⟩ (.singleQuoted ⟨0, 0⟩ ⟨0, 0⟩ (str% "x"))) ⟨0, 0⟩ ⟨0, 0⟩))

/-- Interrupted in the middle: seven bytes are accepted, the sixth call fails with a count of zero, and
nothing follows. -/
example (fns : FloatFns) :
    ((sampleNode.wt fns).run fullDisk.traced (7, [])).1 = 7 ∧
    ((sampleNode.wt fns).run fullDisk.traced (7, [])).2.1 = some () ∧
    (((sampleNode.wt fns).run fullDisk.traced (7, [])).2.2.2.map fun c => (c.text, c.n)) =
      [(str% "NOT", 3), (str% " ", 1), (str% "(", 1), (str% "a", 1), (str% " ", 1), (str% "=", 0)] ∧
    sampleNode.toSQLString fns = str% "NOT (a = 'x')" := by
  refine ⟨rfl, rfl, rfl, rfl⟩

end Verif
