import Verif.Spec.Writer
import Verif.Model.Print
/-
The behaviour of `WriteTo` methods on arbitrary writers.
-/
set_option linter.unusedSimpArgs false
namespace Verif

/-! ### The text of a method -/

mutual
/-- What a `WriteTo` method hands to a writer that never fails. -/
def Wt.text : Wt → Str
  | .sw steps => Step.texts steps
  | .single b => b
  | .singleString b => b
  | .quoted pre b post => pre ++ b ++ post
  | .nothing => []
def Step.texts : List Step → Str
  | [] => []
  | x :: xs => Step.text x ++ Step.texts xs
def Step.text : Step → Str
  | .bytes b => b
  | .node x => x.text
  | .direct x => x.text
  | .idents ids sep => sep.intercalate ids
end

mutual
/-- No unguarded `Direct` after the first call. -/
def Wt.ok : Wt → Bool
  | .sw steps => Step.okFirst steps
  | _ => true
def Step.okFirst : List Step → Bool
  | [] => true
  | x :: xs => Step.sub x && Step.oks xs
def Step.oks : List Step → Bool
  | [] => true
  | x :: xs => Step.guarded x && Step.sub x && Step.oks xs
def Step.guarded : Step → Bool
  | .direct _ => false
  | _ => true
def Step.sub : Step → Bool
  | .node x => x.ok
  | .direct x => x.ok
  | _ => true
end

theorem Step.okFirst_of_oks {xs : List Step} (h : Step.oks xs = true) : Step.okFirst xs = true := by
  cases xs with
  | nil => simp [Step.okFirst]
  | cons x xs => simp [Step.oks, Step.okFirst] at h ⊢; exact ⟨h.1.2, h.2⟩

@[simp] theorem Step.oks_append (xs ys : List Step) :
    Step.oks (xs ++ ys) = (Step.oks xs && Step.oks ys) := by
  induction xs with
  | nil => simp [Step.oks]
  | cons x xs ih => simp [Step.oks, ih, Bool.and_assoc]

/-! ### Runs on a traced writer -/

/-- The calls made on behalf of a text `t`, the returned count and error. -/
def Good (t : Str) (calls : List (Call ε)) (n : Int) (e : Option ε) : Prop :=
  n = (calls.map (·.n)).sum ∧
  ((e = none ∧ (∀ c ∈ calls, c.err = none) ∧ calls.flatMap (·.text) = t) ∨
    ∃ oks c rest, calls = oks ++ [c] ∧ (∀ c ∈ oks, c.err = none) ∧ c.err = e ∧ e.isSome = true ∧
      calls.flatMap (·.text) ++ rest = t)

/-- From an error-free writer `r` to `r'` on behalf of `t`. -/
def Adv (t : Str) (r r' : SW (σ × List (Call ε)) ε) : Prop :=
  ∃ calls n, r'.s.2 = r.s.2 ++ calls ∧ r'.n = r.n + n ∧ Good t calls n r'.err

theorem Good.nil : Good (ε := ε) [] [] 0 none := ⟨by simp, .inl ⟨rfl, by simp, by simp⟩⟩

theorem Good.append {t1 t2 : Str} {c1 c2 : List (Call ε)} {n1 n2 : Int} {e : Option ε}
    (h1 : Good t1 c1 n1 none) (h2 : Good t2 c2 n2 e) : Good (t1 ++ t2) (c1 ++ c2) (n1 + n2) e := by
  obtain ⟨hn1, h1⟩ := h1
  obtain ⟨hn2, h2⟩ := h2
  refine ⟨by simp [hn1, hn2], ?_⟩
  rcases h1 with ⟨_, h1, h1t⟩ | ⟨_, _, _, _, _, _, hs, _⟩
  · rcases h2 with ⟨he, h2, h2t⟩ | ⟨oks, c, rest, hc, ho, he, hs, ht⟩
    · left
      refine ⟨he, ?_, by simp [h1t, h2t]⟩
      intro c hc
      rcases List.mem_append.1 hc with hc | hc
      · exact h1 c hc
      · exact h2 c hc
    · right
      refine ⟨c1 ++ oks, c, rest, by simp [hc], ?_, he, hs, by simp [h1t, ← ht]⟩
      intro c hc
      rcases List.mem_append.1 hc with hc | hc
      · exact h1 c hc
      · exact ho c hc
  · simp at hs

theorem Good.stop {t1 : Str} (t2 : Str) {c1 : List (Call ε)} {n1 : Int} {e : Option ε} (he : e.isSome = true)
    (h1 : Good t1 c1 n1 e) : Good (t1 ++ t2) c1 n1 e := by
  obtain ⟨hn1, h1⟩ := h1
  refine ⟨hn1, ?_⟩
  rcases h1 with ⟨h, _⟩ | ⟨oks, c, rest, hc, ho, he', hs, ht⟩
  · simp [h] at he
  · exact .inr ⟨oks, c, rest ++ t2, hc, ho, he', hs, by simp [← ht]⟩

theorem Adv.refl (r : SW (σ × List (Call ε)) ε) (h : r.err = none) : Adv [] r r :=
  ⟨[], 0, by simp, by simp, h ▸ Good.nil⟩

theorem Adv.trans {t1 t2 : Str} {r r1 r2 : SW (σ × List (Call ε)) ε} (h1 : Adv t1 r r1)
    (h2 : r1.err = none → Adv t2 r1 r2) (h3 : r1.err.isSome = true → r2 = r1) : Adv (t1 ++ t2) r r2 := by
  obtain ⟨c1, n1, hs1, hn1, g1⟩ := h1
  cases he : r1.err with
  | none =>
    obtain ⟨c2, n2, hs2, hn2, g2⟩ := h2 he
    rw [he] at g1
    exact ⟨c1 ++ c2, n1 + n2, by simp [hs2, hs1], by rw [hn2, hn1]; omega, g1.append g2⟩
  | some e =>
    have h3 := h3 (by simp [he])
    subst h3
    exact ⟨c1, n1, hs1, hn1, g1.stop t2 (by simp [he])⟩

/-- One call. -/
theorem good_call (b : Str) (n : Int) (e : Option ε) : Good b [⟨b, n, e⟩] n e := by
  refine ⟨by simp, ?_⟩
  cases e with
  | none => left; simp
  | some e => right; exact ⟨[], ⟨b, n, some e⟩, [], by simp⟩

/-- The outcome of a method call that starts with the log `s.2`. -/
def RunGood (t : Str) (s : σ × List (Call ε)) (c : Int × Option ε × (σ × List (Call ε))) : Prop :=
  ∃ calls, c.2.2.2 = s.2 ++ calls ∧ Good t calls c.1 c.2.1

theorem write_good (w : IOWriter σ ε) (s : σ × List (Call ε)) (b : Str) :
    RunGood b s (w.traced.write s b) :=
  ⟨_, rfl, good_call b _ _⟩

theorem writeString_good (w : IOWriter σ ε) {ws} (h : w.traced.writeString = some ws) (s : σ × List (Call ε))
    (b : Str) : RunGood b s (ws s b) := by
  simp only [IOWriter.traced, Option.map_eq_some_iff] at h
  obtain ⟨ws', _, rfl⟩ := h
  exact ⟨_, rfl, good_call b _ _⟩

theorem string_good (w : IOWriter σ ε) (s : σ × List (Call ε)) (b : Str) :
    RunGood b s (w.traced.string s b) := by
  unfold IOWriter.string
  split
  · exact writeString_good w ‹_› s b
  · exact write_good w s b

theorem direct_adv {t : Str} (r : SW (σ × List (Call ε)) ε) (hr : r.err = none)
    {c : Int × Option ε × (σ × List (Call ε))} (h : RunGood t r.s c) : Adv t r (r.direct c) := by
  obtain ⟨calls, hs, hg⟩ := h
  refine ⟨calls, c.1, hs, rfl, ?_⟩
  have : (r.direct c).err = c.2.1 := by
    unfold SW.direct
    cases h : c.2.1 <;> simp [hr]
  rw [this]
  exact hg

theorem bytes_adv (w : IOWriter σ ε) (b : Str) (r : SW (σ × List (Call ε)) ε) (hr : r.err = none) :
    Adv b r (r.bytes w.traced b) := by
  have : r.bytes w.traced b = r.direct (w.traced.write r.s b) := by
    simp [SW.bytes, SW.direct, hr]
  rw [this]
  exact direct_adv r hr (write_good w r.s b)

theorem bytes_err (w : IOWriter σ ε) (b : Str) (r : SW σ ε) (hr : r.err.isSome = true) : r.bytes w b = r := by
  simp [SW.bytes, hr]

theorem identsString_err (w : IOWriter σ ε) (ws) (sep : Str) (xs : List Str) (i : Nat) (r : SW σ ε)
    (hr : r.err.isSome = true) : SW.identsString w ws sep i xs r = r := by
  induction xs generalizing i with
  | nil => rfl
  | cons x xs ih =>
    have h : r.err.isNone = false := by cases h : r.err <;> simp_all
    simp [SW.identsString, bytes_err w sep r hr, h, ih]

theorem identsPlain_err (w : IOWriter σ ε) (sep : Str) (xs : List Str) (i : Nat) (r : SW σ ε)
    (hr : r.err.isSome = true) : SW.identsPlain w sep i xs r = r := by
  induction xs generalizing i with
  | nil => rfl
  | cons x xs ih => simp [SW.identsPlain, bytes_err w sep r hr, hr, ih]

/-- The text of identifiers `i`, `i + 1`, … -/
def identsText (sep : Str) : Nat → List Str → Str
  | _, [] => []
  | i, x :: xs => (if i > 0 then sep else []) ++ (x ++ identsText sep (i + 1) xs)

theorem identsText_succ (sep : Str) (i : Nat) (xs : List Str) :
    identsText sep (i + 1) xs = xs.flatMap (sep ++ ·) := by
  induction xs generalizing i with
  | nil => rfl
  | cons x xs ih => simp [identsText, ih]

theorem intercalate_cons (sep x : Str) (xs : List Str) :
    sep.intercalate (x :: xs) = x ++ xs.flatMap (sep ++ ·) := by
  induction xs generalizing x with
  | nil => simp [List.intercalate]
  | cons y ys ih =>
    have := ih y
    simp only [List.intercalate, List.intersperse, List.flatten_cons, List.flatMap_cons, List.append_assoc]
      at this ⊢
    rw [this]

theorem identsText_zero (sep : Str) (xs : List Str) : identsText sep 0 xs = sep.intercalate xs := by
  cases xs with
  | nil => simp [identsText, List.intercalate]
  | cons x xs => simp [identsText, identsText_succ, intercalate_cons]

theorem identsString_adv (w : IOWriter σ ε) {ws} (hw : w.traced.writeString = some ws) (sep : Str)
    (xs : List Str) (i : Nat) (r : SW (σ × List (Call ε)) ε) (hr : r.err = none) :
    Adv (identsText sep i xs) r (SW.identsString w.traced ws sep i xs r) := by
  induction xs generalizing i r with
  | nil => exact Adv.refl r hr
  | cons x xs ih =>
    simp only [SW.identsString, identsText]
    refine Adv.trans (r1 := if i > 0 then r.bytes w.traced sep else r) ?_ ?_ ?_
    · split
      · exact bytes_adv w sep r hr
      · exact Adv.refl r hr
    · intro h1
      generalize (if i > 0 then r.bytes w.traced sep else r) = r1 at *
      simp only [h1, Option.isNone_none, ↓reduceIte]
      refine Adv.trans (direct_adv r1 h1 (writeString_good w hw r1.s x)) (fun h => ih _ _ h) ?_
      intro h
      exact identsString_err _ _ _ _ _ _ h
    · intro h1
      generalize (if i > 0 then r.bytes w.traced sep else r) = r1 at *
      have h : r1.err.isNone = false := by cases h : r1.err <;> simp_all
      simp only [h, Bool.false_eq_true, ↓reduceIte]
      exact identsString_err _ _ _ _ _ _ h1

theorem identsPlain_adv (w : IOWriter σ ε) (sep : Str)
    (xs : List Str) (i : Nat) (r : SW (σ × List (Call ε)) ε) (hr : r.err = none) :
    Adv (identsText sep i xs) r (SW.identsPlain w.traced sep i xs r) := by
  induction xs generalizing i r with
  | nil => exact Adv.refl r hr
  | cons x xs ih =>
    simp only [SW.identsPlain, identsText]
    refine Adv.trans (r1 := if i > 0 then r.bytes w.traced sep else r) ?_ ?_ ?_
    · split
      · exact bytes_adv w sep r hr
      · exact Adv.refl r hr
    · intro h1
      generalize (if i > 0 then r.bytes w.traced sep else r) = r1 at *
      simp only [h1, Option.isSome_none, Bool.false_eq_true, ↓reduceIte]
      refine Adv.trans (direct_adv r1 h1 (string_good w r1.s x)) (fun h => ih _ _ h) ?_
      intro h
      exact identsPlain_err _ _ _ _ _ h
    · intro h1
      generalize (if i > 0 then r.bytes w.traced sep else r) = r1 at *
      simp only [h1, ↓reduceIte]
      exact identsPlain_err _ _ _ _ _ h1

theorem Step.run_err (w : IOWriter σ ε) (x : Step) (h : Step.guarded x = true) (r : SW σ ε)
    (hr : r.err.isSome = true) : Step.run w x r = r := by
  cases x <;> simp [Step.run, hr, bytes_err, Step.guarded] at h ⊢

theorem Step.runs_err (w : IOWriter σ ε) (xs : List Step) (h : Step.oks xs = true) (r : SW σ ε)
    (hr : r.err.isSome = true) : Step.runs w xs r = r := by
  induction xs with
  | nil => simp [Step.runs]
  | cons x xs ih =>
    simp [Step.oks] at h
    simp [Step.runs, Step.run_err w x h.1.1 r hr, ih h.2]

mutual
theorem Wt.run_good (w : IOWriter σ ε) : (x : Wt) → x.ok = true → (s : σ × List (Call ε)) →
    RunGood x.text s (x.run w.traced s)
  | .sw steps, h, s => by
    obtain ⟨calls, n, hs, hn, hg⟩ := Step.runsFirst_adv w steps (by simpa [Wt.ok] using h) ⟨0, none, s⟩ rfl
    simp only [Wt.run, Wt.text]
    refine ⟨calls, hs, ?_⟩
    simp only [hn, Int.zero_add]
    exact hg
  | .single b, _, s => by
    simp only [Wt.run, Wt.text]
    exact write_good w s b
  | .singleString b, _, s => by
    simp only [Wt.run, Wt.text]
    exact string_good w s b
  | .quoted pre b post, _, s => by
    simp only [Wt.run, Wt.text, List.append_assoc]
    obtain ⟨c0, hs0, g0⟩ := write_good w s pre
    generalize w.traced.write s pre = x0 at *
    obtain ⟨n0, e0, s0⟩ := x0
    simp only at hs0 g0 ⊢
    cases e0 with
    | some e => exact ⟨c0, hs0, g0.stop _ rfl⟩
    | none =>
      simp only [Option.isSome_none, Bool.false_eq_true, ↓reduceIte]
      obtain ⟨c1, hs1, g1⟩ := string_good w s0 b
      generalize w.traced.string s0 b = x1 at *
      obtain ⟨n1, e1, s1⟩ := x1
      simp only at hs1 g1 ⊢
      cases e1 with
      | some e => exact ⟨c0 ++ c1, by simp [hs1, hs0], g0.append (g1.stop _ rfl)⟩
      | none =>
        simp only [Option.isSome_none, Bool.false_eq_true, ↓reduceIte]
        obtain ⟨c2, hs2, g2⟩ := write_good w s1 post
        generalize w.traced.write s1 post = x2 at *
        obtain ⟨n2, e2, s2⟩ := x2
        simp only at hs2 g2 ⊢
        refine ⟨c0 ++ (c1 ++ c2), by simp [hs2, hs1, hs0], ?_⟩
        rw [Int.add_assoc]
        exact g0.append (g1.append g2)
  | .nothing, _, s => by
    simp only [Wt.run, Wt.text]
    exact ⟨[], by simp, Good.nil⟩
theorem Step.runsFirst_adv (w : IOWriter σ ε) : (xs : List Step) → Step.okFirst xs = true →
    (r : SW (σ × List (Call ε)) ε) → r.err = none → Adv (Step.texts xs) r (Step.runs w.traced xs r)
  | [], _, r, hr => by simp only [Step.runs, Step.texts]; exact Adv.refl r hr
  | x :: xs, h, r, hr => by
    simp only [Step.okFirst, Bool.and_eq_true] at h
    simp only [Step.runs, Step.texts]
    exact Adv.trans (Step.run_adv w x h.1 r hr) (fun h' => Step.runs_adv w xs h.2 _ h')
      (fun h' => Step.runs_err _ _ h.2 _ h')
theorem Step.runs_adv (w : IOWriter σ ε) : (xs : List Step) → Step.oks xs = true →
    (r : SW (σ × List (Call ε)) ε) → r.err = none → Adv (Step.texts xs) r (Step.runs w.traced xs r)
  | [], _, r, hr => by simp only [Step.runs, Step.texts]; exact Adv.refl r hr
  | x :: xs, h, r, hr => by
    simp only [Step.oks, Bool.and_eq_true] at h
    simp only [Step.runs, Step.texts]
    exact Adv.trans (Step.run_adv w x h.1.2 r hr) (fun h' => Step.runs_adv w xs h.2 _ h')
      (fun h' => Step.runs_err _ _ h.2 _ h')
theorem Step.run_adv (w : IOWriter σ ε) : (x : Step) → Step.sub x = true →
    (r : SW (σ × List (Call ε)) ε) → r.err = none → Adv (Step.text x) r (Step.run w.traced x r)
  | .bytes b, _, r, hr => by
    simp only [Step.run, Step.text]
    exact bytes_adv w b r hr
  | .node x, h, r, hr => by
    simp only [Step.run, Step.text, hr, Option.isSome_none, Bool.false_eq_true, ↓reduceIte]
    exact direct_adv r hr (Wt.run_good w x (by simpa [Step.sub] using h) r.s)
  | .direct x, h, r, hr => by
    simp only [Step.run, Step.text]
    exact direct_adv r hr (Wt.run_good w x (by simpa [Step.sub] using h) r.s)
  | .idents ids sep, _, r, hr => by
    simp only [Step.run, Step.text, hr, Option.isSome_none, Bool.false_eq_true, ↓reduceIte, ← identsText_zero]
    split
    · exact identsString_adv w ‹_› sep ids 0 r hr
    · exact identsPlain_adv w sep ids 0 r hr
end

/-! ### Tracing does not change the run -/

/-- Forget the log. -/
def SW.untrace (r : SW (σ × List (Call ε)) ε) : SW σ ε := ⟨r.n, r.err, r.s.1⟩

/-- Forget the log. -/
def untrace (c : Int × Option ε × (σ × List (Call ε))) : Int × Option ε × σ := (c.1, c.2.1, c.2.2.1)

theorem untrace_write (w : IOWriter σ ε) (s : σ × List (Call ε)) (b : Str) :
    untrace (w.traced.write s b) = w.write s.1 b := rfl

theorem untrace_string (w : IOWriter σ ε) (s : σ × List (Call ε)) (b : Str) :
    untrace (w.traced.string s b) = w.string s.1 b := by
  unfold IOWriter.string IOWriter.traced
  cases w.writeString <;> rfl

theorem untrace_direct (c : Int × Option ε × (σ × List (Call ε))) (r : SW (σ × List (Call ε)) ε) :
    (r.direct c).untrace = r.untrace.direct (untrace c) := rfl

theorem untrace_bytes (w : IOWriter σ ε) (b : Str) (r : SW (σ × List (Call ε)) ε) :
    (r.bytes w.traced b).untrace = r.untrace.bytes w b := by
  unfold SW.bytes
  show SW.untrace (if r.err.isSome = true then r else _) = if r.err.isSome = true then _ else _
  split <;> rfl

theorem untrace_identsPlain (w : IOWriter σ ε) (sep : Str) (xs : List Str) (i : Nat)
    (r : SW (σ × List (Call ε)) ε) :
    (SW.identsPlain w.traced sep i xs r).untrace = SW.identsPlain w sep i xs r.untrace := by
  induction xs generalizing i r with
  | nil => rfl
  | cons x xs ih =>
    simp only [SW.identsPlain, ih]
    have h : (if i > 0 then SW.bytes w sep r.untrace else r.untrace) =
        (if i > 0 then SW.bytes w.traced sep r else r).untrace := by
      split
      · rw [untrace_bytes]
      · rfl
    rw [h]
    generalize (if i > 0 then SW.bytes w.traced sep r else r) = r1
    congr 1
    show _ = if r1.err.isSome = true then _ else _
    split
    · rfl
    · rw [untrace_direct, untrace_string]; rfl

theorem untrace_identsString (w : IOWriter σ ε) (ws) (sep : Str) (xs : List Str) (i : Nat)
    (r : SW (σ × List (Call ε)) ε) :
    (SW.identsString w.traced (fun s b => ((ws s.1 b).1, (ws s.1 b).2.1, (ws s.1 b).2.2,
        s.2 ++ [⟨b, (ws s.1 b).1, (ws s.1 b).2.1⟩])) sep i xs r).untrace =
      SW.identsString w ws sep i xs r.untrace := by
  induction xs generalizing i r with
  | nil => rfl
  | cons x xs ih =>
    simp only [SW.identsString, ih]
    have h : (if i > 0 then SW.bytes w sep r.untrace else r.untrace) =
        (if i > 0 then SW.bytes w.traced sep r else r).untrace := by
      split
      · rw [untrace_bytes]
      · rfl
    rw [h]
    generalize (if i > 0 then SW.bytes w.traced sep r else r) = r1
    congr 1
    show _ = if r1.err.isNone = true then _ else _
    split <;> rfl

mutual
theorem untrace_run (w : IOWriter σ ε) : (x : Wt) → (s : σ × List (Call ε)) →
    untrace (x.run w.traced s) = x.run w s.1
  | .sw steps, s => by
    simp only [Wt.run]
    have := untrace_runs w steps ⟨0, none, s⟩
    show (_, _, _) = _
    rw [show (⟨0, none, s.1⟩ : SW σ ε) = SW.untrace ⟨0, none, s⟩ from rfl, ← this]
    rfl
  | .single b, s => by simp only [Wt.run]; exact untrace_write w s b
  | .singleString b, s => by simp only [Wt.run]; exact untrace_string w s b
  | .quoted pre b post, s => by
    simp only [Wt.run]
    have h0 := untrace_write w s pre
    rw [← h0]
    generalize w.traced.write s pre = x0
    obtain ⟨n0, e0, s0⟩ := x0
    have h1 := untrace_string w s0 b
    simp only [untrace]
    cases e0 with
    | some e => rfl
    | none =>
      simp only [Option.isSome_none, Bool.false_eq_true, ↓reduceIte]
      simp only [h1.symm]
      generalize w.traced.string s0 b = x1
      obtain ⟨n1, e1, s1⟩ := x1
      cases e1 <;> rfl
  | .nothing, s => by simp only [Wt.run]; rfl
theorem untrace_runs (w : IOWriter σ ε) : (xs : List Step) → (r : SW (σ × List (Call ε)) ε) →
    (Step.runs w.traced xs r).untrace = Step.runs w xs r.untrace
  | [], r => by simp only [Step.runs]
  | x :: xs, r => by simp only [Step.runs]; rw [untrace_runs w xs, untrace_step w x]
theorem untrace_step (w : IOWriter σ ε) : (x : Step) → (r : SW (σ × List (Call ε)) ε) →
    (Step.run w.traced x r).untrace = Step.run w x r.untrace
  | .bytes b, r => by simp only [Step.run]; exact untrace_bytes w b r
  | .node x, r => by
    simp only [Step.run]
    show _ = if r.err.isSome = true then _ else _
    split
    · rfl
    · rw [untrace_direct, untrace_run w x]; rfl
  | .direct x, r => by
    simp only [Step.run]
    rw [untrace_direct, untrace_run w x]; rfl
  | .idents ids sep, r => by
    simp only [Step.run]
    show _ = if r.err.isSome = true then _ else _
    split
    · rfl
    · cases hw : w.writeString with
      | none =>
        have : w.traced.writeString = none := by simp [IOWriter.traced, hw]
        rw [this]
        exact untrace_identsPlain w sep ids 0 r
      | some ws =>
        have : w.traced.writeString = some (fun s b => ((ws s.1 b).1, (ws s.1 b).2.1, (ws s.1 b).2.2,
            s.2 ++ [⟨b, (ws s.1 b).1, (ws s.1 b).2.1⟩])) := by simp [IOWriter.traced, hw]
        rw [this]
        exact untrace_identsString w ws sep ids 0 r
end

/-! ### Invariants of the writer -/

section
variable {w : IOWriter σ ε} {I : σ → Prop} (hw : ∀ s b, I s → I (w.write s b).2.2)
  (hs : ∀ ws, w.writeString = some ws → ∀ s b, I s → I (ws s b).2.2)
include hw

theorem inv_bytes (b : Str) (r : SW σ ε) (h : I r.s) : I (r.bytes w b).s := by
  unfold SW.bytes
  split
  · exact h
  · exact hw _ _ h

include hs

theorem inv_string (s : σ) (b : Str) (h : I s) : I (w.string s b).2.2 := by
  unfold IOWriter.string
  split
  · exact hs _ ‹_› _ _ h
  · exact hw _ _ h

theorem inv_identsString (ws) (hws : w.writeString = some ws) (sep : Str) (xs : List Str) (i : Nat)
    (r : SW σ ε) (h : I r.s) : I (SW.identsString w ws sep i xs r).s := by
  induction xs generalizing i r with
  | nil => exact h
  | cons x xs ih =>
    simp only [SW.identsString]
    apply ih
    have h1 : I (if i > 0 then r.bytes w sep else r).s := by
      split
      · exact inv_bytes hw _ _ h
      · exact h
    generalize (if i > 0 then r.bytes w sep else r) = r1 at *
    split
    · exact hs _ hws _ _ h1
    · exact h1

theorem inv_identsPlain (sep : Str) (xs : List Str) (i : Nat) (r : SW σ ε) (h : I r.s) :
    I (SW.identsPlain w sep i xs r).s := by
  induction xs generalizing i r with
  | nil => exact h
  | cons x xs ih =>
    simp only [SW.identsPlain]
    apply ih
    have h1 : I (if i > 0 then r.bytes w sep else r).s := by
      split
      · exact inv_bytes hw _ _ h
      · exact h
    generalize (if i > 0 then r.bytes w sep else r) = r1 at *
    split
    · exact h1
    · exact inv_string hw hs _ _ h1

mutual
theorem inv_run : (x : Wt) → (s : σ) → I s → I (x.run w s).2.2
  | .sw steps, s, h => by simp only [Wt.run]; exact inv_runs steps _ h
  | .single b, s, h => by simp only [Wt.run]; exact hw _ _ h
  | .singleString b, s, h => by simp only [Wt.run]; exact inv_string hw hs _ _ h
  | .quoted pre b post, s, h => by
    simp only [Wt.run]
    have h0 := hw s pre h
    split
    · exact h0
    · have h1 := inv_string hw hs _ b h0
      split
      · exact h1
      · exact hw _ _ h1
  | .nothing, s, h => by simp only [Wt.run]; exact h
theorem inv_runs : (xs : List Step) → (r : SW σ ε) → I r.s → I (Step.runs w xs r).s
  | [], r, h => by simp only [Step.runs]; exact h
  | x :: xs, r, h => by simp only [Step.runs]; exact inv_runs xs _ (inv_step x r h)
theorem inv_step : (x : Step) → (r : SW σ ε) → I r.s → I (Step.run w x r).s
  | .bytes b, r, h => by simp only [Step.run]; exact inv_bytes hw b r h
  | .node x, r, h => by
    simp only [Step.run]
    split
    · exact h
    · exact inv_run x r.s h
  | .direct x, r, h => by simp only [Step.run]; exact inv_run x r.s h
  | .idents ids sep, r, h => by
    simp only [Step.run]
    split
    · exact h
    · split
      · exact inv_identsString hw hs _ ‹_› _ _ _ _ h
      · exact inv_identsPlain hw hs _ _ _ _ h
end
end

/-! ### `strings.Builder` -/

theorem byteLen_append (a b : Str) : byteLen (a ++ b) = byteLen a + byteLen b := by
  simp [byteLen]

theorem builder_bytes (b : Str) (n : Int) (s : Str) :
    SW.bytes builder b ⟨n, none, s⟩ = ⟨n + byteLen b, none, s ++ b⟩ := by
  simp [SW.bytes, builder]

theorem builder_identsString (sep : Str) (xs : List Str) (i : Nat) (n : Int) (s : Str) :
    SW.identsString builder (fun s b => (byteLen b, none, s ++ b)) sep i xs ⟨n, none, s⟩ =
      ⟨n + byteLen (identsText sep i xs), none, s ++ identsText sep i xs⟩ := by
  induction xs generalizing i n s with
  | nil => simp [SW.identsString, identsText, byteLen]
  | cons x xs ih =>
    simp only [SW.identsString, identsText]
    split
    · rw [builder_bytes]
      simp only [Option.isNone_none, ↓reduceIte, SW.direct, Option.isSome_none, Bool.false_eq_true]
      rw [ih]
      simp [byteLen_append]; omega
    · simp only [Option.isNone_none, ↓reduceIte, SW.direct, Option.isSome_none, Bool.false_eq_true]
      rw [ih]
      simp [byteLen_append]; omega

mutual
theorem builder_run : (x : Wt) → (s : Str) → x.run builder s = ((byteLen x.text : Int), none, s ++ x.text)
  | .sw steps, s => by simp only [Wt.run, builder_runs steps 0 s, Wt.text]; simp
  | .single b, s => by simp [Wt.run, Wt.text, builder]
  | .singleString b, s => by simp [Wt.run, Wt.text, builder, IOWriter.string]
  | .quoted pre b post, s => by
    simp [Wt.run, Wt.text, builder, IOWriter.string, byteLen_append]
    omega
  | .nothing, s => by simp [Wt.run, Wt.text, byteLen]
theorem builder_runs : (xs : List Step) → (n : Int) → (s : Str) →
    Step.runs builder xs ⟨n, none, s⟩ = ⟨n + byteLen (Step.texts xs), none, s ++ Step.texts xs⟩
  | [], n, s => by simp [Step.runs, Step.texts, byteLen]
  | x :: xs, n, s => by
    simp only [Step.runs, Step.texts, builder_step x n s, builder_runs xs]
    simp [byteLen_append]; omega
theorem builder_step : (x : Step) → (n : Int) → (s : Str) →
    Step.run builder x ⟨n, none, s⟩ = ⟨n + byteLen (Step.text x), none, s ++ Step.text x⟩
  | .bytes b, n, s => by simp only [Step.run, Step.text, builder_bytes]
  | .node x, n, s => by simp [Step.run, Step.text, builder_run x s, SW.direct]
  | .direct x, n, s => by simp [Step.run, Step.text, builder_run x s, SW.direct]
  | .idents ids sep, n, s => by
    have : builder.writeString = some (fun s b => ((byteLen b : Int), none, s ++ b)) := rfl
    simp only [Step.run, Step.text, this, Option.isSome_none, Bool.false_eq_true, ↓reduceIte,
      builder_identsString, identsText_zero]
end

theorem Wt.builderString_eq (x : Wt) : x.builderString = x.text := by
  simp [Wt.builderString, builder_run]

/-! ### All nodes are `ok` -/

theorem Step.oks_cons (x : Step) (xs : List Step) :
    Step.oks (x :: xs) = (Step.guarded x && Step.sub x && Step.oks xs) := by simp [Step.oks]

theorem Wt.ok_sw {xs : List Step} (h : Step.oks xs = true) : (Wt.sw xs).ok = true := by
  simp only [Wt.ok]
  exact Step.okFirst_of_oks h

theorem Step.oks_join (sep : Str) (xs : List Wt) (h : ∀ x ∈ xs, x.ok = true) :
    Step.oks (Step.join sep xs) = true := by
  cases xs with
  | nil => simp [Step.join, Step.oks]
  | cons x xs =>
    simp only [Step.join, Step.oks_cons, Step.guarded, Step.sub, Bool.true_and, Bool.and_eq_true]
    refine ⟨h x (by simp), ?_⟩
    have h' : ∀ x ∈ xs, x.ok = true := fun y hy => h y (by simp [hy])
    clear h
    induction xs with
    | nil => simp [Step.oks]
    | cons y ys ih =>
      simp only [List.flatMap_cons, Step.oks_append, Step.oks, Step.guarded, Step.sub, Bool.true_and,
        Bool.and_true, Bool.and_eq_true]
      exact ⟨h' y (by simp), ih (fun y hy => h' y (by simp [hy]))⟩

theorem Step.oks_if (c : Bool) (b : Str) : Step.oks (Step.if_ c b) = true := by
  cases c <;> simp [Step.if_, Step.oks, Step.guarded, Step.sub]

/-- Decide `oks` of a list of steps, given the `ok` facts of its nodes. -/
macro "oks" "[" hs:Lean.Parser.Tactic.simpLemma,* "]" : tactic =>
  `(tactic| simp [Step.oks_cons, Step.oks, Step.guarded, Step.sub, Step.oks_if, Step.idents', Step.uint, negated, $hs,*])

/-- `oks` with all hypotheses. -/
macro "oks_all" : tactic =>
  `(tactic| simp [Step.oks_cons, Step.oks, Step.guarded, Step.sub, Step.oks_if, Step.idents', Step.uint, negated, *])

theorem Ident.wt_ok (i : Ident) : i.wt.ok = true := by simp [Ident.wt, Wt.ok]
theorem ObjectName.wt_ok (i : ObjectName) : i.wt.ok = true := by
  apply Wt.ok_sw; oks []
theorem typeWithOptionalLength_ok (ty : Str) (size : Option Nat) :
    Step.oks (Step.typeWithOptionalLength ty size) = true := by
  cases size <;> oks [Step.typeWithOptionalLength]

theorem DataType.wt_ok : (x : DataType) → x.wt.ok = true
  | .char .. => by apply Wt.ok_sw; oks [typeWithOptionalLength_ok]
  | .varchar .. => by apply Wt.ok_sw; oks [typeWithOptionalLength_ok]
  | .uuid .. => by simp [DataType.wt, Wt.ok]
  | .clob .. => by apply Wt.ok_sw; oks [typeWithOptionalLength_ok]
  | .binary .. => by apply Wt.ok_sw; oks [typeWithOptionalLength_ok]
  | .varbinary .. => by apply Wt.ok_sw; oks [typeWithOptionalLength_ok]
  | .blob .. => by apply Wt.ok_sw; oks [typeWithOptionalLength_ok]
  | .decimal p s _ _ _ _ => by apply Wt.ok_sw; cases p <;> cases s <;> oks []
  | .float .. => by apply Wt.ok_sw; oks [typeWithOptionalLength_ok]
  | .smallInt .. => by apply Wt.ok_sw; oks []
  | .int .. => by apply Wt.ok_sw; oks []
  | .bigInt .. => by apply Wt.ok_sw; oks []
  | .real .. => by apply Wt.ok_sw; oks []
  | .double .. => by simp [DataType.wt, Wt.ok]
  | .boolean .. => by simp [DataType.wt, Wt.ok]
  | .date .. => by simp [DataType.wt, Wt.ok]
  | .time .. => by simp [DataType.wt, Wt.ok]
  | .timestamp .. => by apply Wt.ok_sw; oks []
  | .regclass .. => by simp [DataType.wt, Wt.ok]
  | .text .. => by simp [DataType.wt, Wt.ok]
  | .bytea .. => by simp [DataType.wt, Wt.ok]
  | .array ty _ => by
    have := DataType.wt_ok ty
    apply Wt.ok_sw; oks [this]
  | .custom ty => by simp [DataType.wt, ObjectName.wt_ok]

theorem Operator.wt_ok (x : Operator) : x.wt.ok = true := by
  unfold Operator.wt
  split <;> simp [Wt.ok]
theorem LongValue.wt_ok (x : LongValue) : x.wt.ok = true := by simp [LongValue.wt, Wt.ok]
theorem WindowFrameUnit.wt_ok (x : WindowFrameUnit) : x.wt.ok = true := by
  unfold WindowFrameUnit.wt
  split <;> simp [Wt.ok]
theorem FrameBound.wt_ok (x : FrameBound) : x.wt.ok = true := by
  cases x <;> first | (apply Wt.ok_sw; oks []) | simp [FrameBound.wt, Wt.ok]
theorem WindowFrame.wt_ok (x : WindowFrame) : x.wt.ok = true := by
  unfold WindowFrame.wt
  split <;> (apply Wt.ok_sw; oks [WindowFrameUnit.wt_ok, FrameBound.wt_ok])
theorem JoinType.wt_ok (x : JoinType) : x.wt.ok = true := by simp [JoinType.wt, Wt.ok]
theorem SetOp.wt_ok (x : SetOp) : x.wt.ok = true := by cases x <;> simp [SetOp.wt, Wt.ok]
theorem LimitExpr.wt_ok (x : LimitExpr) : x.wt.ok = true := by
  apply Wt.ok_sw
  cases x.count <;> cases x.offset <;> oks [LongValue.wt_ok]
theorem aliasSteps_ok (x : Option Ident) : Step.oks (aliasSteps x) = true := by
  cases x <;> oks [aliasSteps, Ident.wt_ok]
theorem constraintName_ok (x : Option Ident) : Step.oks (constraintName x) = true := by
  cases x <;> oks [constraintName, Ident.wt_ok]

mutual
theorem Expr.wt_ok (fns : FloatFns) : (x : Expr) → (x.wt fns).ok = true
  | .ident i => by simp [Expr.wt, Ident.wt_ok]
  | .wildcard _ => by simp [Expr.wt, Wt.ok]
  | .qualifiedWildcard _ => by simp only [Expr.wt]; apply Wt.ok_sw; oks []
  | .compoundIdent _ => by simp only [Expr.wt]; apply Wt.ok_sw; oks []
  | .isNull x => by
    have := Expr.wt_ok fns x
    simp only [Expr.wt]; apply Wt.ok_sw; oks [this]
  | .isNotNull x => by
    have := Expr.wt_ok fns x
    simp only [Expr.wt]; apply Wt.ok_sw; oks [this]
  | .inList e l neg _ => by
    have := Expr.wt_ok fns e
    have := Step.oks_join (str% ", ") _ (Expr.wts_ok fns l)
    simp only [Expr.wt]; apply Wt.ok_sw; oks_all
  | .inSubQuery e q neg _ => by
    have := Expr.wt_ok fns e
    have := QueryStmt.wt_ok fns q
    simp only [Expr.wt]; apply Wt.ok_sw; oks_all
  | .between e neg low high => by
    have := Expr.wt_ok fns e
    have := Expr.wt_ok fns low
    have := Expr.wt_ok fns high
    simp only [Expr.wt]; apply Wt.ok_sw; oks_all
  | .binary l op r => by
    have := Expr.wt_ok fns l
    have := Expr.wt_ok fns r
    simp [Expr.wt, Wt.ok, Step.okFirst, Step.sub, Step.oks, Step.guarded, Operator.wt_ok, *]
  | .cast e ty _ _ => by
    have := Expr.wt_ok fns e
    simp only [Expr.wt]; apply Wt.ok_sw; oks [DataType.wt_ok, this]
  | .nested e _ _ => by
    have := Expr.wt_ok fns e
    simp only [Expr.wt]; apply Wt.ok_sw; oks [this]
  | .unary _ op e => by
    have := Expr.wt_ok fns e
    simp only [Expr.wt]; apply Wt.ok_sw; oks [this, Operator.wt_ok]
  | .function name args _ over _ => by
    have h1 := Step.oks_join (str% ", ") _ (Expr.wts_ok fns args)
    simp only [Expr.wt]; apply Wt.ok_sw
    oks [h1, ObjectName.wt_ok, overSteps_ok fns over]
  | .caseExpr _ _ operand conds results else_ => by
    have h1 := caseSteps_ok fns conds _ (Expr.wts_ok fns results)
    simp only [Expr.wt]; apply Wt.ok_sw
    oks [h1, optSteps_ok fns _ operand, optSteps_ok fns _ else_]
  | .exists_ neg q _ _ _ => by
    have := QueryStmt.wt_ok fns q
    simp only [Expr.wt]; apply Wt.ok_sw; oks [this]
  | .subQuery _ _ q => by
    have := QueryStmt.wt_ok fns q
    simp only [Expr.wt]; apply Wt.ok_sw; oks [this]
  | .long v => by simp [Expr.wt, LongValue.wt_ok]
  | .double .. => by simp [Expr.wt, Wt.ok]
  | .singleQuoted .. => by simp [Expr.wt, Wt.ok]
  | .national .. => by simp [Expr.wt, Wt.ok]
  | .boolean .. => by simp [Expr.wt, Wt.ok]
  | .null .. => by simp [Expr.wt, Wt.ok]
  | .timeValue .. => by simp [Expr.wt, timeWt, Wt.ok]
theorem optSteps_ok (fns : FloatFns) (pre : Str) : (x : Option Expr) → Step.oks (optSteps fns pre x) = true
  | none => by simp [optSteps, Step.oks]
  | some w => by
    have := Expr.wt_ok fns w
    simp only [optSteps]; oks [this]
theorem overSteps_ok (fns : FloatFns) : (x : Option WindowSpec) → Step.oks (overSteps fns x) = true
  | none => by simp [overSteps, Step.oks]
  | some w => by
    have := WindowSpec.wt_ok fns w
    simp only [overSteps]; oks [this]
theorem Expr.wts_ok (fns : FloatFns) : (xs : List Expr) → ∀ x ∈ Expr.wts fns xs, x.ok = true
  | [] => by simp [Expr.wts]
  | e :: es => by
    have := Expr.wt_ok fns e
    have := Expr.wts_ok fns es
    simpa [Expr.wts, *]
theorem caseSteps_ok (fns : FloatFns) : (xs : List Expr) → (rs : List Wt) → (∀ x ∈ rs, x.ok = true) →
    Step.oks (caseSteps fns xs rs) = true
  | [], _, _ => by simp [caseSteps, Step.oks]
  | _ :: _, [], _ => by simp [caseSteps, Step.oks]
  | c :: cs, r :: rs, h => by
    have h1 := Expr.wt_ok fns c
    have h2 := caseSteps_ok fns cs rs (fun x hx => h x (by simp [hx]))
    have h3 := h r (by simp)
    simp only [caseSteps]
    oks [h1, h2, h3]
theorem WindowSpec.wt_ok (fns : FloatFns) : (x : WindowSpec) → (x.wt fns).ok = true
  | .mk p o f _ _ => by
    have h1 := Step.oks_join (str% ", ") _ (Expr.wts_ok fns p)
    have h2 := Step.oks_join (str% ", ") _ (OrderByExpr.wts_ok fns o)
    simp only [WindowSpec.wt]; apply Wt.ok_sw
    simp only [Step.oks_append, Bool.and_eq_true]
    refine ⟨⟨?_, ?_⟩, ?_⟩
    · split <;> oks [h1]
    · split <;> oks [h2]
    · split <;> oks [WindowFrame.wt_ok]
theorem OrderByExpr.wt_ok (fns : FloatFns) : (x : OrderByExpr) → (x.wt fns).ok = true
  | .mk e _ asc => by
    have := Expr.wt_ok fns e
    simp only [OrderByExpr.wt]; apply Wt.ok_sw
    split <;> oks [this]
theorem OrderByExpr.wts_ok (fns : FloatFns) : (xs : List OrderByExpr) →
    ∀ x ∈ OrderByExpr.wts fns xs, x.ok = true
  | [] => by simp [OrderByExpr.wts]
  | e :: es => by
    have := OrderByExpr.wt_ok fns e
    have := OrderByExpr.wts_ok fns es
    simpa [OrderByExpr.wts, *]
theorem QueryStmt.wt_ok (fns : FloatFns) : (x : QueryStmt) → (x.wt fns).ok = true
  | .mk _ ctes body o limit => by
    have h1 := Step.oks_join (str% ", ") _ (CTE.wts_ok fns ctes)
    have h2 := Step.oks_join (str% ", ") _ (OrderByExpr.wts_ok fns o)
    have h3 := SetExpr.wt_ok fns body
    simp only [QueryStmt.wt]; apply Wt.ok_sw
    simp only [Step.oks_append, Bool.and_eq_true]
    refine ⟨⟨⟨?_, ?_⟩, ?_⟩, ?_⟩
    · split <;> oks [h1]
    · oks [h3]
    · split <;> oks [h2]
    · split <;> oks [LimitExpr.wt_ok]
theorem CTE.wt_ok (fns : FloatFns) : (x : CTE) → (x.wt fns).ok = true
  | .mk _ q _ => by
    have := QueryStmt.wt_ok fns q
    simp only [CTE.wt]; apply Wt.ok_sw; oks [this, Ident.wt_ok]
theorem CTE.wts_ok (fns : FloatFns) : (xs : List CTE) → ∀ x ∈ CTE.wts fns xs, x.ok = true
  | [] => by simp [CTE.wts]
  | e :: es => by
    have := CTE.wt_ok fns e
    have := CTE.wts_ok fns es
    simpa [CTE.wts, *]
theorem SetExpr.wt_ok (fns : FloatFns) : (x : SetExpr) → (x.wt fns).ok = true
  | .selectExpr s => by
    have := SQLSelect.wt_ok fns s
    simp [SetExpr.wt, this]
  | .select s => by
    have := SQLSelect.wt_ok fns s
    simp [SetExpr.wt, this]
  | .query _ _ q => by
    have := QueryStmt.wt_ok fns q
    simp only [SetExpr.wt]; apply Wt.ok_sw; oks [this]
  | .setOp op all l r => by
    have h1 := SetExpr.wt_ok fns l
    have h2 := SetExpr.wt_ok fns r
    simp only [SetExpr.wt]; apply Wt.ok_sw; oks [h1, h2, SetOp.wt_ok]
theorem SQLSelect.wt_ok (fns : FloatFns) : (x : SQLSelect) → (x.wt fns).ok = true
  | .mk distinct projection from_ where_ groupBy having _ => by
    have h1 := Step.oks_join (str% ", ") _ (SelectItem.wts_ok fns projection)
    have h2 := Step.oks_join (str% ", ") _ (TableRef.wts_ok fns from_)
    have h3 := Step.oks_join (str% ", ") _ (Expr.wts_ok fns groupBy)
    simp only [SQLSelect.wt]; apply Wt.ok_sw
    simp only [Step.oks_append, Bool.and_eq_true]
    refine ⟨⟨⟨⟨⟨⟨?_, ?_⟩, ?_⟩, ?_⟩, ?_⟩, ?_⟩, ?_⟩
    · oks []
    · oks []
    · exact h1
    · split <;> oks [h2]
    · exact optSteps_ok fns _ where_
    · split <;> oks [h3]
    · exact optSteps_ok fns _ having
theorem SelectItem.wt_ok (fns : FloatFns) : (x : SelectItem) → (x.wt fns).ok = true
  | .unnamed e => by
    have := Expr.wt_ok fns e
    simp [SelectItem.wt, this]
  | .alias e _ => by
    have := Expr.wt_ok fns e
    simp only [SelectItem.wt]; apply Wt.ok_sw; oks [this, Ident.wt_ok]
  | .qualifiedWildcard _ => by
    simp only [SelectItem.wt]; apply Wt.ok_sw; oks [ObjectName.wt_ok]
  | .wildcard _ _ => by simp [SelectItem.wt, Wt.ok]
theorem SelectItem.wts_ok (fns : FloatFns) : (xs : List SelectItem) →
    ∀ x ∈ SelectItem.wts fns xs, x.ok = true
  | [] => by simp [SelectItem.wts]
  | e :: es => by
    have := SelectItem.wt_ok fns e
    have := SelectItem.wts_ok fns es
    simpa [SelectItem.wts, *]
theorem TableFactor.wt_ok (fns : FloatFns) : (x : TableFactor) → (x.wt fns).ok = true
  | .table name alias args _ withHints _ => by
    have h1 := Step.oks_join (str% ", ") _ (Expr.wts_ok fns args)
    have h2 := Step.oks_join (str% ", ") _ (Expr.wts_ok fns withHints)
    simp only [TableFactor.wt]; apply Wt.ok_sw
    simp only [Step.oks_append, Bool.and_eq_true]
    refine ⟨⟨⟨?_, ?_⟩, ?_⟩, ?_⟩
    · oks [ObjectName.wt_ok]
    · split <;> oks [h1]
    · exact aliasSteps_ok _
    · split <;> oks [h2]
  | .derived lateral _ _ _ q alias => by
    have := QueryStmt.wt_ok fns q
    simp only [TableFactor.wt]; apply Wt.ok_sw; oks [this, aliasSteps_ok]
theorem TableRef.wt_ok (fns : FloatFns) : (x : TableRef) → (x.wt fns).ok = true
  | .factor f => by
    have := TableFactor.wt_ok fns f
    simp [TableRef.wt, this]
  | .cross l f => by
    have h1 := TableRef.wt_ok fns l
    have h2 := TableFactor.wt_ok fns f
    simp only [TableRef.wt]; apply Wt.ok_sw; oks [h1, h2]
  | .partitioned f _ _ => by
    have h2 := TableFactor.wt_ok fns f
    simp only [TableRef.wt]; apply Wt.ok_sw; oks [h2]
  | .qualified l _ r spec => by
    have h1 := TableRef.wt_ok fns l
    have h2 := TableRef.wt_ok fns r
    have h3 := JoinSpec.wt_ok fns spec
    simp only [TableRef.wt]; apply Wt.ok_sw; oks [h1, h2, h3, JoinType.wt_ok]
  | .natural l _ r => by
    have h1 := TableRef.wt_ok fns l
    have h2 := TableRef.wt_ok fns r
    simp only [TableRef.wt]; apply Wt.ok_sw; oks [h1, h2, JoinType.wt_ok]
theorem TableRef.wts_ok (fns : FloatFns) : (xs : List TableRef) → ∀ x ∈ TableRef.wts fns xs, x.ok = true
  | [] => by simp [TableRef.wts]
  | e :: es => by
    have := TableRef.wt_ok fns e
    have := TableRef.wts_ok fns es
    simpa [TableRef.wts, *]
theorem JoinSpec.wt_ok (fns : FloatFns) : (x : JoinSpec) → (x.wt fns).ok = true
  | .namedColumns _ _ _ => by simp only [JoinSpec.wt]; apply Wt.ok_sw; oks []
  | .condition e _ => by
    have := Expr.wt_ok fns e
    simp only [JoinSpec.wt]; apply Wt.ok_sw; oks [this]
end

theorem RowValueExpr.wt_ok (fns : FloatFns) (x : RowValueExpr) : (x.wt fns).ok = true := by
  have h1 := Step.oks_join (str% ", ") (x.values.map (Expr.wt fns)) (by simp [Expr.wt_ok])
  apply Wt.ok_sw; oks [h1]
theorem InsertSource.wt_ok (fns : FloatFns) (x : InsertSource) : (x.wt fns).ok = true := by
  cases x with
  | subQuery q => exact QueryStmt.wt_ok fns q
  | constructor _ rows =>
    have h1 := Step.oks_join (str% ", ") (rows.map (RowValueExpr.wt fns)) (by simp [RowValueExpr.wt_ok])
    apply Wt.ok_sw; oks [h1]
theorem Assignment.wt_ok (fns : FloatFns) (x : Assignment) : (x.wt fns).ok = true := by
  apply Wt.ok_sw; oks [Ident.wt_ok, Expr.wt_ok]
theorem ReferenceKeyExpr.wt_ok (x : ReferenceKeyExpr) : x.wt.ok = true := by
  apply Wt.ok_sw; oks [Ident.wt_ok]
theorem TableConstraintSpec.wt_ok (fns : FloatFns) (x : TableConstraintSpec) : (x.wt fns).ok = true := by
  cases x <;> (apply Wt.ok_sw; oks [Expr.wt_ok, ReferenceKeyExpr.wt_ok])
theorem TableConstraint.wt_ok (fns : FloatFns) (x : TableConstraint) : (x.wt fns).ok = true := by
  apply Wt.ok_sw; oks [constraintName_ok, TableConstraintSpec.wt_ok]
theorem ColumnSpec.wt_ok (fns : FloatFns) (x : ColumnSpec) : (x.wt fns).ok = true := by
  cases x <;> first | (apply Wt.ok_sw; oks [Expr.wt_ok, ObjectName.wt_ok]) | simp [ColumnSpec.wt, Wt.ok]
theorem ColumnConstraint.wt_ok (fns : FloatFns) (x : ColumnConstraint) : (x.wt fns).ok = true := by
  apply Wt.ok_sw; oks [constraintName_ok, ColumnSpec.wt_ok]
theorem ColumnDef.wt_ok (fns : FloatFns) (x : ColumnDef) : (x.wt fns).ok = true := by
  apply Wt.ok_sw
  simp only [Step.oks_append, Bool.and_eq_true]
  refine ⟨⟨⟨?_, ?_⟩, ?_⟩, ?_⟩
  · oks [Ident.wt_ok, DataType.wt_ok]
  · split <;> oks [Expr.wt_ok]
  · induction x.decorations with
    | nil => oks []
    | cons m ms ih =>
      rw [List.flatMap_cons, Step.oks_append, ih]
      oks [AutoIncrement.wt, Wt.ok]
  · induction x.constraints with
    | nil => oks []
    | cons m ms ih =>
      rw [List.map_cons, Step.oks_cons, ih]
      oks [ColumnConstraint.wt_ok]
theorem TableElement.wt_ok (fns : FloatFns) (x : TableElement) : (x.wt fns).ok = true := by
  cases x <;> simp [TableElement.wt, ColumnDef.wt_ok, TableConstraint.wt_ok]
theorem TableOption.wt_ok (x : TableOption) : x.wt.ok = true := by
  cases x <;> (apply Wt.ok_sw; oks [Ident.wt_ok])
theorem AlterColumnAction.wt_ok (fns : FloatFns) (x : AlterColumnAction) : (x.wt fns).ok = true := by
  cases x <;> first | (apply Wt.ok_sw; oks [Expr.wt_ok, DataType.wt_ok]) | simp [AlterColumnAction.wt, Wt.ok]
theorem AlterTableAction.wt_ok (fns : FloatFns) (x : AlterTableAction) : (x.wt fns).ok = true := by
  cases x <;>
    (apply Wt.ok_sw
     oks [Ident.wt_ok, ColumnDef.wt_ok, AlterColumnAction.wt_ok, TableConstraint.wt_ok])
theorem copyValues_ok (first : Bool) (vs : List (Option Str)) : Step.oks (copyValues first vs) = true := by
  induction vs generalizing first with
  | nil => simp [copyValues, Step.oks]
  | cons v vs ih => simp only [copyValues]; oks [ih]
theorem Stmt.wt_ok (fns : FloatFns) : (x : Stmt) → (x.wt fns).ok = true
  | .query q => by simp [Stmt.wt, QueryStmt.wt_ok]
  | .insert _ name cols source assignments => by
    have h1 := Step.oks_join (str% ", ") (assignments.map (Assignment.wt fns)) (by simp [Assignment.wt_ok])
    simp only [Stmt.wt]; apply Wt.ok_sw
    simp only [Step.oks_append, Bool.and_eq_true]
    refine ⟨⟨⟨?_, ?_⟩, ?_⟩, ?_⟩
    · oks [ObjectName.wt_ok]
    · split <;> oks []
    · oks [InsertSource.wt_ok]
    · split <;> oks [h1]
  | .copy _ name cols values => by
    simp only [Stmt.wt]; apply Wt.ok_sw
    simp only [Step.oks_append, Bool.and_eq_true]
    refine ⟨⟨⟨⟨?_, ?_⟩, ?_⟩, ?_⟩, ?_⟩
    · oks [ObjectName.wt_ok]
    · split <;> oks []
    · oks []
    · split <;> oks [copyValues_ok]
    · oks []
  | .update _ name assignments selection => by
    have h1 := Step.oks_join (str% ", ") (assignments.map (Assignment.wt fns)) (by simp [Assignment.wt_ok])
    simp only [Stmt.wt]; apply Wt.ok_sw
    cases selection <;> oks [ObjectName.wt_ok, h1, Expr.wt_ok]
  | .delete _ name selection => by
    simp only [Stmt.wt]; apply Wt.ok_sw
    cases selection <;> oks [ObjectName.wt_ok, Expr.wt_ok]
  | .createView .. => by
    simp only [Stmt.wt]; apply Wt.ok_sw; oks [ObjectName.wt_ok, QueryStmt.wt_ok]
  | .createTable _ name elements _ options => by
    have h1 := Step.oks_join (str% ", ") (elements.map (TableElement.wt fns)) (by simp [TableElement.wt_ok])
    have h2 := Step.oks_join (str% ", ") (options.map TableOption.wt) (by simp [TableOption.wt_ok])
    simp only [Stmt.wt]; apply Wt.ok_sw; oks [ObjectName.wt_ok, h1, h2]
  | .alterTable .. => by
    simp only [Stmt.wt]; apply Wt.ok_sw; oks [ObjectName.wt_ok, AlterTableAction.wt_ok]
  | .dropTable names _ _ _ _ => by
    have h1 := Step.oks_join (str% ", ") (names.map ObjectName.wt) (by simp [ObjectName.wt_ok])
    simp only [Stmt.wt]; apply Wt.ok_sw; oks [h1]
  | .createIndex _ _ _ i m _ _ s => by
    simp only [Stmt.wt]; apply Wt.ok_sw
    cases i <;> cases m <;> cases s <;> oks [ObjectName.wt_ok, Ident.wt_ok, Expr.wt_ok]
  | .dropIndex .. => by simp only [Stmt.wt]; apply Wt.ok_sw; oks []
  | .explain s _ => by
    have := Stmt.wt_ok fns s
    simp only [Stmt.wt]; apply Wt.ok_sw; oks [this]

theorem Comment.wt_ok (x : Comment) : x.wt.ok = true := by simp [Comment.wt, Wt.ok]
theorem CommentGroup.wt_ok (x : CommentGroup) : x.wt.ok = true := by
  apply Wt.ok_sw
  exact Step.oks_join _ _ (by simp [Comment.wt_ok])
theorem File.wt_ok (fns : FloatFns) (x : File) : (x.wt fns).ok = true := by
  apply Wt.ok_sw
  exact Step.oks_join _ _ (by simp [Stmt.wt_ok])

theorem Node.wt_ok (fns : FloatFns) (x : Node) : (x.wt fns).ok = true := by
  cases x <;> simp only [Node.wt, File.wt_ok, Ident.wt_ok, ObjectName.wt_ok, DataType.wt_ok, Operator.wt_ok,
    LongValue.wt_ok, Expr.wt_ok, WindowSpec.wt_ok, WindowFrame.wt_ok, WindowFrameUnit.wt_ok, FrameBound.wt_ok,
    OrderByExpr.wt_ok, QueryStmt.wt_ok, CTE.wt_ok, SetExpr.wt_ok, SQLSelect.wt_ok, SetOp.wt_ok, SelectItem.wt_ok,
    TableFactor.wt_ok, TableRef.wt_ok, JoinSpec.wt_ok, JoinType.wt_ok, LimitExpr.wt_ok, RowValueExpr.wt_ok,
    InsertSource.wt_ok, Assignment.wt_ok, ReferenceKeyExpr.wt_ok, TableConstraintSpec.wt_ok,
    TableConstraint.wt_ok, ColumnSpec.wt_ok, ColumnConstraint.wt_ok, ColumnDef.wt_ok, TableElement.wt_ok,
    TableOption.wt_ok, AlterColumnAction.wt_ok, AlterTableAction.wt_ok, Stmt.wt_ok, Comment.wt_ok,
    CommentGroup.wt_ok, AutoIncrement.wt, Wt.ok]

/-- Hand-written or not, `ToSQLString` returns the text of `WriteTo`. -/
theorem Node.toSQLString_eq (fns : FloatFns) (x : Node) : x.toSQLString fns = (x.wt fns).text := by
  cases x with
  | ident x => simp [Node.toSQLString, Node.wt, Ident.wt, Wt.text]
  | dataType x =>
    cases x <;> simp [Node.toSQLString, Node.wt, DataType.sqlString, DataType.wt, Wt.builderString_eq, Wt.text]
  | operator x =>
    simp only [Node.toSQLString, Node.wt, Operator.sqlString, Operator.wt]
    cases x.type <;> simp [Wt.text]
  | expr x =>
    cases x with
    | timeValue k _ _ t =>
      cases k <;> simp [Node.toSQLString, Node.wt, Expr.sqlString, Expr.wt, Wt.builderString_eq, timeWt, Wt.text]
    | ident _ => simp [Node.toSQLString, Node.wt, Expr.sqlString, Expr.wt, Ident.wt, Wt.text]
    | wildcard _ => simp [Node.toSQLString, Node.wt, Expr.sqlString, Expr.wt, Wt.text]
    | national _ _ _ => simp [Node.toSQLString, Node.wt, Expr.sqlString, Expr.wt, Wt.text]
    | null _ _ => simp [Node.toSQLString, Node.wt, Expr.sqlString, Expr.wt, Wt.text]
    | _ => simp only [Node.toSQLString, Node.wt, Expr.sqlString, Wt.builderString_eq]
  | frameUnit x =>
    simp only [Node.toSQLString, Node.wt, WindowFrameUnit.wt]
    cases x.type <;> simp [Wt.text]
  | frameBound x => cases x <;> simp [Node.toSQLString, Node.wt, FrameBound.wt, Wt.builderString_eq, Wt.text]
  | setOp x => cases x <;> simp [Node.toSQLString, Node.wt, SetOp.wt, Wt.text]
  | selectItem x => cases x <;> simp [Node.toSQLString, Node.wt, SelectItem.wt, Wt.builderString_eq, Wt.text]
  | joinType x => simp [Node.toSQLString, Node.wt, JoinType.wt, Wt.text]
  | autoIncrement x => simp [Node.toSQLString, Node.wt, AutoIncrement.wt, Wt.text]
  | columnSpec x => cases x <;> simp [Node.toSQLString, Node.wt, ColumnSpec.wt, Wt.builderString_eq, Wt.text]
  | alterColumnAction x =>
    cases x <;> simp [Node.toSQLString, Node.wt, AlterColumnAction.wt, Wt.builderString_eq, Wt.text]
  | comment x => simp [Node.toSQLString, Node.wt, Comment.wt, Wt.text]
  | _ => simp [Node.toSQLString, Wt.builderString_eq]

end Verif
