import Verif.Proofs.Mono
/-
A third semantics of parser programs, on the significant tokens with an index, and weakest preconditions for
it: `wp T p i Q` says that `p`, started at index `i` of `T`, does not run out of budget, and that `Q` holds of
its result and final index if it succeeds.
-/
set_option linter.unusedVariables false
namespace Verif

/-- Execution on significant tokens with an index. -/
def P.runI (T : List Token) : P α → Nat → Res Nat α
  | .ret a, i => .ok a i
  | .next k, i =>
    match T[i]? with
    | some t => (k (some t)).runI T (i + 1)
    | none => (k none).runI T i
  | .peek k, i => (k T[i]?).runI T i
  | .prev k, i => if i = 0 then .panic else k.runI T (i - 1)
  | .kws ks k, i =>
    match takeKws ks (T.drop i) with
    | some (ts, _) => (k (some ts)).runI T (i + ts.length)
    | none => (k none).runI T i
  | .err, _ => .err
  | .panic, _ => .panic
  | .oof, _ => .oof

theorem takeKws_append : ∀ {ks : List Str} {s ts s' : List Token}, takeKws ks s = some (ts, s') →
    s = ts ++ s' ∧ ts.length = ks.length
  | [], s, ts, s', h => by simp [takeKws] at h; obtain ⟨rfl, rfl⟩ := h; simp
  | k :: ks, [], ts, s', h => by simp [takeKws] at h
  | k :: ks, t :: s, ts, s', h => by
    simp only [takeKws] at h
    split at h
    · simp only [Option.map_eq_some_iff, Prod.mk.injEq] at h
      obtain ⟨⟨ts', s''⟩, h1, rfl, rfl⟩ := h
      obtain ⟨h2, h3⟩ := takeKws_append h1
      simp [← h2, h3]
    · simp at h

theorem runZ_runI (T : List Token) : ∀ (p : P α) (i : Nat), i ≤ T.length →
    (p.runZ (T.take i).reverse (T.drop i)).mapState (fun s => s.1.length) = p.runI T i ∧
    ∀ a b s, p.runZ (T.take i).reverse (T.drop i) = .ok a (b, s) →
      ∃ j, j ≤ T.length ∧ b = (T.take j).reverse ∧ s = T.drop j
  | .ret a, i, hi => by
    simp only [P.runZ, P.runI, Res.mapState]
    refine ⟨by simp; omega, ?_⟩
    intro a b s h
    simp only [Res.ok.injEq, Prod.mk.injEq] at h
    exact ⟨i, hi, h.2.1.symm, h.2.2.symm⟩
  | .err, _, _ => by simp [P.runZ, P.runI, Res.mapState]
  | .panic, _, _ => by simp [P.runZ, P.runI, Res.mapState]
  | .oof, _, _ => by simp [P.runZ, P.runI, Res.mapState]
  | .next k, i, hi => by
    rcases Nat.lt_or_ge i T.length with h | h
    · have ht : T.take (i + 1) = T.take i ++ [T[i]] := by rw [List.take_add_one]; simp [h]
      have ht' : (T.take (i + 1)).reverse = T[i] :: (T.take i).reverse := by rw [ht]; simp
      have := runZ_runI T (k (some T[i])) (i + 1) h
      rw [ht'] at this
      rw [List.drop_eq_getElem_cons h]
      simp only [P.runZ, P.runI, List.getElem?_eq_getElem h]
      exact this
    · have hd : T.drop i = [] := List.drop_eq_nil_of_le h
      have := runZ_runI T (k none) i hi
      rw [hd] at this
      rw [hd]
      simp only [P.runZ, P.runI, List.getElem?_eq_none h]
      exact this
  | .peek k, i, hi => by
    simp only [P.runZ, P.runI, List.head?_drop]
    exact runZ_runI T _ i hi
  | .prev k, i, hi => by
    cases i with
    | zero => simp [P.runZ, P.runI, Res.mapState]
    | succ i =>
      have h : i < T.length := hi
      have ht : T.take (i + 1) = T.take i ++ [T[i]] := by rw [List.take_add_one]; simp [h]
      have := runZ_runI T k i (by omega)
      rw [List.drop_eq_getElem_cons h] at this
      rw [ht]
      simp only [List.reverse_append, List.reverse_cons, List.reverse_nil, List.nil_append,
        List.singleton_append, P.runZ, P.runI]
      simpa using this
  | .kws ks k, i, hi => by
    simp only [P.runZ, P.runI]
    cases htk : takeKws ks (T.drop i) with
    | none => exact runZ_runI T _ i hi
    | some r =>
      obtain ⟨ts, s'⟩ := r
      have h := (takeKws_append htk).1
      have hl := congrArg List.length h
      simp at hl
      have h1 : T.drop (i + ts.length) = s' := by
        rw [← List.drop_drop, h]; simp
      have h2 : T.take (i + ts.length) = T.take i ++ ts := by
        rw [List.take_add, h]; simp
      have := runZ_runI T (k (some ts)) (i + ts.length) (by omega)
      rw [h1, h2] at this
      simpa using this

/-- Run the program on the whole list of significant tokens. -/
theorem runZ_zero (T : List Token) (p : P α) :
    (p.runZ [] T).mapState (fun s => s.1.length) = p.runI T 0 := by
  have := (runZ_runI T p 0 (Nat.zero_le _)).1
  simpa using this

def wp (T : List Token) (p : P α) (i : Nat) (Q : α → Nat → Prop) : Prop :=
  match p.runI T i with
  | .ok x j => Q x j
  | .oof => False
  | _ => True

variable {T : List Token} {i n : Nat} {α β : Type}

theorem runI_bind (T : List Token) : ∀ (p : P α) (f : α → P β) (i : Nat),
    (p.bind f).runI T i =
      match p.runI T i with
      | .ok a j => (f a).runI T j
      | .err => .err
      | .panic => .panic
      | .oof => .oof
  | .ret a, f, i => by simp [P.bind, P.runI]
  | .err, _, _ => by simp [P.bind, P.runI]
  | .panic, _, _ => by simp [P.bind, P.runI]
  | .oof, _, _ => by simp [P.bind, P.runI]
  | .next k, f, i => by
    simp only [P.bind, P.runI]
    cases T[i]? with
    | none => exact runI_bind T _ f _
    | some t => exact runI_bind T _ f _
  | .peek k, f, i => by simp only [P.bind, P.runI]; exact runI_bind T _ f _
  | .prev k, f, i => by
    simp only [P.bind, P.runI]
    split
    · rfl
    · exact runI_bind T _ f _
  | .kws ks k, f, i => by
    simp only [P.bind, P.runI]
    cases takeKws ks (T.drop i) with
    | none => exact runI_bind T _ f _
    | some r => exact runI_bind T _ f _

theorem wp_bind {p : P α} {f : α → P β} {Q : β → Nat → Prop}
    (h : wp T p i fun x j => wp T (f x) j Q) : wp T (p >>= f) i Q := by
  unfold wp at h ⊢
  rw [P.bind_eq, runI_bind]
  cases hp : p.runI T i with
  | ok x j => rw [hp] at h; exact h
  | err => trivial
  | panic => trivial
  | oof => rw [hp] at h; exact h

/-- An optional clause: forget everything but the progress. -/
theorem wp_cut {p : P γ} {g : γ → P α} {f : α → P β} {Q : β → Nat → Prop}
    (h1 : wp T (p >>= g) i fun _ j => i ≤ j ∧ j ≤ T.length)
    (h2 : ∀ x j, i ≤ j → j ≤ T.length → wp T (f x) j Q) : wp T (p >>= g >>= f) i Q := by
  apply wp_bind
  unfold wp at h1 ⊢
  cases hp : (p >>= g).runI T i with
  | ok x j => rw [hp] at h1; exact h2 x j h1.1 h1.2
  | err => trivial
  | panic => trivial
  | oof => rw [hp] at h1; exact h1

theorem wp_mono {p : P α} {Q Q' : α → Nat → Prop} (h : wp T p i Q) (hq : ∀ x j, Q x j → Q' x j) :
    wp T p i Q' := by
  unfold wp at h ⊢
  cases hp : p.runI T i with
  | ok x j => rw [hp] at h; exact hq x j h
  | err => trivial
  | panic => trivial
  | oof => rw [hp] at h; exact h

theorem wp_ret {a : α} {Q : α → Nat → Prop} (h : Q a i) : wp T (pure a) i Q := h
theorem wp_err {Q : α → Nat → Prop} : wp T .err i Q := trivial
theorem wp_panic {Q : α → Nat → Prop} : wp T .panic i Q := trivial

theorem wp_nextToken {Q : Option Token → Nat → Prop}
    (h1 : ∀ t, T[i]? = some t → i < T.length → Q (some t) (i + 1)) (h2 : T.length ≤ i → Q none i) :
    wp T nextToken i Q := by
  simp only [wp, nextToken, P.runI]
  cases ht : T[i]? with
  | none => exact h2 (List.getElem?_eq_none_iff.1 ht)
  | some t => exact h1 t ht (List.getElem?_eq_some_iff.1 ht).1

theorem wp_peekToken {Q : Option Token → Nat → Prop}
    (h1 : ∀ t, T[i]? = some t → i < T.length → Q (some t) i) (h2 : T.length ≤ i → Q none i) :
    wp T peekToken i Q := by
  simp only [wp, peekToken, P.runI]
  cases ht : T[i]? with
  | none => exact h2 (List.getElem?_eq_none_iff.1 ht)
  | some t => exact h1 t ht (List.getElem?_eq_some_iff.1 ht).1

theorem wp_prevToken {Q : Unit → Nat → Prop} (h : ∀ j, i = j + 1 → Q () j) : wp T prevToken i Q := by
  simp only [wp, prevToken, P.runI]
  cases i with
  | zero => trivial
  | succ i => exact h i rfl

theorem wp_parseKeywords {k : KW} {ks : List KW} {Q : Option (List Token) → Nat → Prop}
    (h1 : ∀ ts j, i + 1 ≤ j → j ≤ T.length → Q (some ts) j) (h2 : Q none i) :
    wp T (parseKeywords (k :: ks)) i Q := by
  simp only [wp, parseKeywords, P.runI]
  cases htk : takeKws ((k :: ks).map KW.str) (T.drop i) with
  | none => exact h2
  | some r =>
    obtain ⟨ts, s'⟩ := r
    obtain ⟨h, hl⟩ := takeKws_append htk
    have hl' := congrArg List.length h
    simp at hl hl'
    exact h1 ts _ (by omega) (by omega)

theorem wp_nextOrErr {Q : Token → Nat → Prop} (h1 : ∀ t, T[i]? = some t → i < T.length → Q t (i + 1)) :
    wp T nextOrErr i Q := by
  simp only [wp, nextOrErr, P.runI]
  cases ht : T[i]? with
  | none => trivial
  | some t => exact h1 t ht (List.getElem?_eq_some_iff.1 ht).1

theorem wp_mustNext {Q : Token → Nat → Prop} (h1 : ∀ t, T[i]? = some t → i < T.length → Q t (i + 1)) :
    wp T mustNext i Q := by
  simp only [wp, mustNext, P.runI]
  cases ht : T[i]? with
  | none => trivial
  | some t => exact h1 t ht (List.getElem?_eq_some_iff.1 ht).1

theorem wp_mustPeek {Q : Token → Nat → Prop} (h1 : ∀ t, T[i]? = some t → i < T.length → Q t i) :
    wp T mustPeek i Q := by
  simp only [wp, mustPeek, P.runI]
  cases ht : T[i]? with
  | none => trivial
  | some t => exact h1 t ht (List.getElem?_eq_some_iff.1 ht).1

theorem wp_parseKeyword {k : KW} {Q : KwRes → Nat → Prop} (h0 : T.length ≤ i → Q .eof i)
    (h1 : ∀ t, T[i]? = some t → t.matchesKw k.str = true → i < T.length → Q (.yes t) (i + 1))
    (h2 : ∀ t, T[i]? = some t → t.matchesKw k.str = false → i < T.length → Q (.no t) i) :
    wp T (parseKeyword k) i Q := by
  unfold parseKeyword
  refine wp_bind (wp_peekToken ?_ h0)
  intro t ht hi
  simp only
  split
  · refine wp_bind (wp_mustNext ?_)
    intro t' ht' _
    exact h1 t ht ‹_› hi
  · rename_i hm; exact h2 t ht (by simpa using hm) hi

theorem wp_kw {k : KW} {Q : Bool → Nat → Prop}
    (h1 : ∀ t, T[i]? = some t → t.matchesKw k.str = true → i < T.length → Q true (i + 1))
    (h2 : (∀ t, T[i]? = some t → t.matchesKw k.str = false) → Q false i) : wp T (kw k) i Q := by
  unfold kw
  refine wp_bind (wp_parseKeyword ?_ ?_ ?_)
  · intro hi; exact h2 (by intro t ht; rw [List.getElem?_eq_none hi] at ht; simp at ht)
  · exact h1
  · intro t ht hm _; exact h2 (by intro t' ht'; rw [ht] at ht'; cases ht'; exact hm)

theorem wp_kwTok {k : KW} {Q : Option Token → Nat → Prop}
    (h1 : ∀ t, T[i]? = some t → t.matchesKw k.str = true → i < T.length → Q (some t) (i + 1))
    (h2 : Q none i) : wp T (kwTok k) i Q := by
  unfold kwTok
  exact wp_bind (wp_parseKeyword (fun _ => h2) h1 (fun _ _ _ _ => h2))

theorem wp_kwOrErr {k : KW} {Q : Token → Nat → Prop}
    (h1 : ∀ t, T[i]? = some t → t.matchesKw k.str = true → i < T.length → Q t (i + 1)) :
    wp T (kwOrErr k) i Q := by
  unfold kwOrErr
  exact wp_bind (wp_parseKeyword (fun _ => wp_err) h1 (fun _ _ _ _ => wp_err))

theorem wp_expectKeyword {k : KW} {Q : Token → Nat → Prop}
    (h1 : ∀ t, T[i]? = some t → t.matchesKw k.str = true → i < T.length → Q t (i + 1)) :
    wp T (expectKeyword k) i Q := by
  unfold expectKeyword
  exact wp_bind (wp_parseKeyword (fun _ => wp_panic) h1 (fun _ _ _ _ => wp_panic))

theorem wp_consumeToken {k : Sym} {Q : Bool → Nat → Prop}
    (h1 : ∀ t, T[i]? = some t → t.isSym k = true → i < T.length → Q true (i + 1)) (h2 : Q false i) :
    wp T (consumeToken k) i Q := by
  unfold consumeToken
  refine wp_bind (wp_peekToken ?_ (fun _ => h2))
  intro t ht hi
  simp only
  split
  · refine wp_bind (wp_nextOrErr ?_)
    intro t' ht' _
    exact h1 t ht ‹_› hi
  · exact h2

theorem wp_expectToken {k : Sym} {Q : Unit → Nat → Prop}
    (h1 : ∀ t, T[i]? = some t → t.isSym k = true → i < T.length → Q () (i + 1)) :
    wp T (expectToken k) i Q := by
  unfold expectToken
  exact wp_bind (wp_consumeToken (fun t ht hs hi => h1 t ht hs hi) wp_panic)

theorem wp_nextSym {k : Sym} {Q : Token → Nat → Prop}
    (h1 : ∀ t, T[i]? = some t → t.isSym k = true → i < T.length → Q t (i + 1)) :
    wp T (nextSym k) i Q := by
  unfold nextSym
  refine wp_bind (wp_mustNext ?_)
  intro t ht hi
  split
  · exact h1 t ht ‹_› hi
  · exact wp_err

end Verif
