import Verif.Proofs.Panic
import Verif.Proofs.BarrierRun
/-
Panics of the entry points, and of scripts that end with a semicolon.
-/
set_option linter.unusedVariables false
namespace Verif

theorem kwsAsksZ_false : ∀ (ks : List Str) (ts : List Token), (∃ t ∈ ts, t.word? = none) → kwsAsksZ ks ts = false
  | [], _, _ => rfl
  | k :: ks, [], ⟨t, ht, _⟩ => by simp at ht
  | k :: ks, t' :: ts, ⟨t, ht, hw⟩ => by
    unfold kwsAsksZ
    split
    · rename_i hm
      rcases List.mem_cons.1 ht with rfl | ht
      · unfold Token.matchesKw at hm; unfold Token.word? at hw
        split at hm <;> simp_all
      · exact kwsAsksZ_false ks ts ⟨t, ht, hw⟩
    · rfl

/-- A run that stays before a semicolon does not ask for a token beyond the end. -/
theorem within_asksI {T : List Token} {lo L : Nat} (E : Rim T L true) : ∀ (p : P α) (i : Nat),
    p.within T lo L true i → p.asksI T i = false
  | .ret _, _, _ => rfl
  | .err, _, _ => rfl
  | .panic, _, _ => rfl
  | .oof, _, _ => rfl
  | .next k, i, hw => by
    simp only [P.within] at hw
    obtain ⟨h0, hw⟩ := hw
    obtain ⟨sx, f, g, hs⟩ := E.semi rfl
    have hlt := (List.getElem?_eq_some_iff.1 hs).1
    have := h0 trivial
    rw [P.asksI]
    rw [List.getElem?_eq_getElem (by omega)] at hw ⊢
    exact within_asksI E _ _ hw
  | .peek k, i, hw => by
    simp only [P.within] at hw
    obtain ⟨h0, hw⟩ := hw
    obtain ⟨sx, f, g, hs⟩ := E.semi rfl
    have hlt := (List.getElem?_eq_some_iff.1 hs).1
    have := h0 trivial
    rw [P.asksI, within_asksI E _ _ hw, List.getElem?_eq_getElem (by omega)]
    rfl
  | .prev k, i, hw => by
    simp only [P.within] at hw
    rw [P.asksI]
    split
    · rfl
    · exact within_asksI E _ _ hw.2
  | .kws ks k, i, hw => by
    simp only [P.within] at hw
    obtain ⟨h0, hw⟩ := hw
    obtain ⟨sx, f, g, hs⟩ := E.semi rfl
    have := h0 trivial
    rw [P.asksI, kwsAsksZ_false ks _ ⟨⟨.sym .Semicolon sx, f, g⟩, by
      apply List.mem_of_getElem? (i := L - i)
      rw [List.getElem?_drop, show i + (L - i) = L by omega, hs], rfl⟩, Bool.false_or]
    split
    · rename_i h; rw [h] at hw; exact within_asksI E _ _ hw
    · rename_i h; rw [h] at hw; exact within_asksI E _ _ hw

/-- Like `pw` for `z = true`, without the condition on the run. -/
def pz (T : List Token) (p : P α) (i : Nat) (Q : α → Nat → Prop) : Prop :=
  (∀ j, p.panicI T i = some j → Bad T true j) ∧ ∀ x j, p.runI T i = .ok x j → Q x j

section
variable {T : List Token} {i : Nat} {α β : Type}

theorem pz_bind {p : P α} {f : α → P β} {Q : β → Nat → Prop} (h : pz T p i fun x j => pz T (f x) j Q) :
    pz T (p >>= f) i Q := by
  unfold pz at h ⊢
  rw [P.bind_eq, panicI_bind, runI_bind]
  obtain ⟨h1, h2⟩ := h
  cases hp : p.runI T i with
  | ok x j => exact h2 x j hp
  | err => exact ⟨h1, fun x j h => by cases h⟩
  | panic => exact ⟨h1, fun x j h => by cases h⟩
  | oof => exact ⟨h1, fun x j h => by cases h⟩

theorem pz_mono {p : P α} {Q Q' : α → Nat → Prop} (h : pz T p i Q) (hq : ∀ x j, Q x j → Q' x j) : pz T p i Q' :=
  ⟨h.1, fun x j hr => hq x j (h.2 x j hr)⟩

theorem pz_ret {a : α} {Q : α → Nat → Prop} (h : Q a i) : pz T (pure a) i Q :=
  ⟨fun j h => (by cases h), fun x j hr => by cases hr; exact h⟩

theorem pz_err {Q : α → Nat → Prop} : pz T .err i Q := ⟨fun j h => (by cases h), fun x j h => (by cases h)⟩
theorem pz_oof {Q : α → Nat → Prop} : pz T .oof i Q := ⟨fun j h => (by cases h), fun x j h => (by cases h)⟩

theorem pz_peekToken {Q : Option Token → Nat → Prop} (h : Q T[i]? i) : pz T peekToken i Q :=
  ⟨fun j h => (by cases h), fun x j hr => by cases hr; exact h⟩

theorem pz_nextToken {Q : Option Token → Nat → Prop} (h1 : ∀ t, T[i]? = some t → Q (some t) (i + 1))
    (h2 : T[i]? = none → Q none i) : pz T nextToken i Q := by
  unfold pz
  simp only [nextToken, P.panicI, P.runI]
  cases ht : T[i]? with
  | none => exact ⟨fun j h => (by cases h), fun x j hr => by cases hr; exact h2 ht⟩
  | some t => exact ⟨fun j h => (by cases h), fun x j hr => by cases hr; exact h1 t ht⟩

theorem pz_prevToken {Q : Unit → Nat → Prop} (h : Q () i) : pz T prevToken (i + 1) Q :=
  ⟨fun j h => (by cases h), fun x j hr => by cases hr; exact h⟩

theorem pz_consumeToken {k : Sym} {Q : Bool → Nat → Prop} (h1 : ∀ t, T[i]? = some t → Q true (i + 1)) (h2 : Q false i) :
    pz T (consumeToken k) i Q := by
  unfold consumeToken
  refine pz_bind (pz_peekToken ?_)
  cases ht : T[i]? with
  | none => exact pz_ret h2
  | some t =>
    simp only
    split
    · refine pz_bind ⟨?_, ?_⟩
      · intro j h
        simp [nextOrErr, P.panicI, ht] at h
      · intro x j h
        simp only [nextOrErr, P.runI, ht] at h
        cases h
        exact pz_ret (h1 t ht)
    · exact pz_ret h2

end

/-- `ParseSQL` on tokens that end with a semicolon. -/
theorem pz_parseSQLLoop {T : List Token} (fns : FloatFns) (n : Nat) {L : Nat} (hL : T.length = L + 1) (E : Rim T L true)
    (mode : Bool) : ∀ (m : Nat) (e : Bool) (i : Nat),
    pz T (parseSQLLoop mode (Parsers.at fns n) m e) i fun _ _ => True
  | 0, _, _ => pz_oof
  | m + 1, e, i => by
    have hrest : ∀ j, j ≤ L → pz T (do
        let s ← (Parsers.at fns n).statement
        let ss ← parseSQLLoop mode (Parsers.at fns n) m true
        pure (s :: ss)) j fun _ _ => True := by
      intro j hj
      have hb := (bar_at (lo := 0) fns E n).statement j hj (Nat.zero_le _)
      have hp := (pan_at (T := T) (z := true) fns n).statement j
      unfold pw at hp
      have hq := hp fun _ => within_asksI E _ _ hb.1
      refine pz_bind ⟨hq.1, ?_⟩
      intro s k _
      refine pz_bind (pz_mono (pz_parseSQLLoop fns n hL E mode m true k) ?_)
      intro ss l _
      exact pz_ret trivial
    unfold parseSQLLoop
    have key : ∀ j, pz T (do
        let t ← if mode then nextToken else peekToken
        match t with
        | none => pure []
        | some _ => do
          if mode then prevToken
          let s ← (Parsers.at fns n).statement
          let ss ← parseSQLLoop mode (Parsers.at fns n) m true
          pure (s :: ss)) j fun _ _ => True := by
      intro j
      cases mode with
      | false =>
        refine pz_bind (pz_peekToken ?_)
        cases ht : T[j]? with
        | none => exact pz_ret trivial
        | some t =>
          have := (List.getElem?_eq_some_iff.1 ht).1
          exact hrest j (by omega)
      | true =>
        refine pz_bind (pz_nextToken ?_ ?_)
        · intro t ht
          have := (List.getElem?_eq_some_iff.1 ht).1
          exact pz_bind (pz_prevToken (hrest j (by omega)))
        · intro _; exact pz_ret trivial
    refine pz_bind (pz_consumeToken ?_ ?_)
    · intro t _
      exact key (i + 1)
    · cases e with
      | true => exact pz_err
      | false => exact key i

theorem explained_of {T : List Token} {j : Nat} {s : PState} (hs : s.At T j) (h : Bad T true j) : s.explained := by
  rcases bad_state hs h with h | h
  · cases h.1
  · exact h

/-- A word that does not contain a dotless i is read as the keyword that its field `Keyword` names. -/
theorem kw_matches {t : Token} {k : KW} (h : t.kw? = some k) (hk : ∀ w, t.tok = .word w → w.keyword = upper w.value)
    (hi : ∀ w, t.tok = .word w → 'ı' ∉ w.value) : t.matchesKw k.str = true := by
  obtain ⟨w, hw, hkw⟩ := kwOf_kw h
  have h1 := hk w hw
  have h0 := hi w hw
  rw [kwOf_eq_some] at hkw
  rw [hkw] at h1
  simp only [Token.matchesKw, hw, equalFold, beq_iff_eq]
  have hc : ∀ c : Char, c ≠ 'ı' → 'A' ≤ upperC c ∧ upperC c ≤ 'Z' ∨ upperC c = '_' → foldC c = foldC (upperC c) := by
    intro c hc hu
    rcases hu with hu | hu
    · by_cases hI : upperC c = 'I'
      · unfold upperC at hI
        split at hI
        · rename_i h
          have h2 : 97 ≤ c.toNat ∧ c.toNat ≤ 122 := h
          have h3 : ∀ n : Fin 26, foldC (Char.ofNat (n.1 + 97)) = foldC (upperC (Char.ofNat (n.1 + 97))) := by decide
          have h4 := h3 ⟨c.toNat - 97, by omega⟩
          simp only at h4
          rw [show c.toNat - 97 + 97 = c.toNat by omega, Char.ofNat_toNat] at h4
          exact h4
        · split at hI
          · simp at hI
          · subst hI; decide
      · exact upper_fold rfl ⟨hu.1, hu.2, hI⟩
    · have : c = '_' := by
        unfold upperC at hu
        split at hu
        · rename_i h
          have h2 : 97 ≤ c.toNat ∧ c.toNat ≤ 122 := h
          have h3 : ∀ n : Fin 26, Char.ofNat (n.1 + 97 - 32) ≠ '_' := by decide
          have h4 := h3 ⟨c.toNat - 97, by omega⟩
          simp only at h4
          rw [show c.toNat - 97 + 97 = c.toNat by omega] at h4
          exact absurd hu h4
        · split at hu
          · simp at hu
          · exact hu
      subst this
      decide
  have h2 : ∀ (v s : Str), s = upper v → 'ı' ∉ v → (∀ k ∈ s, 'A' ≤ k ∧ k ≤ 'Z' ∨ k = '_') →
      v.map foldC = s.map foldC := by
    intro v
    induction v with
    | nil => intro s h _ _; subst h; rfl
    | cons c v ih =>
      intro s h hn hs
      subst h
      simp only [upper, List.map_cons]
      simp only [List.mem_cons, not_or] at hn
      rw [← hc c (fun h => hn.1 h.symm) (hs _ (by simp [upper]))]
      exact congrArg _ (ih _ rfl hn.2 fun k hk => hs k (by simp [upper] at hk ⊢; exact .inr hk))
  refine h2 _ _ h1 h0 ?_
  have hall : ∀ k : KW, ∀ c ∈ k.str, 'A' ≤ c ∧ c ≤ 'Z' ∨ c = '_' := by
    intro k; cases k <;> decide
  exact hall k

end Verif
