import Verif.Model.Session
import Verif.Proofs.BarrierRun
import Verif.Proofs.Keyword
import Verif.Proofs.GrammarStmt
import Verif.Proofs.PanicRun
import Verif.Proofs.NodePos
/-
Programs whose errors are caught.
-/
set_option linter.unusedVariables false
namespace Verif

/-! ### The program and its attempt -/

theorem attempt_run (mode : Bool) : ∀ (p : P α) (s : PState),
    (∀ x s', p.run mode s = .ok x s' → p.attempt.run mode s = .ok (some x) s') ∧
    (p.run mode s = .err → ∃ s', p.attempt.run mode s = .ok none s') ∧
    (p.run mode s = .panic → p.attempt.run mode s = .panic) ∧
    (p.run mode s = .oof → p.attempt.run mode s = .oof)
  | .ret a, s => by
    refine ⟨fun x s' h => ?_, fun h => ?_, fun h => ?_, fun h => ?_⟩ <;> cases h; rfl
  | .err, s => by
    refine ⟨fun x s' h => ?_, fun h => ⟨s, rfl⟩, fun h => ?_, fun h => ?_⟩ <;> cases h
  | .panic, s => by
    refine ⟨fun x s' h => ?_, fun h => ?_, fun h => rfl, fun h => ?_⟩ <;> cases h
  | .oof, s => by
    refine ⟨fun x s' h => ?_, fun h => ?_, fun h => ?_, fun h => rfl⟩ <;> cases h
  | .next k, s => attempt_run mode (k _) _
  | .peek k, s => attempt_run mode (k _) _
  | .prev k, s => by
    simp only [P.attempt, P.run]
    cases s.prev with
    | none => refine ⟨fun x s' h => ?_, fun h => ?_, fun h => rfl, fun h => ?_⟩ <;> cases h
    | some s' => exact attempt_run mode k s'
  | .kws ks k, s => attempt_run mode (k _) _

theorem attempt_ok {p : P α} {mode : Bool} {s s' : PState} {x : α} :
    p.attempt.run mode s = .ok (some x) s' ↔ p.run mode s = .ok x s' := by
  obtain ⟨h1, h2, h3, h4⟩ := attempt_run mode p s
  refine ⟨fun h => ?_, h1 x s'⟩
  cases hp : p.run mode s with
  | ok y t => rw [h1 y t hp] at h; cases h; rfl
  | err => obtain ⟨t, ht⟩ := h2 hp; rw [ht] at h; cases h
  | panic => rw [h3 hp] at h; cases h
  | oof => rw [h4 hp] at h; cases h

theorem attempt_err {p : P α} {mode : Bool} {s : PState} :
    (∃ s', p.attempt.run mode s = .ok none s') ↔ p.run mode s = .err := by
  obtain ⟨h1, h2, h3, h4⟩ := attempt_run mode p s
  refine ⟨fun ⟨s', h⟩ => ?_, h2⟩
  cases hp : p.run mode s with
  | ok y t => rw [h1 y t hp] at h; cases h
  | err => rfl
  | panic => rw [h3 hp] at h; cases h
  | oof => rw [h4 hp] at h; cases h

theorem attempt_ne_err {p : P α} {mode : Bool} {s : PState} : p.attempt.run mode s ≠ .err := by
  obtain ⟨h1, h2, h3, h4⟩ := attempt_run mode p s
  cases hp : p.run mode s with
  | ok y t => rw [h1 y t hp]; simp
  | err => obtain ⟨t, ht⟩ := h2 hp; rw [ht]; simp
  | panic => rw [h3 hp]; simp
  | oof => rw [h4 hp]; simp

theorem attempt_panic {p : P α} {mode : Bool} {s : PState} : p.attempt.run mode s = .panic ↔ p.run mode s = .panic := by
  obtain ⟨h1, h2, h3, h4⟩ := attempt_run mode p s
  refine ⟨fun h => ?_, h3⟩
  cases hp : p.run mode s with
  | ok y t => rw [h1 y t hp] at h; cases h
  | err => obtain ⟨t, ht⟩ := h2 hp; rw [ht] at h; cases h
  | panic => rfl
  | oof => rw [h4 hp] at h; cases h

theorem attempt_oof {p : P α} {mode : Bool} {s : PState} : p.attempt.run mode s = .oof ↔ p.run mode s = .oof := by
  obtain ⟨h1, h2, h3, h4⟩ := attempt_run mode p s
  refine ⟨fun h => ?_, h4⟩
  cases hp : p.run mode s with
  | ok y t => rw [h1 y t hp] at h; cases h
  | err => obtain ⟨t, ht⟩ := h2 hp; rw [ht] at h; cases h
  | panic => rw [h3 hp] at h; cases h
  | oof => rfl

theorem attempt_within {T : List Token} {lo L : Nat} {d : Bool} : ∀ {p : P α} {i : Nat}, p.within T lo L d i →
    p.attempt.within T lo L d i
  | .ret a, _, _ => trivial
  | .err, _, _ => trivial
  | .panic, _, _ => trivial
  | .oof, _, _ => trivial
  | .next k, i, h => by
    simp only [P.attempt, P.within] at h ⊢
    obtain ⟨h1, h2⟩ := h
    refine ⟨h1, ?_⟩
    cases ht : T[i]? with
    | none => rw [ht] at h2; exact attempt_within h2
    | some t => rw [ht] at h2; exact attempt_within h2
  | .peek k, i, h => ⟨h.1, attempt_within h.2⟩
  | .prev k, i, h => ⟨h.1, attempt_within h.2⟩
  | .kws ks k, i, h => by
    simp only [P.attempt, P.within] at h ⊢
    obtain ⟨h1, h2⟩ := h
    refine ⟨h1, ?_⟩
    cases ht : takeKws ks (T.drop i) with
    | none => rw [ht] at h2; exact attempt_within h2
    | some r => rw [ht] at h2; exact attempt_within h2

/-! ### Where a program can end -/

theorem within_end {T : List Token} {lo L : Nat} {d : Bool} (E : Rim T L d) : ∀ {p : P α} {i : Nat}, p.within T lo L d i →
    lo ≤ i → (d = true → i ≤ L + 1) → ∀ {x j}, p.runI T i = .ok x j → lo ≤ j ∧ (d = true → j ≤ L + 1)
  | .ret a, i, _, h1, h2, x, j, h => by cases h; exact ⟨h1, h2⟩
  | .err, _, _, _, _, _, _, h => by cases h
  | .panic, _, _, _, _, _, _, h => by cases h
  | .oof, _, _, _, _, _, _, h => by cases h
  | .next k, i, hw, h1, h2, x, j, h => by
    simp only [P.within, P.runI] at hw h
    cases ht : T[i]? with
    | none => rw [ht] at hw h; exact within_end E hw.2 h1 h2 h
    | some t => rw [ht] at hw h; exact within_end E hw.2 (by omega) (fun hd => by have := hw.1 hd; omega) h
  | .peek k, i, hw, h1, h2, x, j, h => by
    simp only [P.within, P.runI] at hw h
    exact within_end E hw.2 h1 h2 h
  | .prev k, i, hw, h1, h2, x, j, h => by
    simp only [P.within, P.runI] at hw h
    rw [if_neg (by omega)] at h
    exact within_end E hw.2 (by omega) (fun hd => by have := h2 hd; omega) h
  | .kws ks k, i, hw, h1, h2, x, j, h => by
    simp only [P.within, P.runI] at hw h
    cases ht : takeKws ks (T.drop i) with
    | none => rw [ht] at hw h; exact within_end E hw.2 h1 h2 h
    | some r =>
      obtain ⟨ts, s'⟩ := r
      rw [ht] at hw h
      refine within_end E hw.2 (by omega) (fun hd => ?_) h
      obtain ⟨s, f, g, hs⟩ := E.semi hd
      have hi := hw.1 hd
      rcases Nat.lt_or_ge L (i + ts.length) with hlt | h'
      · have hm : ts[L - i]? = some ⟨.sym .Semicolon s, f, g⟩ := by
          have := congrArg (·[L - i]?) (takeKws_append ht).1
          rw [List.getElem?_drop, show i + (L - i) = L by omega, hs, List.getElem?_append_left (by omega)] at this
          exact this.symm
        exact absurd rfl (takeKws_word ht _ (List.mem_of_getElem? hm))
      · omega

theorem attempt_runI (T : List Token) : ∀ (p : P α) (i : Nat) (x : α) (j : Nat), p.attempt.runI T i = .ok (some x) j →
    p.runI T i = .ok x j
  | .ret a, i, x, j, h => by cases h; rfl
  | .err, i, x, j, h => by cases h
  | .panic, i, x, j, h => by cases h
  | .oof, i, x, j, h => by cases h
  | .next k, i, x, j, h => by
    simp only [P.runI, P.attempt] at h ⊢
    cases ht : T[i]? with
    | none => rw [ht] at h; exact attempt_runI T _ _ _ _ h
    | some t => rw [ht] at h; exact attempt_runI T _ _ _ _ h
  | .peek k, i, x, j, h => attempt_runI T (k _) _ _ _ h
  | .prev k, i, x, j, h => by
    simp only [P.runI, P.attempt] at h ⊢
    split at h
    · cases h
    · rename_i hi; rw [if_neg hi]; exact attempt_runI T _ _ _ _ h
  | .kws ks k, i, x, j, h => by
    simp only [P.runI, P.attempt] at h ⊢
    cases ht : takeKws ks (T.drop i) with
    | none => rw [ht] at h; exact attempt_runI T _ _ _ _ h
    | some r => rw [ht] at h; exact attempt_runI T _ _ _ _ h

theorem attempt_runI_ok (T : List Token) : ∀ (p : P α) (i : Nat) (x : α) (j : Nat), p.runI T i = .ok x j →
    p.attempt.runI T i = .ok (some x) j
  | .ret a, i, x, j, h => by cases h; rfl
  | .err, i, x, j, h => by cases h
  | .panic, i, x, j, h => by cases h
  | .oof, i, x, j, h => by cases h
  | .next k, i, x, j, h => by
    simp only [P.runI, P.attempt] at h ⊢
    cases ht : T[i]? with
    | none => rw [ht] at h; exact attempt_runI_ok T _ _ _ _ h
    | some t => rw [ht] at h; exact attempt_runI_ok T _ _ _ _ h
  | .peek k, i, x, j, h => attempt_runI_ok T (k _) _ _ _ h
  | .prev k, i, x, j, h => by
    simp only [P.runI, P.attempt] at h ⊢
    split at h
    · cases h
    · rename_i hi; rw [if_neg hi]; exact attempt_runI_ok T _ _ _ _ h
  | .kws ks k, i, x, j, h => by
    simp only [P.runI, P.attempt] at h ⊢
    cases ht : takeKws ks (T.drop i) with
    | none => rw [ht] at h; exact attempt_runI_ok T _ _ _ _ h
    | some r => rw [ht] at h; exact attempt_runI_ok T _ _ _ _ h

theorem attempt_bind : ∀ (p : P α) (f : α → P β), (p.bind f).attempt =
    p.attempt.bind fun | some x => (f x).attempt | none => .ret none
  | .ret a, f => rfl
  | .err, f => rfl
  | .panic, f => rfl
  | .oof, f => rfl
  | .next k, f => by simp only [P.bind, P.attempt]; congr 1; funext t; exact attempt_bind _ f
  | .peek k, f => by simp only [P.bind, P.attempt]; congr 1; funext t; exact attempt_bind _ f
  | .prev k, f => by simp only [P.bind, P.attempt]; congr 1; exact attempt_bind _ f
  | .kws ks k, f => by simp only [P.bind, P.attempt]; congr 1; funext t; exact attempt_bind _ f

/-- The program ends behind `lo`, whether it fails or not. -/
def adv (T : List Token) (lo : Nat) (p : P α) (i : Nat) : Prop := ∀ x j, p.attempt.runI T i = .ok x j → lo + 1 ≤ j

variable {T : List Token} {lo i L : Nat} {d : Bool} {α β : Type}

theorem adv_within (E : Rim T L false) {p : P α} (h : p.within T (lo + 1) L false i) (hi : lo + 1 ≤ i) : adv T lo p i :=
  fun _ _ hr => (within_end E (attempt_within h) hi (fun h => by cases h) hr).1

theorem adv_bw (E : Rim T L false) {p : P α} {Q : α → Nat → Prop} (h : bw T (lo + 1) L false p i Q) (hi : lo + 1 ≤ i) :
    adv T lo p i := adv_within E h.1 hi

theorem adv_bind {p : P α} {f : α → P β} (h : adv T lo p i) (hf : ∀ x j, p.attempt.runI T i = .ok (some x) j →
    adv T lo (f x) j) : adv T lo (p >>= f) i := by
  intro x j hr
  rw [P.bind_eq, attempt_bind, runI_bind] at hr
  cases hp : p.attempt.runI T i with
  | ok y k =>
    rw [hp] at hr
    cases y with
    | none => cases hr; exact h _ _ hp
    | some y =>
      exact hf y k hp x j hr
  | _ => rw [hp] at hr; cases hr


theorem adv_next {t : Token} {f : Token → P α} (ht : T[i]? = some t) (h : adv T lo (f t) (i + 1)) :
    adv T lo (nextOrErr >>= f) i := by
  intro x j hr
  refine h x j ?_
  rw [P.bind_eq] at hr
  simp only [nextOrErr, P.bind, P.attempt, P.runI, ht] at hr
  exact hr

theorem adv_mustNext {t : Token} {f : Token → P α} (ht : T[i]? = some t) (h : adv T lo (f t) (i + 1)) :
    adv T lo (mustNext >>= f) i := by
  intro x j hr
  refine h x j ?_
  rw [P.bind_eq] at hr
  simp only [mustNext, P.bind, P.attempt, P.runI, ht] at hr
  exact hr

theorem adv_peek {f : Option Token → P α} (h : adv T lo (f T[i]?) i) : adv T lo (peekToken >>= f) i := h

theorem adv_prev {f : Unit → P α} (h : adv T lo (f ()) i) : adv T lo (prevToken >>= f) (i + 1) := by
  intro x j hr
  refine h x j ?_
  rw [P.bind_eq] at hr
  simp only [prevToken, P.bind, P.attempt, P.runI] at hr
  exact hr

theorem adv_kw {t : Token} {k : KW} {f : Token → P α} (ht : T[i]? = some t) (hm : t.matchesKw k.str = true)
    (h : adv T lo (f t) (i + 1)) : adv T lo (kwOrErr k >>= f) i := by
  intro x j hr
  refine h x j ?_
  simp only [P.bind_eq, kwOrErr, parseKeyword, P.bind, P.attempt, P.runI, peekToken, ht, hm, mustNext, if_true] at hr
  exact hr

theorem adv_kw? {t : Token} {k : KW} {f : Bool → P α} (ht : T[i]? = some t)
    (h1 : t.matchesKw k.str = true → adv T lo (f true) (i + 1)) (h2 : t.matchesKw k.str = false → adv T lo (f false) i) :
    adv T lo (kw k >>= f) i := by
  intro x j hr
  cases hm : t.matchesKw k.str with
  | true =>
    refine h1 hm x j ?_
    simp only [P.bind_eq, kw, parseKeyword, P.bind, P.attempt, P.runI, peekToken, ht, hm, mustNext, if_true] at hr
    exact hr
  | false =>
    refine h2 hm x j ?_
    simp only [P.bind_eq, kw, parseKeyword, P.bind, P.attempt, P.runI, peekToken, ht, hm] at hr
    exact hr

theorem adv_kwTok {t : Token} {k : KW} {f : Option Token → P α} (ht : T[i]? = some t)
    (h1 : t.matchesKw k.str = true → adv T lo (f (some t)) (i + 1))
    (h2 : t.matchesKw k.str = false → adv T lo (f none) i) :
    adv T lo (kwTok k >>= f) i := by
  intro x j hr
  cases hm : t.matchesKw k.str with
  | true =>
    refine h1 hm x j ?_
    simp only [P.bind_eq, kwTok, parseKeyword, P.bind, P.attempt, P.runI, peekToken, ht, hm, mustNext, if_true] at hr
    exact hr
  | false =>
    refine h2 hm x j ?_
    simp only [P.bind_eq, kwTok, parseKeyword, P.bind, P.attempt, P.runI, peekToken, ht, hm] at hr
    exact hr

theorem adv_consume {t : Token} {k : Sym} {f : Bool → P α} (ht : T[i]? = some t)
    (h1 : adv T lo (f true) (i + 1)) (h2 : adv T lo (f false) i) :
    adv T lo (consumeToken k >>= f) i := by
  intro x j hr
  cases hm : t.isSym k with
  | true =>
    refine h1 x j ?_
    simp only [P.bind_eq, consumeToken, P.bind, P.attempt, P.runI, peekToken, ht, hm, nextOrErr, if_true] at hr
    exact hr
  | false =>
    refine h2 x j ?_
    simp only [P.bind_eq, consumeToken, P.bind, P.attempt, P.runI, peekToken, ht, hm] at hr
    exact hr

theorem adv_panic : adv T lo (.panic : P α) i := fun _ _ h => by cases h
theorem adv_oof : adv T lo (.oof : P α) i := fun _ _ h => by cases h

/-- The tail of a program, behind the first token. -/
macro "adv_tail" E:term : tactic => `(tactic| (refine adv_bw $E (Q := fun _ _ => True) ?_ (Nat.le_refl _); bw_loop))

/-- Words that the parser takes for a keyword, where it compares the upper-cased text, but that `parseKeyword` then does
not accept: those with a dotless i. -/
def Token.folds (t : Token) (k : KW) : Prop := t.kw? = some k → t.matchesKw k.str = true


theorem folds_plain {t : Token} {k : KW} (hk : ∀ w, t.tok = .word w → w.keyword = upper w.value)
    (h : ∀ c ∈ k.str, 'A' ≤ c ∧ c ≤ 'Z' ∧ c ≠ 'I') : t.folds k := by
  intro hw
  obtain ⟨w, hw, hkw⟩ := kwOf_kw hw
  rw [kwOf_eq_some, hk w hw] at hkw
  simp only [Token.matchesKw, hw]
  exact equalFold_of_upper hkw h

theorem kw?_of {t : Token} {w : SQLWord} {k : KW} (h1 : t.word? = some w) (h2 : kwOf w.keyword = some k) : t.kw? = some k := by
  rw [Token.kw?, h1]; exact h2

theorem word?_of {t : Token} {w : SQLWord} (h : t.tok = .word w) : t.word? = some w := by
  unfold Token.word?; rw [h]

section
variable {t : Token}

theorem runI_end_le {p : P α} {j : Nat} {x : α} (hi : i ≤ T.length) (h : p.runI T i = .ok x j) : j ≤ T.length := by
  obtain ⟨e1, e2⟩ := runZ_runI T p i hi
  rw [h] at e1
  cases hz : p.runZ (T.take i).reverse (T.drop i) with
  | ok y st =>
    obtain ⟨b, a⟩ := st
    rw [hz] at e1
    simp only [Res.mapState, Res.ok.injEq] at e1
    obtain ⟨k, hk, rfl, -⟩ := e2 _ _ _ hz
    have := e1.2
    simp at this
    omega
  | _ => rw [hz] at e1; cases e1

theorem adv_seq (E : Rim T L false) {p : P α} {f : α → P β} (hi : i ≤ L) (h : adv T lo p i)
    (hf : ∀ x j, lo + 1 ≤ j → j ≤ L → adv T lo (f x) j) : adv T lo (p >>= f) i := by
  refine adv_bind h fun x j hr => hf x j (h _ _ hr) ?_
  rw [E.open_ rfl] at hi ⊢
  exact runI_end_le hi hr

theorem P.bind_assoc {γ : Type} : ∀ (p : P α) (f : α → P β) (g : β → P γ), (p.bind f).bind g = p.bind fun x => (f x).bind g
  | .ret a, f, g => rfl
  | .err, f, g => rfl
  | .panic, f, g => rfl
  | .oof, f, g => rfl
  | .next k, f, g => by simp only [P.bind]; congr 1; funext t; exact P.bind_assoc _ f g
  | .peek k, f, g => by simp only [P.bind]; congr 1; funext t; exact P.bind_assoc _ f g
  | .prev k, f, g => by simp only [P.bind]; congr 1; exact P.bind_assoc _ f g
  | .kws ks k, f, g => by simp only [P.bind]; congr 1; funext t; exact P.bind_assoc _ f g

theorem adv_cut {γ : Type} {p : P γ} {g : γ → P α} {f : α → P β} (h : adv T lo (p >>= fun x => g x >>= f) i) :
    adv T lo ((p >>= g) >>= f) i := by
  rw [P.bind_eq, P.bind_eq, P.bind_assoc]
  exact h

theorem adv_queryBody (fns : FloatFns) (E : Rim T L false) (ht : T[i]? = some t) (hi : i + 1 ≤ L) :
    ∀ n p, adv T i ((Parsers.at fns n).queryBody p) i
  | 0, _ => adv_oof
  | n + 1, p => by
    have H := bar_at (lo := i + 1) fns E n
    show adv T i (queryBodyF (Parsers.at fns n) p) i
    unfold queryBodyF
    refine adv_kwTok ht (fun _ => ?_) fun _ => adv_consume ht ?_ adv_panic
    · adv_tail E
    · adv_tail E

theorem adv_query (fns : FloatFns) (E : Rim T L false) (ht : T[i]? = some t) (hi : i + 1 ≤ L) :
    ∀ n, adv T i ((Parsers.at fns n).query) i
  | 0 => adv_oof
  | n + 1 => by
    have H := bar_at (lo := i + 1) fns E n
    have H0 := bar_at (lo := i) fns E n
    show adv T i (queryF (Parsers.at fns n)) i
    unfold queryF
    refine adv_cut (adv_kw? ht (fun _ => ?_) fun _ => ?_)
    · adv_tail E
    · simp only [Bool.false_eq_true, if_false]
      refine adv_seq (p := (Parsers.at fns n).queryBody 0) E (by omega) (adv_queryBody fns E ht hi n 0) fun x j h1 h2 => ?_
      refine adv_bw E (Q := fun _ _ => True) ?_ h1
      bw_loop

theorem adv_statement (fns : FloatFns) (E : Rim T L false) (ht : T[i]? = some t) (hi : i + 1 ≤ L)
    (hk : ∀ w, t.tok = .word w → w.keyword = upper w.value) (hf : t.folds .INSERT) :
    ∀ n, adv T i (Parsers.at fns n).statement i
  | 0 => adv_oof
  | n + 1 => by
    have H := bar_at (lo := i + 1) fns E n
    show adv T i (statementF (Parsers.at fns n)) i
    unfold statementF
    refine adv_next ht ?_
    split
    · adv_tail E
    · rename_i w hw
      split
      · rename_i hkw
        unfold statementF.parseQueryStmt
        exact adv_prev (adv_seq E (by omega) (adv_query fns E ht hi n) fun x j h1 h2 =>
          adv_bw E (Q := fun _ _ => True) (bw_ret trivial) h1)
      · unfold statementF.parseQueryStmt
        exact adv_prev (adv_seq E (by omega) (adv_query fns E ht hi n) fun x j h1 h2 =>
          adv_bw E (Q := fun _ _ => True) (bw_ret trivial) h1)
      · rename_i hkw
        refine adv_prev ?_
        unfold parseCreate
        refine adv_kw ht (folds_plain hk (by decide) (kw?_of hw hkw)) ?_
        adv_tail E
      · rename_i hkw
        refine adv_prev ?_
        unfold parseDelete
        refine adv_kw ht (folds_plain hk (by decide) (kw?_of hw hkw)) ?_
        adv_tail E
      · rename_i hkw
        refine adv_prev ?_
        unfold parseInsert
        refine adv_kw ht (hf (kw?_of hw hkw)) ?_
        adv_tail E
      · rename_i hkw
        refine adv_prev ?_
        unfold parseAlter
        refine adv_kw ht (folds_plain hk (by decide) (kw?_of hw hkw)) ?_
        adv_tail E
      · rename_i hkw
        refine adv_prev ?_
        unfold parseUpdate
        refine adv_kw ht (folds_plain hk (by decide) (kw?_of hw hkw)) ?_
        adv_tail E
      · rename_i hkw
        refine adv_prev ?_
        unfold parseDrop
        refine adv_kw ht (folds_plain hk (by decide) (kw?_of hw hkw)) ?_
        adv_tail E
      · adv_tail E
      · adv_tail E


/-- A word whose keyword is INSERT, but not for `parseKeyword`: `ParseStatement` fails in front of it. -/
theorem stuck_statement (fns : FloatFns) (ht : T[i]? = some t) (hk : t.kw? = some .INSERT)
    (hm : t.matchesKw (KW.str .INSERT) = false) (n : Nat) :
    (Parsers.at fns (n + 1)).statement.attempt.runI T i = .ok none i := by
  show (statementF (Parsers.at fns n)).attempt.runI T i = _
  unfold statementF
  obtain ⟨w, hw, hkw⟩ := kwOf_kw hk
  simp only [P.bind_eq, nextOrErr, P.bind, P.attempt, P.runI, ht, word?_of hw, hkw, prevToken, parseInsert, kwOrErr,
    parseKeyword, peekToken, Nat.add_sub_cancel, Nat.succ_ne_zero, if_false, hm, Bool.false_eq_true]
  rfl

theorem adv_value (fns : FloatFns) (E : Rim T L false) (ht : T[i]? = some t) (hi : i + 1 ≤ L) :
    adv T i (parseValue fns) i := by
  unfold parseValue
  refine adv_next ht ?_
  adv_tail E

theorem adv_prefix (fns : FloatFns) (E : Rim T L false) (ht : T[i]? = some t) (hi : i + 1 ≤ L)
    (hk : ∀ w, t.tok = .word w → w.keyword = upper w.value) (hf : t.folds .EXISTS) :
    ∀ n, adv T i (Parsers.at fns n).prefix_ i
  | 0 => adv_oof
  | n + 1 => by
    have H := bar_at (lo := i + 1) fns E n
    show adv T i (prefixF fns (Parsers.at fns n)) i
    unfold prefixF
    refine adv_next ht ?_
    split
    · rename_i w hw
      have hw := word?_of hw
      split
      · exact adv_prev (adv_value fns E ht hi)
      · exact adv_prev (adv_value fns E ht hi)
      · exact adv_prev (adv_value fns E ht hi)
      · rename_i hkw
        refine adv_prev ?_
        unfold parseCaseExpression
        refine adv_kw ht (folds_plain hk (by decide) (kw?_of hw hkw)) ?_
        adv_tail E
      · rename_i hkw
        refine adv_prev ?_
        unfold parseCastExpression
        refine adv_kw ht (folds_plain hk (by decide) (kw?_of hw hkw)) ?_
        adv_tail E
      · rename_i hkw
        refine adv_prev ?_
        unfold parseExistsExpression
        refine adv_kw ht (hf (kw?_of hw hkw)) ?_
        adv_tail E
      · adv_tail E
      · adv_tail E
    · adv_tail E
    · adv_tail E
    · adv_tail E
    · exact adv_prev (adv_value fns E ht hi)
    · exact adv_prev (adv_value fns E ht hi)
    · exact adv_prev (adv_value fns E ht hi)
    · adv_tail E
    · exact adv_panic

theorem adv_subexpr (fns : FloatFns) (E : Rim T L false) (ht : T[i]? = some t) (hi : i + 1 ≤ L)
    (hk : ∀ w, t.tok = .word w → w.keyword = upper w.value) (hf : t.folds .EXISTS) (p : Nat) :
    ∀ n, adv T i ((Parsers.at fns n).subexpr p) i
  | 0 => adv_oof
  | n + 1 => by
    have H := bar_at (lo := i + 1) fns E n
    show adv T i (subexprF (Parsers.at fns n) p) i
    unfold subexprF
    exact adv_seq E (by omega) (adv_prefix fns E ht hi hk hf n) fun x j h1 h2 => adv_bw E (H.subexprLoop p x j h2 h1) h1

theorem stuck_expr (fns : FloatFns) (ht : T[i]? = some t) (hk : t.kw? = some .EXISTS)
    (hm : t.matchesKw (KW.str .EXISTS) = false) (n : Nat) :
    (parseExpr (Parsers.at fns (n + 2))).attempt.runI T i = .ok none i := by
  show (subexprF (Parsers.at fns (n + 1)) 0).attempt.runI T i = _
  unfold subexprF
  obtain ⟨w, hw, hkw⟩ := kwOf_kw hk
  have : (Parsers.at fns (n + 1)).prefix_ = prefixF fns (Parsers.at fns n) := rfl
  rw [this]
  unfold prefixF
  simp only [P.bind_eq, nextOrErr, P.bind, P.attempt, P.runI, ht, hw, hkw, prevToken, parseExistsExpression, kwOrErr,
    parseKeyword, peekToken, Nat.add_sub_cancel, Nat.succ_ne_zero, if_false, hm, Bool.false_eq_true]
  rfl

theorem adv_objectName (fns : FloatFns) (E : Rim T L false) {w : SQLWord} (ht : T[i]? = some t) (hw : t.word? = some w)
    (hi : i + 1 ≤ L) : ∀ n, adv T i (parseObjectName (Parsers.at fns n)) i
  | 0 => adv_oof
  | n + 1 => by
    have H := bar_at (lo := i + 1) fns E n
    unfold parseObjectName parseListOfIds
    have h1 : adv T i ((Parsers.at fns (n + 1)).listOfIds .Period) i := by
      show adv T i (listOfIdsF (Parsers.at fns n) .Period) i
      unfold listOfIdsF
      have h2 : adv T i ((Parsers.at fns n).listOfIdsSep .Period >>= fun rest =>
          pure (rest.map fun l => Ident.mk w.string t.from_ t.to_ :: l)) (i + 1) := by
        adv_tail E
      intro x j hr
      refine h2 x j ?_
      simp only [P.bind_eq, nextToken, P.bind, P.attempt, P.runI, ht, hw] at hr
      exact hr
    refine adv_cut (adv_seq E (by omega) h1 fun x j h2 h3 => ?_)
    refine adv_bw E (Q := fun _ _ => True) ?_ h2
    bw_loop

theorem adv_dataType (fns : FloatFns) (E : Rim T L false) (ht : T[i]? = some t) (hi : i + 1 ≤ L) (n : Nat) :
    adv T i (parseDataType (Parsers.at fns n)) i := by
  have H := bar_at (lo := i + 1) fns E n
  have hL := E.open_ rfl
  unfold parseDataType
  refine adv_next ht ?_
  split
  · adv_tail E
  · rename_i w hw
    split
    case h_19 =>
      refine adv_seq E hi (adv_bw E (bar_parseOptionalPrecisionScale E hi (Nat.le_refl _)) (Nat.le_refl _)) ?_
      intro x j h1 h2
      obtain ⟨j, rfl⟩ : ∃ k, j = k + 1 := ⟨j - 1, by omega⟩
      refine adv_prev (adv_cut (adv_mustNext (List.getElem?_eq_getElem (show j < T.length by omega)) ?_))
      refine adv_bw E (Q := fun _ _ => True) ?_ h1
      bw_loop
    case h_20 => exact adv_prev (adv_seq E (by omega) (adv_objectName fns E ht hw hi n) fun x j h1 h2 =>
      adv_bw E (Q := fun _ _ => True) (bw_ret trivial) h1)
    all_goals adv_tail E

theorem adv_sql (fns : FloatFns) (E : Rim T L false) (ht : T[i]? = some t) (hi : i + 1 ≤ L)
    (hk : ∀ w, t.tok = .word w → w.keyword = upper w.value) (hf : t.folds .INSERT) (mode : Bool) (n : Nat) :
    ∀ m, adv T i (parseSQLLoop mode (Parsers.at fns n) m false) i
  | 0 => adv_oof
  | m + 1 => by
    have H := bar_at (lo := i + 1) fns E n
    have hrest : ∀ j, i + 1 ≤ j → j ≤ L → adv T i (do
        let s ← (Parsers.at fns n).statement
        let ss ← parseSQLLoop mode (Parsers.at fns n) m true
        pure (s :: ss)) j := by
      intro j h1 h2
      refine adv_bw E (Q := fun _ _ => True) (bw_bind (bw_mono (H.statement j h2 h1) fun x k h3 => ?_)) h1
      exact bw_bind (bw_mono (bar_parseSQLLoop E H mode m true k h3.2 (by omega)) fun y l _ => bw_ret trivial)
    have hnow : adv T i (do
        let s ← (Parsers.at fns n).statement
        let ss ← parseSQLLoop mode (Parsers.at fns n) m true
        pure (s :: ss)) i := by
      refine adv_seq E (by omega) (adv_statement fns E ht hi hk hf n) fun x j h1 h2 => ?_
      refine adv_bw E (Q := fun _ _ => True) ?_ h1
      exact bw_bind (bw_mono (bar_parseSQLLoop E H mode m true j h2 (by omega)) fun y l _ => bw_ret trivial)
    unfold parseSQLLoop
    refine adv_consume ht ?_ ?_
    · simp only [Bool.not_true, Bool.false_and, Bool.false_eq_true, if_false]
      cases mode with
      | false =>
        refine adv_peek ?_
        split
        · exact adv_bw E (Q := fun _ _ => True) (bw_ret trivial) (Nat.le_refl _)
        · exact hrest (i + 1) (Nat.le_refl _) hi
      | true =>
        intro x j hr
        simp only [P.bind_eq, nextToken, P.bind, P.attempt, P.runI, if_true] at hr
        cases h1 : T[i + 1]? with
        | none => rw [h1] at hr; cases hr; omega
        | some u =>
          rw [h1] at hr
          exact hrest (i + 1) (Nat.le_refl _) hi x j hr
    · simp only [Bool.and_false, Bool.false_eq_true, if_false]
      cases mode with
      | false =>
        refine adv_peek ?_
        rw [ht]
        exact hnow
      | true =>
        intro x j hr
        simp only [P.bind_eq, nextToken, P.bind, P.attempt, P.runI, if_true, ht] at hr
        exact hnow x j hr


/-! ### From significant tokens to the state -/

/-- A run on the significant tokens that are left is the run of the parser. -/
theorem runI_state {p : P α} {mode : Bool} {s : PState} (hs : s.idx ≤ s.toks.length)
    (hw : p.within s.after 0 s.after.length false 0) {x : α} {j : Nat} :
    p.runI s.after 0 = .ok x j ↔ ∃ s', p.run mode s = .ok x s' ∧ s'.after = s.after.drop j ∧ j ≤ s.after.length := by
  have hv := run_view mode p s hs
  rw [runZ_history hw] at hv
  have e := runZ_runI s.after p 0 (Nat.zero_le _)
  simp only [List.take_zero, List.reverse_nil, List.drop_zero] at e
  obtain ⟨e1, e2⟩ := e
  rw [← e1]
  cases hz : p.runZ [] s.after with
  | ok y st =>
    obtain ⟨b, a⟩ := st
    obtain ⟨k, hk, rfl, rfl⟩ := e2 _ _ _ hz
    rw [hz] at hv
    cases hr : p.run mode s with
    | ok y' s' =>
      rw [hr] at hv
      simp only [Res.mapState, Res.ok.injEq, PState.view, Prod.mk.injEq] at hv
      obtain ⟨rfl, -, ha⟩ := hv
      simp only [Res.mapState, Res.ok.injEq, List.length_reverse, List.length_take, Nat.min_eq_left hk]
      constructor
      · rintro ⟨rfl, rfl⟩
        exact ⟨s', ⟨rfl, rfl⟩, ha, hk⟩
      · rintro ⟨_, ⟨rfl, rfl⟩, h, hj⟩
        refine ⟨rfl, ?_⟩
        have := congrArg List.length (ha.symm.trans h)
        simp at this
        omega
    | _ => rw [hr] at hv; cases hv
  | _ =>
    rw [hz] at hv
    cases hr : p.run mode s with
    | ok y' s' => rw [hr] at hv; cases hv
    | _ => 
      constructor
      · intro h; cases h
      · rintro ⟨_, h, _⟩; cases h

end
end Verif
