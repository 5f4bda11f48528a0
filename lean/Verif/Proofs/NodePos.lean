/-
Where the expressions that the parser returns begin and end.
-/
import Verif.Spec.NodePos
import Verif.Proofs.Term
import Verif.Proofs.Mono
set_option linter.unusedSimpArgs false
set_option linter.unusedVariables false

namespace Verif

/-- Partial correctness: if `p` succeeds, `Q` holds of the result and the new index. -/
def pc (T : List Token) (p : P α) (i : Nat) (Q : α → Nat → Prop) : Prop :=
  ∀ x j, p.runI T i = .ok x j → Q x j

variable {T : List Token} {α β : Type} {i : Nat}

theorem pc_bind {p : P α} {f : α → P β} {Q : β → Nat → Prop} (h : pc T p i fun x j => pc T (f x) j Q) :
    pc T (p >>= f) i Q := by
  intro y k hy
  rw [P.bind_eq, runI_bind] at hy
  cases hp : p.runI T i with
  | ok x j => rw [hp] at hy; exact h x j hp y k hy
  | err => rw [hp] at hy; cases hy
  | panic => rw [hp] at hy; cases hy
  | oof => rw [hp] at hy; cases hy

/-- Nothing is known about the first step. -/
theorem pc_skip {p : P α} {f : α → P β} {Q : β → Nat → Prop} (h : ∀ x j, pc T (f x) j Q) :
    pc T (p >>= f) i Q := pc_bind fun x j _ => h x j

theorem pc_mono {p : P α} {Q Q' : α → Nat → Prop} (h : pc T p i Q) (hq : ∀ x j, Q x j → Q' x j) : pc T p i Q' :=
  fun x j hx => hq x j (h x j hx)

theorem pc_of_wp {p : P α} {Q : α → Nat → Prop} (h : wp T p i Q) : pc T p i Q := by
  intro x j hx; unfold wp at h; rw [hx] at h; exact h

theorem pc_pure {x : α} {Q : α → Nat → Prop} (h : Q x i) : pc T (pure x) i Q := pc_of_wp (wp_ret h)
theorem pc_err {Q : α → Nat → Prop} : pc T .err i Q := pc_of_wp wp_err
theorem pc_panic {Q : α → Nat → Prop} : pc T .panic i Q := pc_of_wp wp_panic

theorem pc_bindOf {p : P α} {f : α → P β} {Q : β → Nat → Prop} (h : wp T p i fun x j => pc T (f x) j Q) :
    pc T (p >>= f) i Q := pc_bind (pc_of_wp h)

/-- `e` stands at the tokens from index `i` to before `j`. -/
structure Spanned (T : List Token) (e : Expr) (i j : Nat) : Prop where
  pos : e.leftOk = true → ∃ f, T[i]? = some f ∧ e.pos = some f.from_
  end_ : e.rightOk = true → ∃ k l, j = k + 1 ∧ T[k]? = some l ∧ e.end_ = some l.to_
  sub : ∀ rp lp q, e = .subQuery rp lp q →
    ∃ f k l, T[i]? = some f ∧ j = k + 1 ∧ T[k]? = some l ∧ lp = f.from_ ∧ rp = l.to_

/-- What the recursive entry points promise. -/
structure Sp (T : List Token) (r : Parsers) : Prop where
  subexpr : ∀ p i, pc T (r.subexpr p) i fun e j => Spanned T e i j
  subexprLoop : ∀ p e i k, Spanned T e i k → pc T (r.subexprLoop p e) k fun e' j => Spanned T e' i j
  prefix_ : ∀ i, pc T r.prefix_ i fun e j => Spanned T e i j
  idParts : ∀ i, pc T r.idParts i fun x j => x.2 = false →
    (x.1 = [] → j = i) ∧ ∀ d, x.1.getLast? = some d → ∃ k l, j = k + 1 ∧ T[k]? = some l ∧ d.to_ = l.to_

variable {r : Parsers}

theorem sp_parseValue (fns : FloatFns) : pc T (parseValue fns) i fun e j => Spanned T e i j := by
  unfold parseValue
  refine pc_bindOf (wp_nextOrErr fun t ht hi => ?_)
  have key : ∀ e : Expr, e.pos = some t.from_ → e.end_ = some t.to_ → (∀ rp lp q, e ≠ .subQuery rp lp q) →
      Spanned T e i (i + 1) := by
    intro e h1 h2 h3
    exact ⟨fun _ => ⟨t, ht, h1⟩, fun _ => ⟨i, t, rfl, ht, h2⟩, fun _ _ _ h => absurd h (h3 _ _ _)⟩
  split
  · split
    · exact pc_pure (key _ rfl rfl (by simp))
    · exact pc_pure (key _ rfl rfl (by simp))
    · exact pc_pure (key _ rfl rfl (by simp))
    · exact pc_err
  · split
    · split
      · exact pc_err
      · exact pc_pure (key _ rfl rfl (by simp))
    · exact pc_pure (key _ rfl rfl (by simp))
  · exact pc_pure (key _ rfl rfl (by simp))
  · exact pc_pure (key _ rfl rfl (by simp))
  · exact pc_err

/-- The expression ends with the token at `k` and starts where `e` starts. -/
theorem Spanned.post {e e' : Expr} {k m : Nat} {l : Token} (h : Spanned T e i m) (hl : T[k]? = some l)
    (h1 : e'.pos = e.pos) (h2 : e'.leftOk = e.leftOk) (h3 : e'.end_ = some l.to_)
    (h4 : ∀ rp lp q, e' ≠ .subQuery rp lp q) : Spanned T e' i (k + 1) :=
  ⟨fun hh => by rw [h1]; exact h.pos (by rw [← h2]; exact hh), fun _ => ⟨k, l, rfl, hl, h3⟩,
    fun _ _ _ h => absurd h (h4 _ _ _)⟩

theorem sp_parseIn {e : Expr} {m k : Nat} (negated : Bool) (h : Spanned T e i m) :
    pc T (parseIn r e negated) k fun e' j => Spanned T e' i j := by
  unfold parseIn
  refine pc_skip fun _ _ => pc_skip fun _ _ => pc_skip fun _ _ => ?_
  split
  · refine pc_skip fun _ _ => pc_skip fun _ _ => pc_bindOf (wp_nextSym fun t ht _ _ => ?_)
    exact pc_pure (h.post ht rfl rfl rfl (by simp))
  · refine pc_skip fun _ _ => pc_bindOf (wp_nextSym fun t ht _ _ => ?_)
    exact pc_pure (h.post ht rfl rfl rfl (by simp))

theorem sp_parseBetween (H : Sp T r) {e : Expr} {m k : Nat} (negated : Bool) (h : Spanned T e i m) :
    pc T (parseBetween r e negated) k fun e' j => Spanned T e' i j := by
  unfold parseBetween
  refine pc_skip fun _ _ => pc_skip fun _ a => pc_bind (pc_mono (H.prefix_ a) fun high j hh => ?_)
  exact pc_pure ⟨h.pos, hh.end_, by simp⟩

theorem sp_parseNotInBetween (H : Sp T r) {e : Expr} {m k : Nat} (h : Spanned T e i m) :
    pc T (parseNotInBetween r e) k fun e' j => Spanned T e' i j := by
  unfold parseNotInBetween
  refine pc_skip fun _ _ => pc_skip fun _ _ => pc_skip fun _ _ => ?_
  split
  · exact sp_parseIn _ h
  · refine pc_skip fun _ _ => ?_
    split
    · exact sp_parseBetween H _ h
    · exact pc_panic

theorem sp_parseInfix (H : Sp T r) {e : Expr} {m k : Nat} (p : Nat) (h : Spanned T e i m) :
    pc T (parseInfix r e p) k fun e' j => Spanned T e' i j := by
  unfold parseInfix
  refine pc_skip fun t _ => pc_skip fun op a => ?_
  split
  · refine pc_bind (pc_mono (H.subexpr p a) fun right j hh => ?_)
    exact pc_pure ⟨h.pos, hh.end_, by simp⟩
  · split
    · split
      · refine pc_skip fun _ _ => ?_
        split
        · exact pc_pure ⟨h.pos, by simp [Expr.rightOk], by simp⟩
        · refine pc_skip fun _ _ => ?_
          split
          · exact pc_pure ⟨h.pos, by simp [Expr.rightOk], by simp⟩
          · exact pc_err
      · exact sp_parseNotInBetween H h
      · exact sp_parseNotInBetween H h
      · exact sp_parseNotInBetween H h
      · exact pc_panic
    · refine pc_skip fun _ _ => ?_
      exact pc_pure ⟨by simp [Expr.leftOk], by simp [Expr.rightOk], by simp⟩
    · exact pc_panic

theorem sp_parseFunction {name : ObjectName} {f : Token} {k : Nat} (hf : T[i]? = some f)
    (hn : identsPos name.idents = some f.from_) :
    pc T (parseFunction r name) k fun e j => Spanned T e i j := by
  unfold parseFunction
  refine pc_skip fun _ _ => pc_skip fun _ a => pc_bindOf (wp_nextSym fun t ht _ _ => ?_)
  refine pc_bindOf (wp_kw (fun _ _ _ _ => ?_) (fun _ => ?_))
  · simp only [if_true]
    refine pc_skip fun _ _ => ?_
    exact pc_pure ⟨fun _ => ⟨f, hf, hn⟩, by simp [Expr.rightOk], by simp⟩
  · simp only [Bool.false_eq_true, if_false]
    exact pc_pure ⟨fun _ => ⟨f, hf, hn⟩, fun _ => ⟨a, t, rfl, ht, rfl⟩, by simp⟩

theorem sp_parseName (H : Sp T r) {t : Token} (w : SQLWord) (ht : T[i]? = some t) :
    pc T (parseName r t w) (i + 1) fun e j => Spanned T e i j := by
  unfold parseName
  have one : ∀ id : Ident, id.from_ = t.from_ → id.to_ = t.to_ → Spanned T (.ident id) i (i + 1) :=
    fun id h1 h2 => ⟨fun _ => ⟨t, ht, by simp [Expr.pos, h1]⟩, fun _ => ⟨i, t, rfl, ht, by simp [Expr.end_, h2]⟩,
      by simp⟩
  refine pc_bindOf (wp_peekToken (fun n hn _ => ?_) (fun _ => ?_))
  · dsimp only
    split
    · refine pc_bind (pc_mono (H.idParts _) fun x j hx => ?_)
      obtain ⟨ids, wild⟩ := x
      dsimp only at hx ⊢
      split
      · exact pc_pure ⟨fun _ => ⟨t, ht, rfl⟩, by simp [Expr.rightOk], by simp⟩
      · rename_i hw
        refine pc_bindOf (wp_consumeToken (fun u hu _ _ => ?_) ?_)
        · simp only [if_true]
          refine pc_skip fun _ _ => ?_
          exact sp_parseFunction ht rfl
        · simp only [Bool.false_eq_true, if_false]
          obtain ⟨h1, h2⟩ := hx (by simpa using hw)
          refine pc_pure ⟨fun _ => ⟨t, ht, rfl⟩, fun _ => ?_, by simp⟩
          cases ids with
          | nil => rw [h1 rfl]; exact ⟨i, t, rfl, ht, rfl⟩
          | cons d ds =>
            obtain ⟨k, l, h3, h4, h5⟩ := h2 _ (List.getLast?_eq_some_getLast (by simp))
            refine ⟨k, l, h3, h4, ?_⟩
            simp [Expr.end_, identsEnd, List.getLast?_cons_cons, List.getLast?_eq_some_getLast, h5]
    · exact pc_pure (one _ rfl rfl)
  · exact pc_pure (one _ rfl rfl)

theorem sp_parseParen {t : Token} (ht : T[i]? = some t) :
    pc T (parseParen r t) (i + 1) fun e j => Spanned T e i j := by
  unfold parseParen
  refine pc_skip fun _ _ => pc_skip fun _ _ => ?_
  split
  · refine pc_skip fun _ _ => pc_skip fun _ a => pc_bindOf (wp_nextSym fun rp hr _ _ => ?_)
    refine pc_pure ⟨by simp [Expr.leftOk], by simp [Expr.rightOk], fun rp' lp' q' h => ?_⟩
    cases h
    exact ⟨t, a, rp, ht, rfl, hr, rfl, rfl⟩
  · refine pc_skip fun _ a => pc_bindOf (wp_nextSym fun rp hr _ _ => ?_)
    exact pc_pure ⟨fun _ => ⟨t, ht, rfl⟩, fun _ => ⟨a, rp, rfl, hr, rfl⟩, by simp⟩

theorem sp_parseExists {t0 : Token} {k : Nat} (neg : Option Token)
    (h0 : match neg with | some n => T[i]? = some n | none => k = i) :
    pc T (parseExistsExpression r neg) k fun e j => Spanned T e i j := by
  unfold parseExistsExpression
  refine pc_bindOf (wp_kwOrErr fun t ht _ _ => ?_)
  refine pc_skip fun _ _ => pc_skip fun _ a => pc_bindOf (wp_nextSym fun rp hr _ _ => ?_)
  cases neg with
  | some n => exact pc_pure ⟨fun _ => ⟨n, h0, rfl⟩, fun _ => ⟨a, rp, rfl, hr, rfl⟩, by simp⟩
  | none =>
    simp only at h0
    subst h0
    exact pc_pure ⟨fun _ => ⟨t, ht, rfl⟩, fun _ => ⟨a, rp, rfl, hr, rfl⟩, by simp⟩

theorem sp_parseNot (H : Sp T r) {t : Token} (ht : T[i]? = some t) :
    pc T (parseNot r t) (i + 1) fun e j => Spanned T e i j := by
  unfold parseNot
  refine pc_skip fun _ a => ?_
  split
  · exact pc_skip fun _ _ => sp_parseExists (t0 := t) (some t) ht
  · refine pc_bind (pc_mono (H.subexpr _ _) fun e j hh => ?_)
    exact pc_pure ⟨fun _ => ⟨t, ht, rfl⟩, hh.end_, by simp⟩

theorem sp_parseCase : pc T (parseCaseExpression r) i fun e j => Spanned T e i j := by
  unfold parseCaseExpression
  refine pc_bindOf (wp_kwOrErr fun t ht _ _ => ?_)
  refine pc_skip fun _ _ => pc_skip fun x _ => ?_
  obtain ⟨cs, xs⟩ := x
  dsimp only
  refine pc_skip fun _ a => pc_bindOf (wp_kwOrErr fun et he _ _ => ?_)
  exact pc_pure ⟨fun _ => ⟨t, ht, rfl⟩, fun _ => ⟨a, et, rfl, he, rfl⟩, by simp⟩

theorem sp_parseCast : pc T (parseCastExpression r) i fun e j => Spanned T e i j := by
  unfold parseCastExpression
  refine pc_bindOf (wp_kwOrErr fun t ht _ _ => ?_)
  refine pc_skip fun _ _ => pc_skip fun _ _ => pc_skip fun _ _ => pc_skip fun _ a => ?_
  refine pc_bindOf (wp_nextSym fun rp hr _ _ => ?_)
  exact pc_pure ⟨fun _ => ⟨t, ht, rfl⟩, fun _ => ⟨a, rp, rfl, hr, rfl⟩, by simp⟩

theorem sp_prefixF (fns : FloatFns) (hs : StarsOk T) (H : Sp T r) :
    pc T (prefixF fns r) i fun e j => Spanned T e i j := by
  unfold prefixF
  refine pc_bindOf (wp_nextOrErr fun t ht _ => ?_)
  have back : ∀ {p : P Expr}, pc T p i (fun e j => Spanned T e i j) →
      pc T (prevToken >>= fun _ => p) (i + 1) fun e j => Spanned T e i j := by
    intro p hp
    exact pc_bindOf (wp_prevToken fun j hj => by cases hj; exact hp)
  split
  · split
    · exact back (sp_parseValue fns)
    · exact back (sp_parseValue fns)
    · exact back (sp_parseValue fns)
    · exact back sp_parseCase
    · exact back sp_parseCast
    · exact back (sp_parseExists (t0 := t) none rfl)
    · exact sp_parseNot H ht
    · exact sp_parseName H _ ht
  · rename_i hm
    refine pc_pure ⟨fun _ => ⟨t, ht, rfl⟩, fun _ => ⟨i, t, rfl, ht, ?_⟩, by simp⟩
    rw [hs t (List.mem_of_getElem? ht) (by simp [Token.isSym, hm])]
    rfl
  · refine pc_bind (pc_mono (H.subexpr _ _) fun e j hh => ?_)
    exact pc_pure ⟨fun _ => ⟨t, ht, rfl⟩, hh.end_, by simp⟩
  · refine pc_bind (pc_mono (H.subexpr _ _) fun e j hh => ?_)
    exact pc_pure ⟨fun _ => ⟨t, ht, rfl⟩, hh.end_, by simp⟩
  · exact back (sp_parseValue fns)
  · exact back (sp_parseValue fns)
  · exact back (sp_parseValue fns)
  · exact sp_parseParen ht
  · exact pc_panic

theorem sp_step (fns : FloatFns) (hs : StarsOk T) (H : Sp T r) : Sp T (.step fns r) where
  subexpr := by
    intro p i
    show pc T (subexprF r p) i _
    unfold subexprF
    exact pc_bind (pc_mono (H.prefix_ i) fun e k hk => H.subexprLoop p e i k hk)
  subexprLoop := by
    intro p e i k hk
    show pc T (subexprLoopF r p e) k _
    unfold subexprLoopF getNextPrecedence
    have key : ∀ np, pc T (if p ≥ np then pure e else do
        let e ← parseInfix r e np
        r.subexprLoop p e) k fun e' j => Spanned T e' i j := by
      intro np
      split
      · exact pc_pure hk
      · exact pc_bind (pc_mono (sp_parseInfix H np hk) fun e' k' hk' => H.subexprLoop p e' i k' hk')
    refine pc_bind (pc_bindOf (wp_peekToken (fun t _ _ => ?_) (fun _ => ?_)))
    · exact pc_pure (key _)
    · exact pc_pure (key _)
  prefix_ := fun i => sp_prefixF fns hs H
  idParts := by
    intro i
    show pc T (idPartsF r) i _
    unfold idPartsF
    refine pc_bindOf (wp_consumeToken (fun u hu _ _ => ?_) ?_)
    · simp only [if_true]
      refine pc_bindOf (wp_nextOrErr fun n hn _ => ?_)
      split
      · refine pc_bind (pc_mono (H.idParts _) fun x j hx => ?_)
        obtain ⟨ids, wild⟩ := x
        refine pc_pure fun hw => ⟨by simp, ?_⟩
        obtain ⟨h1, h2⟩ := hx hw
        intro d hd
        cases ids with
        | nil =>
          simp only [List.getLast?_singleton, Option.some.injEq] at hd
          subst hd
          exact ⟨i + 1, n, h1 rfl, hn, rfl⟩
        | cons a as =>
          rw [List.getLast?_cons_cons] at hd
          exact h2 d hd
      · split
        · exact pc_pure (by simp)
        · exact pc_err
    · simp only [Bool.false_eq_true, if_false]
      exact pc_pure (by simp)

theorem sp_at (fns : FloatFns) (hs : StarsOk T) : ∀ n, Sp T (Parsers.at fns n)
  | 0 => by
    refine ⟨?_, ?_, ?_, ?_⟩ <;> intros <;> intro x j hx <;> cases hx
  | n + 1 => sp_step fns hs (sp_at fns hs n)

end Verif

namespace Verif

/-- A run keeps the token list and stays in it. -/
theorem run_toks (mode : Bool) : ∀ (p : P α) (s : PState), s.idx ≤ s.toks.length → ∀ x s',
    p.run mode s = .ok x s' → s'.toks = s.toks ∧ s'.idx ≤ s.toks.length
  | .ret a, s, hl, x, s', h => by cases h; exact ⟨rfl, hl⟩
  | .err, _, _, _, _, h => by cases h
  | .panic, _, _, _, _, h => by cases h
  | .oof, _, _, _, _, h => by cases h
  | .next k, s, hl, x, s', h => by
    unfold P.run at h
    have := run_toks mode _ _ (next_idx_le mode s hl) x s' h
    rwa [next_toks] at this
  | .peek k, s, hl, x, s', h => by
    unfold P.run at h
    exact run_toks mode _ _ hl x s' h
  | .prev k, s, hl, x, s', h => by
    unfold P.run at h
    rcases prev_view s hl with ⟨h1, h2⟩ | ⟨t, rest, s1, h1, h2, h3, h4, h5, h6, -, -⟩
    · rw [h2] at h; cases h
    · rw [h2] at h
      have := run_toks mode k s1 (by rw [h6]; omega) x s' h
      rwa [h6] at this
  | .kws ks k, s, hl, x, s', h => by
    unfold P.run at h
    have hk := kws_view mode ks s hl
    have := run_toks mode _ _ (by rw [hk.1]; exact hk.2.1) x s' h
    rwa [hk.1] at this

/-- The index semantics of a run. -/
theorem run_runI {p : P α} {mode : Bool} {s s' : PState} {x : α} (hs : s.idx ≤ s.toks.length)
    (h : p.run mode s = .ok x s') : s'.toks = s.toks ∧ s'.idx ≤ s.toks.length ∧
      p.runI (s.toks.filter Token.sig) s.before.length = .ok x s'.before.length := by
  obtain ⟨h1, h2⟩ := run_toks mode p s hs x s' h
  refine ⟨h1, h2, ?_⟩
  have hv := run_view mode p s hs
  rw [h] at hv
  have hT : s.toks.filter Token.sig =
      (s.toks.take s.idx).filter Token.sig ++ (s.toks.drop s.idx).filter Token.sig := by
    rw [← List.filter_append, List.take_append_drop]
  have h3 := (runZ_runI (s.toks.filter Token.sig) p ((s.toks.take s.idx).filter Token.sig).length
    (by rw [hT]; simp)).1
  rw [hT, List.take_left, List.drop_left] at h3
  rw [← hT] at h3
  simp only [PState.before, PState.after] at hv
  rw [← hv] at h3
  simp only [Res.mapState, PState.view, PState.before, List.length_reverse] at h3 ⊢
  exact h3.symm

theorem take_before (toks : List Token) (k : Nat) :
    (toks.filter Token.sig).take ((toks.take k).filter Token.sig).length = (toks.take k).filter Token.sig := by
  have hT : toks.filter Token.sig = (toks.take k).filter Token.sig ++ (toks.drop k).filter Token.sig := by
    rw [← List.filter_append, List.take_append_drop]
  rw [hT, List.take_left]

/-- The tokens read by a run that moves forward. -/
theorem readBetween_eq {s s' : PState} (ht : s'.toks = s.toks) (hlt : s.before.length < s'.before.length) :
    readBetween s s' = ((s.toks.filter Token.sig).take s'.before.length).drop s.before.length := by
  simp only [PState.before, List.length_reverse, ht] at hlt ⊢
  have hidx : s.idx ≤ s'.idx := by
    rcases Nat.lt_or_ge s'.idx s.idx with h | h
    · have : s.toks.take s'.idx = (s.toks.take s.idx).take s'.idx := by
        rw [List.take_take, Nat.min_eq_left (Nat.le_of_lt h)]
      have hsub : ((s.toks.take s'.idx).filter Token.sig).length ≤ ((s.toks.take s.idx).filter Token.sig).length := by
        rw [this]
        exact ((List.take_sublist _ _).filter _).length_le
      omega
    · exact h
  rw [take_before, readBetween]
  have h1 : s.toks.take s'.idx = s.toks.take s.idx ++ (s.toks.take s'.idx).drop s.idx := by
    conv => lhs; rw [← List.take_append_drop s.idx (s.toks.take s'.idx)]
    rw [List.take_take, Nat.min_eq_left hidx]
  generalize hX : (s.toks.take s'.idx).drop s.idx = X at h1
  rw [h1, List.filter_append, List.drop_left]

theorem runI_le {p q : P α} (h : P.Le p q) (T : List Token) (i : Nat) (hi : i ≤ T.length) {x : α} {j : Nat}
    (hp : p.runI T i = .ok x j) : q.runI T i = .ok x j := by
  have h1 := (runZ_runI T p i hi).1
  have h2 := (runZ_runI T q i hi).1
  rw [hp] at h1
  have hne : p.runZ (T.take i).reverse (T.drop i) ≠ .oof := by
    intro ho; rw [ho] at h1; cases h1
  rw [runZ_le h _ _ hne, h1] at h2
  exact h2.symm

/-- A parsed expression takes at least one token. -/
theorem expr_progress (fns : FloatFns) {T : List Token} (hk : KwOK T) {n p i j : Nat} {e : Expr} (hi : i ≤ T.length)
    (h : ((Parsers.at fns n).subexpr p).runI T i = .ok e j) : i < j ∧ j ≤ T.length := by
  have hle : n ≤ n + (3 * T.length + 3) := by omega
  have h1 := runI_le ((at_mono fns hle).subexpr p) T i hi h
  have h2 := (term_at fns hk (n + (3 * T.length + 3))).subexpr p i hi (by omega)
  unfold wp at h2
  rw [h1] at h2
  exact h2

end Verif
