import Verif.Proofs.Shape
/-
The expressions that the parser returns have the shape of Spec/Shape.lean.
-/
set_option linter.unusedSimpArgs false
set_option linter.unusedVariables false
namespace Verif

variable {T : List Token} {I : Str → Bool} {α β : Type} {i j k : Nat} {r : Parsers}

theorem isPrefix_lp {e : Expr} (h : e.isPrefix = true) : e.lp = 100 := by
  cases e <;> simp [Expr.isPrefix] at h <;> rfl

theorem isPrefix_defaultOK {e : Expr} (h : e.isPrefix = true) : e.defaultOK = true := by
  cases e <;> simp [Expr.isPrefix] at h <;> rfl

/-- An expression with right edge 100 that does not start with EXISTS. -/
theorem exAt_closed {e : Expr} (h1 : e.shape I = true) (h2 : e.rp = 100) (h3 : e.startsExists = false) :
    ExAt T I i e j := ⟨h1, by rw [h2]; have := nx_le T j; omega, by simp [h3]⟩

/-- What an infix or postfix operator does to the expression on its left. -/
structure Infix (T : List Token) (I : Str → Bool) (i np : Nat) (isNot : Bool) (e e' : Expr) (j : Nat) : Prop where
  at_ : ExAt T I i e' j
  lp : min np e.lp ≤ e'.lp
  default_ : isNot = false → e.defaultOK = true → e'.defaultOK = true

theorem sh_parseIn (H : Sh T I r) {e : Expr} {neg : Bool} (h : ExAt T I i e k) (hn : inLevel neg ≤ e.rp)
    {b : Bool} (hb : b = false → neg = false) :
    pc T (parseIn r e neg) j fun e' j' => Infix T I i (inLevel neg) b e e' j' := by
  have mk : ∀ (e' : Expr) j', e'.shape I = true → e'.rp = 100 → e'.startsExists = e.startsExists →
      e'.lp = min (inLevel neg) e.lp → (neg = false → e.defaultOK = true → e'.defaultOK = true) →
      Infix T I i (inLevel neg) b e e' j' := by
    intro e' j' h1 h2 h3 h4 h5
    exact ⟨⟨h1, by rw [h2]; have := nx_le T j'; omega, by rw [h3]; exact h.ex⟩, by rw [h4]; exact Nat.le_refl _,
      fun hb' => h5 (hb hb')⟩
  unfold parseIn
  refine pc_skip fun _ a => ?_
  have hq : ∀ k t, T[k]? = some t → t.isSym .LParen = false → pc T (do
      let q ← r.query
      let rp ← nextSym .RParen
      pure (Expr.inSubQuery e q neg rp.to_)) k fun e' j' => Infix T I i (inLevel neg) b e e' j' := by
    intro k t ht hs
    refine pc_seq (H.query k) fun q j hq => pc_skip fun rp j' => pc_pure ?_
    have h3 : q.startsSelect = true := by
      rcases hq.2.2 with h | ⟨t', ht', h'⟩
      · exact h
      · rw [ht] at ht'; cases ht'; rw [hs] at h'; cases h'
    exact mk _ _ (by simp [Expr.shape, h.shape, hn, hq.1, h3]) rfl rfl rfl
      (by simp (config := {contextual := true}) [Expr.defaultOK])
  refine pc_bindOf (wp_kw (fun t ht hm _ => ?_) (fun hno => ?_))
  · refine pc_bindOf (wp_kw (fun t' ht' hm' _ => ?_) (fun _ => ?_))
    · simp only [Bool.or_self, if_true]
      exact pc_bindOf (wp_prevToken fun k hk => by cases hk; exact hq _ _ ht' (matches_not_sym hm'))
    · simp only [Bool.or_false, if_true]
      exact pc_bindOf (wp_prevToken fun k hk => by cases hk; exact hq _ _ ht (matches_not_sym hm))
  · refine pc_bindOf (wp_kw (fun t' ht' hm' _ => ?_) (fun _ => ?_))
    · simp only [Bool.or_true, if_true]
      exact pc_bindOf (wp_prevToken fun k hk => by cases hk; exact hq _ _ ht' (matches_not_sym hm'))
    · simp only [Bool.or_self, Bool.false_eq_true, if_false]
      refine pc_seq (H.exprList _) fun l j hl => pc_skip fun rp j' => pc_pure ?_
      exact mk _ _ (by simp [Expr.shape, h.shape, hn, hl.1, hl.2]) rfl rfl rfl
        (by simp (config := {contextual := true}) [Expr.defaultOK])

theorem sh_parseBetween (hk : KwOK T) (H : Sh T I r) {e : Expr} {neg : Bool} (h : ExAt T I i e k)
    (hn : inLevel neg ≤ e.rp) {b : Bool} (hb : b = false → neg = false) :
    pc T (parseBetween r e neg) j fun e' j' => Infix T I i (inLevel neg) b e e' j' := by
  unfold parseBetween
  refine pc_seq (H.prefix_ _) fun low j1 hl => ?_
  refine pc_bindOf (wp_expectKeyword fun t ht hm _ => ?_)
  refine pc_seq (H.prefix_ _) fun high j2 hh => pc_pure ?_
  have h10 : 10 ≤ low.rp := by
    have := hl.1.rp
    rw [nx_of ht, prec_kw (kw_of_matches hk ht hm)] at this
    exact this
  refine ⟨⟨?_, hh.1.rp, h.ex⟩, Nat.le_refl _, fun hb' hd => ?_⟩
  · simp [Expr.shape, h.shape, hn, hl.1.shape, hl.2, h10, hh.1.shape, hh.2]
  · simp [Expr.defaultOK, hd, hb hb']

theorem sh_parseNotInBetween (hk : KwOK T) (H : Sh T I r) {e : Expr} (h : ExAt T I i e k) {b : Bool}
    (hb : b = false → ∀ t, T[k]? = some t → t.kw? ≠ some .NOT) :
    pc T (parseNotInBetween r e) (k + 1) fun e' j' => Infix T I i (nx T k) b e e' j' := by
  have key : ∀ neg k', nx T k = inLevel neg → (b = false → neg = false) → pc T (do
      if ← kw .IN then parseIn r e neg
      else if ← kw .BETWEEN then parseBetween r e neg
      else .panic) k' fun e' j' => Infix T I i (nx T k) b e e' j' := by
    intro neg k' hx hb'
    have hn : inLevel neg ≤ e.rp := hx ▸ h.rp
    rw [hx]
    refine pc_skip fun _ _ => pc_ite (fun _ => sh_parseIn H h hn hb') fun _ => ?_
    refine pc_skip fun _ _ => pc_ite (fun _ => sh_parseBetween hk H h hn hb') fun _ => pc_panic
  unfold parseNotInBetween
  refine pc_bindOf (wp_prevToken fun k' hk' => ?_)
  cases hk'
  refine pc_bindOf (wp_kw (fun t ht hm _ => ?_) (fun hno => ?_))
  · have hkw := kw_of_matches hk ht hm
    refine key true _ (by rw [nx_of ht, prec_kw hkw]; rfl) fun hb' => absurd hkw (hb hb' t ht)
  · refine pc_bindOf (wp_kw (fun t ht hm _ => ?_) (fun hno' => ?_))
    · have hx : nx T k = inLevel false := by rw [nx_of ht, prec_kw (kw_of_matches hk ht hm)]; rfl
      simp only [if_true]
      rw [hx]
      exact sh_parseIn H h (hx ▸ h.rp) fun _ => rfl
    · simp only [Bool.false_eq_true, if_false]
      refine pc_bindOf (wp_kw (fun t ht hm _ => ?_) (fun hno' => ?_))
      · have hx : nx T k = inLevel false := by rw [nx_of ht, prec_kw (kw_of_matches hk ht hm)]; rfl
        simp only [if_true]
        rw [hx]
        exact sh_parseBetween hk H h (hx ▸ h.rp) fun _ => rfl
      · exact pc_panic

/-- The operator that `infixOp` finds has the precedence of the token. -/
theorem sh_infixOp {t : Token} : pc T (infixOp t) i fun x j => (∀ op, x = some op →
    op.level = getPrecedence t ∧ 0 < op.level ∧ (t.kw? ≠ some .NOT → op ≠ .NotLike)) ∧ (x = none → j = i) := by
  unfold infixOp
  split
  · rename_i s tx ht
    refine pc_pure ⟨fun op h => ?_, fun _ => rfl⟩
    have hk : t.kw? = none := by simp [Token.kw?, Token.word?, ht]
    cases s <;> simp [symOp] at h <;> subst h <;> simp [getPrecedence, ht, OpType.level]
  · rename_i w ht
    split
    · rename_i hkw
      exact pc_pure ⟨by rintro _ ⟨⟩; simp [getPrecedence, ht, hkw, OpType.level], by simp⟩
    · rename_i hkw
      exact pc_pure ⟨by rintro _ ⟨⟩; simp [getPrecedence, ht, hkw, OpType.level], by simp⟩
    · rename_i hkw
      exact pc_pure ⟨by rintro _ ⟨⟩; simp [getPrecedence, ht, hkw, OpType.level], by simp⟩
    · rename_i hkw
      have hkt : t.kw? = some .NOT := by simp [Token.kw?, Token.word?, ht, hkw]
      refine pc_bindOf (wp_kw (fun _ _ _ _ => ?_) (fun _ => ?_))
      · exact pc_pure ⟨by rintro _ ⟨⟩; simp [getPrecedence, ht, hkw, OpType.level, hkt], by simp⟩
      · exact pc_pure ⟨by simp, fun _ => rfl⟩
    · exact pc_pure ⟨by simp, fun _ => rfl⟩
  · exact pc_pure ⟨by simp, fun _ => rfl⟩

theorem sh_parseInfix (hk : KwOK T) (hw : WordsOK T I) (H : Sh T I r) {e : Expr} (h : ExAt T I i e k) {b : Bool}
    (hb : b = false → ∀ t, T[k]? = some t → t.kw? ≠ some .NOT) :
    pc T (parseInfix r e (nx T k)) k fun e' j' => Infix T I i (nx T k) b e e' j' := by
  unfold parseInfix
  refine pc_bindOf (wp_nextOrErr fun t ht _ => ?_)
  refine pc_seq sh_infixOp fun x j1 hx => ?_
  have hnx := nx_of ht
  have hrp := h.rp
  split
  · rename_i op
    obtain ⟨h1, h2, h3⟩ := hx.1 op rfl
    have hlt : nx T k < 100 := by have := nx_le T k; omega
    refine pc_seq (H.subexpr _ _ hlt) fun e2 j2 h4 => pc_pure ?_
    obtain ⟨h4, h5, h6⟩ := h4
    have hop : op.level = nx T k := by rw [h1, hnx]
    refine ⟨⟨?_, ?_, h.ex⟩, ?_, fun hb' hd => ?_⟩
    · simp only [Expr.shape, h.shape, h4.shape, Bool.and_eq_true, decide_eq_true_eq, true_and]
      simp only [hop]
      exact ⟨⟨hop ▸ h2, hrp⟩, h5⟩
    · have := h4.rp; simp only [Expr.rp, hop]; omega
    · simp only [Expr.lp, hop]; exact Nat.le_refl _
    · have := h3 (hb hb' t ht)
      simp [Expr.defaultOK, hd, this]
  · have hj := hx.2 rfl
    subst hj
    split
    · rename_i w htw
      split
      · rename_i hkw
        have h17 : nx T k = 17 := by rw [hnx]; simp [getPrecedence, htw, hkw]
        rw [h17] at hrp ⊢
        refine pc_skip fun _ _ => pc_ite (fun _ => pc_pure ?_) fun _ => ?_
        · exact ⟨⟨by simp [Expr.shape, h.shape, hrp], by have := nx_le T ‹_›; simp only [Expr.rp]; omega, h.ex⟩,
            Nat.le_refl _, fun _ hd => hd⟩
        · refine pc_skip fun x a => ?_
          split
          · exact pc_pure ⟨⟨by simp [Expr.shape, h.shape, hrp], by have := nx_le T a; simp only [Expr.rp]; omega, h.ex⟩,
              Nat.le_refl _, fun _ hd => hd⟩
          · exact pc_err
      · exact sh_parseNotInBetween hk H h hb
      · exact sh_parseNotInBetween hk H h hb
      · exact sh_parseNotInBetween hk H h hb
      · exact pc_panic
    · refine pc_seq (sh_parseDataType hw H) fun ty j hty => pc_pure ?_
      refine ⟨exAt_closed (by simp [Expr.shape, h.shape, hty]) rfl rfl, ?_, fun _ _ => rfl⟩
      have := nx_le T k
      simp only [Expr.lp]; omega
    · exact pc_panic

theorem sh_parseValue (fns : FloatFns) : pc T (parseValue fns) i fun e j => ExAt T I i e j ∧ e.isPrefix = true := by
  unfold parseValue
  refine pc_bindOf (wp_nextOrErr fun t ht hi => ?_)
  have key : ∀ e : Expr, e.shape I = true → e.rp = 100 → e.startsExists = false → e.isPrefix = true →
      ExAt T I i e (i + 1) ∧ e.isPrefix = true := fun e h1 h2 h3 h4 => ⟨exAt_closed h1 h2 h3, h4⟩
  split
  · split
    · exact pc_pure (key _ rfl rfl rfl rfl)
    · exact pc_pure (key _ rfl rfl rfl rfl)
    · exact pc_pure (key _ rfl rfl rfl rfl)
    · exact pc_err
  · split
    · split
      · exact pc_err
      · exact pc_pure (key _ rfl rfl rfl rfl)
    · rename_i s _ _
      exact pc_pure (key _ (by have := atoi_bound s; simp only [Expr.shape, longOK]; simpa using this) rfl rfl rfl)
  · exact pc_pure (key _ rfl rfl rfl rfl)
  · exact pc_pure (key _ rfl rfl rfl rfl)
  · exact pc_err

theorem sh_parseOptionalArgs (H : Sh T I r) : pc T (parseOptionalArgs r) i fun es j => Expr.shapes I es = true := by
  unfold parseOptionalArgs
  refine pc_skip fun _ _ => pc_ite (fun _ => pc_skip fun _ _ => pc_pure rfl) fun _ => ?_
  exact pc_mono (H.exprList _) fun _ _ h => h.2

theorem sh_frameBound : pc T parseWindowFrameBound i fun b j => b.wf = true := by
  unfold parseWindowFrameBound
  refine pc_skip fun x _ => ?_
  split
  · exact pc_pure rfl
  · refine pc_skip fun _ _ => pc_ite (fun _ => ?_) fun _ => ?_
    · refine pc_skip fun _ _ => pc_ite (fun _ => pc_pure rfl) fun _ => ?_
      exact pc_skip fun _ _ => pc_ite (fun _ => pc_pure rfl) fun _ => pc_panic
    · refine pc_seq sh_parseLiteralInt fun x j hx => ?_
      obtain ⟨n, t⟩ := x
      have := size_ok hx
      refine pc_ite (fun _ => pc_err) fun _ => pc_skip fun _ _ => pc_ite (fun _ => pc_pure this) fun _ => ?_
      exact pc_skip fun _ _ => pc_ite (fun _ => pc_pure this) fun _ => pc_panic

theorem sh_windowFrame : pc T parseWindowFrame i fun f j => ∀ x, f = some x → x.wf = true := by
  unfold parseWindowFrame
  refine pc_skip fun t _ => ?_
  split
  · split
    · exact pc_err
    · refine pc_skip fun _ _ => pc_skip fun _ _ => pc_ite (fun _ => ?_) fun _ => ?_
      · refine pc_seq sh_frameBound fun s _ hs => pc_skip fun _ _ => pc_seq sh_frameBound fun e _ he => ?_
        exact pc_skip fun _ _ => pc_pure (by rintro _ ⟨⟩; simp [WindowFrame.wf, hs, he])
      · refine pc_seq sh_frameBound fun s _ hs => ?_
        exact pc_skip fun _ _ => pc_pure (by rintro _ ⟨⟩; simp [WindowFrame.wf, hs])
  · exact pc_skip fun _ _ => pc_pure (by simp)

theorem sh_parseOver (H : Sh T I r) : pc T (parseOver r) i fun w j => w.shape I = true := by
  unfold parseOver
  refine pc_skip fun _ a => ?_
  have h1 : pc T (do
      match ← kwTok .PARTITION with
      | some t => do
        let _ ← expectKeyword .BY
        let el ← r.exprList
        pure (el, t.from_)
      | none => pure ([], Pos.zero)) a fun x _ => Expr.shapes I x.1 = true := by
    refine pc_skip fun x _ => ?_
    split
    · exact pc_skip fun _ _ => pc_seq (H.exprList _) fun _ _ h => pc_pure h.2
    · exact pc_pure rfl
  refine pc_seq h1 fun x b hx => ?_
  have h2 : pc T (do
      match ← kwTok .ORDER with
      | some t => do
        let _ ← expectKeyword .BY
        let el ← r.orderByList
        pure (el, t.from_)
      | none => pure ([], Pos.zero)) b fun x _ => OrderByExpr.shapes I x.1 = true := by
    refine pc_skip fun x _ => ?_
    split
    · exact pc_skip fun _ _ => pc_seq (H.orderByList _) fun _ _ h => pc_pure h.2
    · exact pc_pure rfl
  refine pc_seq h2 fun y c hy => ?_
  refine pc_seq sh_windowFrame fun f _ hf => pc_pure ?_
  cases f with
  | none => simp [WindowSpec.shape, hx, hy]
  | some f => simp [WindowSpec.shape, hx, hy, hf]

theorem sh_parseFunction (H : Sh T I r) {name : ObjectName} (hn : name.shape I = true) :
    pc T (parseFunction r name) k fun e j => ExAt T I i e j ∧ e.isPrefix = true := by
  unfold parseFunction
  refine pc_skip fun _ _ => pc_seq (sh_parseOptionalArgs H) fun args _ ha => pc_skip fun _ _ => pc_skip fun _ _ => ?_
  refine pc_ite (fun _ => ?_) fun _ => ?_
  · refine pc_seq (sh_parseOver H) fun o _ ho => pc_pure ⟨exAt_closed ?_ rfl rfl, rfl⟩
    simp [Expr.shape, hn, ha, ho, WindowSpec.shapeO]
  · refine pc_pure ⟨exAt_closed ?_ rfl rfl, rfl⟩
    simp [Expr.shape, hn, ha, WindowSpec.shapeO]

theorem sh_parseName (hw : WordsOK T I) (H : Sh T I r) {t : Token} {w : SQLWord} (ht : T[k]? = some t)
    (htw : t.word? = some w) :
    pc T (parseName r t w) (k + 1) fun e j => ExAt T I i e j ∧ e.isPrefix = true := by
  have hI := word_ok hw ht htw
  unfold parseName
  refine pc_bindOf (wp_peekToken (fun n hn _ => ?_) (fun _ => ?_))
  · dsimp only
    refine pc_ite (fun hc => ?_) fun _ => pc_pure ⟨exAt_closed (by simp [Expr.shape, hI]) rfl rfl, rfl⟩
    refine pc_seq (H.idParts _) fun x j hx => ?_
    obtain ⟨ids, wild⟩ := x
    obtain ⟨h1, h2⟩ := hx
    dsimp only at h1 h2 ⊢
    have hids : identsShape I (⟨w.string, t.from_, t.to_⟩ :: ids) = true := by
      rw [identsShape_iff]
      exact ⟨by simp, by simpa [identListOK, hI] using h1⟩
    refine pc_ite (fun _ => pc_pure ⟨exAt_closed (by simp [Expr.shape, hids]) rfl rfl, rfl⟩) fun hwild => ?_
    refine pc_bindOf (wp_consumeToken' (fun u hu _ _ => ?_) fun hno => ?_)
    · simp only [if_true]
      exact pc_skip fun _ _ => sh_parseFunction H hids
    · simp only [Bool.false_eq_true, if_false]
      refine pc_pure ⟨exAt_closed ?_ rfl rfl, rfl⟩
      simp only [Expr.shape, hids, Bool.true_and, decide_eq_true_eq, List.length_cons]
      have hne : ids ≠ [] := by
        obtain ⟨h3, h4⟩ := h2 n hn
        cases hP : n.isSym .Period with
        | true => exact (h3 hP).resolve_right hwild
        | false =>
          have := h4 hP
          subst this
          rw [hno n hn, hP] at hc
          cases hc
      cases ids with
      | nil => exact absurd rfl hne
      | cons => simp
  · exact pc_pure ⟨exAt_closed (by simp [Expr.shape, hI]) rfl rfl, rfl⟩

theorem sh_parseParen (H : Sh T I r) {t : Token} :
    pc T (parseParen r t) k fun e j => ExAt T I i e j ∧ e.isPrefix = true := by
  have hq : ∀ k t', T[k]? = some t' → t'.isSym .LParen = false → pc T (do
      let q ← r.query
      let rp ← nextSym .RParen
      pure (Expr.subQuery rp.to_ t.from_ q)) k fun e j => ExAt T I i e j ∧ e.isPrefix = true := by
    intro k t' ht hs
    refine pc_seq (H.query k) fun q j hq => pc_skip fun rp j' => pc_pure ?_
    have h3 : q.startsSelect = true := by
      rcases hq.2.2 with h | ⟨t', ht', h'⟩
      · exact h
      · rw [ht] at ht'; cases ht'; rw [hs] at h'; cases h'
    exact ⟨exAt_closed (by simp [Expr.shape, hq.1, h3]) rfl rfl, rfl⟩
  unfold parseParen
  refine pc_bindOf (wp_kw (fun t ht hm _ => ?_) (fun hno => ?_))
  · refine pc_bindOf (wp_kw (fun t' ht' hm' _ => ?_) (fun _ => ?_))
    · simp only [Bool.or_self, if_true]
      exact pc_bindOf (wp_prevToken fun k hk => by cases hk; exact hq _ _ ht' (matches_not_sym hm'))
    · simp only [Bool.or_false, if_true]
      exact pc_bindOf (wp_prevToken fun k hk => by cases hk; exact hq _ _ ht (matches_not_sym hm))
  · refine pc_bindOf (wp_kw (fun t' ht' hm' _ => ?_) (fun _ => ?_))
    · simp only [Bool.or_true, if_true]
      exact pc_bindOf (wp_prevToken fun k hk => by cases hk; exact hq _ _ ht' (matches_not_sym hm'))
    · simp only [Bool.or_self, Bool.false_eq_true, if_false]
      refine pc_seq (H.subexpr 0 _ (by omega)) fun e j he => pc_skip fun rp j' => pc_pure ?_
      exact ⟨exAt_closed (by simp [Expr.shape, he.1.shape]) rfl rfl, rfl⟩

theorem sh_parseExists (H : Sh T I r) (neg : Option Token) (h0 : neg = none → k = i) :
    pc T (parseExistsExpression r neg) k fun e j => ExAt T I i e j ∧ e.isPrefix = true := by
  unfold parseExistsExpression
  refine pc_bindOf (wp_kwOrErr fun t ht hm _ => ?_)
  refine pc_skip fun _ _ => pc_seq (H.query _) fun q _ hq => pc_skip fun rp j => ?_
  have hrp : nx T j ≤ 100 := by have := nx_le T j; omega
  cases neg with
  | some n => exact pc_pure ⟨⟨by simp [Expr.shape, hq.1], hrp, by simp [Expr.startsExists]⟩, rfl⟩
  | none =>
    have := h0 rfl
    subst this
    exact pc_pure ⟨⟨by simp [Expr.shape, hq.1], hrp, fun _ => ⟨t, ht, hm⟩⟩, rfl⟩

theorem sh_parseNot (H : Sh T I r) {t : Token} :
    pc T (parseNot r t) k fun e j => ExAt T I i e j ∧ e.isPrefix = true := by
  unfold parseNot
  refine pc_bindOf (wp_kw (fun t' ht' hm _ => ?_) (fun hno => ?_))
  · simp only [if_true]
    exact pc_skip fun _ _ => sh_parseExists H (some t) (by simp)
  · simp only [Bool.false_eq_true, if_false]
    refine pc_seq (H.subexpr 15 _ (by omega)) fun e j he => pc_pure ⟨?_, rfl⟩
    obtain ⟨h1, h2, h3⟩ := he
    have h4 : e.startsExists = false := by
      cases hs : e.startsExists with
      | false => rfl
      | true =>
        obtain ⟨t', ht', hm⟩ := h1.ex hs
        rw [hno t' ht'] at hm; cases hm
    refine ⟨by simp [Expr.shape, h1.shape, h2, h4], ?_, by simp [Expr.startsExists]⟩
    have := h1.rp
    simp only [Expr.rp, OpType.prefixLevel]; omega

theorem sh_unary (H : Sh T I r) {t : Token} {op : OpType} (hop : op = .Plus ∨ op = .Minus)
    (ht : getPrecedence t = 30) : pc T (do
      let e ← r.subexpr (getPrecedence t)
      pure (Expr.unary t.from_ ⟨op, t.from_, t.to_⟩ e)) k fun e j => ExAt T I i e j ∧ e.isPrefix = true := by
  rw [ht]
  refine pc_seq (H.subexpr 30 _ (by omega)) fun e j he => pc_pure ⟨?_, rfl⟩
  obtain ⟨h1, h2, h3⟩ := he
  refine ⟨?_, ?_, by simp [Expr.startsExists]⟩
  · rcases hop with rfl | rfl <;> simp [Expr.shape, h1.shape, h2]
  · have := h1.rp
    rcases hop with rfl | rfl <;> simp only [Expr.rp, OpType.prefixLevel] <;> omega

theorem sh_parseCase (H : Sh T I r) : pc T (parseCaseExpression r) k fun e j => ExAt T I i e j ∧ e.isPrefix = true := by
  unfold parseCaseExpression
  refine pc_skip fun t a => ?_
  have h1 : pc T (do
      if ← kw .WHEN then pure none
      else do
        let e ← parseExpr r
        let _ ← expectKeyword .WHEN
        pure (some e)) a fun x _ => Expr.shapeO I x = true := by
    refine pc_skip fun _ _ => pc_ite (fun _ => pc_pure rfl) fun _ => ?_
    exact pc_seq (H.subexpr 0 _ (by omega)) fun e _ he => pc_skip fun _ _ => pc_pure he.1.shape
  refine pc_seq h1 fun o b ho => ?_
  refine pc_seq (H.caseLoop _) fun x c hx => ?_
  obtain ⟨cs, xs⟩ := x
  have h2 : pc T (do
      if ← kw .ELSE then do
        let e ← parseExpr r
        pure (some e)
      else pure none) c fun x _ => Expr.shapeO I x = true := by
    refine pc_skip fun _ _ => pc_ite (fun _ => ?_) fun _ => pc_pure rfl
    exact pc_seq (H.subexpr 0 _ (by omega)) fun e _ he => pc_pure he.1.shape
  dsimp only at hx ⊢
  refine pc_seq h2 fun e d he => pc_skip fun _ _ => pc_pure ⟨exAt_closed ?_ rfl rfl, rfl⟩
  simp [Expr.shape, ho, he, hx.1, hx.2.1, hx.2.2.1, hx.2.2.2]

theorem sh_parseCast (hw : WordsOK T I) (H : Sh T I r) :
    pc T (parseCastExpression r) k fun e j => ExAt T I i e j ∧ e.isPrefix = true := by
  unfold parseCastExpression
  refine pc_skip fun _ _ => pc_skip fun _ _ => pc_seq (H.subexpr 0 _ (by omega)) fun e _ he => pc_skip fun _ _ => ?_
  refine pc_seq (sh_parseDataType hw H) fun ty _ hty => pc_skip fun _ _ => pc_pure ⟨exAt_closed ?_ rfl rfl, rfl⟩
  simp [Expr.shape, he.1.shape, hty]

theorem sh_prefixF (fns : FloatFns) (hw : WordsOK T I) (H : Sh T I r) :
    pc T (prefixF fns r) i fun e j => ExAt T I i e j ∧ e.isPrefix = true := by
  unfold prefixF
  refine pc_bindOf (wp_nextOrErr fun t ht _ => ?_)
  have back : ∀ {p : P Expr}, pc T p i (fun e j => ExAt T I i e j ∧ e.isPrefix = true) →
      pc T (prevToken >>= fun _ => p) (i + 1) fun e j => ExAt T I i e j ∧ e.isPrefix = true := by
    intro p hp
    exact pc_bindOf (wp_prevToken fun j hj => by cases hj; exact hp)
  split
  · rename_i w htw
    split
    · exact back (sh_parseValue fns)
    · exact back (sh_parseValue fns)
    · exact back (sh_parseValue fns)
    · exact back (sh_parseCase H)
    · exact back (sh_parseCast hw H)
    · exact back (sh_parseExists H none fun _ => rfl)
    · exact sh_parseNot H
    · exact sh_parseName hw H ht (by simp [Token.word?, htw])
  · exact pc_pure ⟨exAt_closed rfl rfl rfl, rfl⟩
  · rename_i hs
    exact sh_unary H (.inl rfl) (by simp [getPrecedence, hs])
  · rename_i hs
    exact sh_unary H (.inr rfl) (by simp [getPrecedence, hs])
  · exact back (sh_parseValue fns)
  · exact back (sh_parseValue fns)
  · exact back (sh_parseValue fns)
  · exact sh_parseParen H
  · exact pc_panic

end Verif
