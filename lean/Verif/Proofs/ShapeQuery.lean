import Verif.Proofs.ShapeExpr
/-
The queries that the parser returns have the shape of Spec/Shape.lean.
-/
set_option linter.unusedSimpArgs false
set_option linter.unusedVariables false
namespace Verif

variable {T : List Token} {I : Str → Bool} {α β : Type} {i j k : Nat} {r : Parsers}

/-- The alias that is read, or what stands where there is none. -/
theorem sh_parseOptionalAlias (hw : WordsOK T I) (reserved : KW → Bool) :
    pc T (parseOptionalAlias reserved) i fun a j => optIdentShape I a = true ∧ (a = none →
      ∀ t, T[j]? = some t → ∀ w, t.word? = some w → isReserved reserved w.keyword = true) := by
  unfold parseOptionalAlias
  refine pc_bindOf (wp_kw (fun _ _ _ _ => ?_) fun _ => ?_)
  · refine pc_bindOf (wp_nextToken (fun t ht _ => ?_) fun hl => ?_)
    · dsimp only
      split
      · rename_i w htw
        simp only [Bool.true_or, if_true]
        exact pc_pure ⟨word_ok hw ht htw, by simp⟩
      · exact pc_panic
    · exact pc_pure ⟨rfl, fun _ t ht => by rw [List.getElem?_eq_none hl] at ht; cases ht⟩
  · refine pc_bindOf (wp_nextToken (fun t ht _ => ?_) fun hl => ?_)
    · dsimp only
      split
      · rename_i w htw
        refine pc_ite (fun _ => pc_pure ⟨word_ok hw ht htw, by simp⟩) fun hres => ?_
        refine pc_bindOf (wp_prevToken fun k hk => pc_pure ⟨rfl, fun _ t' ht' w' hw' => ?_⟩)
        cases hk
        rw [ht] at ht'; cases ht'
        rw [htw] at hw'; cases hw'
        simpa using hres
      · rename_i htw
        simp only [Bool.false_eq_true, if_false]
        refine pc_bindOf (wp_prevToken fun k hk => pc_pure ⟨rfl, fun _ t' ht' w' hw' => ?_⟩)
        cases hk
        rw [ht] at ht'; cases ht'
        rw [htw] at hw'; cases hw'
    · exact pc_pure ⟨rfl, fun _ t ht => by rw [List.getElem?_eq_none hl] at ht; cases ht⟩

theorem sh_parseTableFactor (hw : WordsOK T I) (H : Sh T I r) :
    pc T (parseTableFactor r) i fun f j => f.shape I = true ∧ EdgeAt T j f.edge := by
  unfold parseTableFactor
  refine pc_skip fun _ _ => pc_skip fun _ _ => pc_ite (fun _ => ?_) fun _ => pc_ite (fun _ => ?_) fun _ => ?_
  · refine pc_seq (H.query _) fun q _ hq => pc_skip fun _ _ => ?_
    refine pc_seq (sh_parseOptionalAlias hw _) fun a j ha => pc_pure ⟨?_, ?_⟩
    · simp [TableFactor.shape, hq.1, ha.1]
    · cases a with
      | none => exact ha.2 rfl
      | some a => trivial
  · exact pc_skip fun _ _ => pc_err
  · refine pc_seq (sh_parseObjectName H) fun name a hn => ?_
    have h1 : pc T (do if ← consumeToken .LParen then parseOptionalArgs r else pure []) a
        fun es _ => Expr.shapes I es = true :=
      pc_skip fun _ _ => pc_ite (fun _ => sh_parseOptionalArgs H) fun _ => pc_pure rfl
    refine pc_seq h1 fun args b hargs => ?_
    refine pc_seq (sh_parseOptionalAlias hw _) fun al c hal => ?_
    have h2 : pc T (do
        if ← kw .WITH then
          if ← consumeToken .LParen then do
            let h ← r.exprList
            expectToken .RParen
            pure h
          else do
            prevToken
            pure []
        else pure []) c fun hs d => Expr.shapes I hs = true ∧ (hs = [] → d = c) := by
      refine pc_bindOf (wp_kw (fun _ _ _ _ => ?_) fun _ => pc_pure ⟨rfl, fun _ => rfl⟩)
      refine pc_bindOf (wp_consumeToken (fun _ _ _ _ => ?_) ?_)
      · exact pc_seq (H.exprList _) fun es _ hes => pc_skip fun _ _ => pc_pure ⟨hes.2, fun h => absurd h hes.1⟩
      · exact pc_bindOf (wp_prevToken fun k hk => pc_pure ⟨rfl, fun _ => by omega⟩)
    refine pc_seq h2 fun hs d hhs => pc_pure ⟨?_, ?_⟩
    · simp [TableFactor.shape, hn, hal.1, hargs, hhs.1]
    · cases al with
      | some al => trivial
      | none =>
        cases hs with
        | cons => trivial
        | nil =>
          have := hhs.2 rfl
          subst this
          exact hal.2 rfl

theorem sh_parseJoinSpec (H : Sh T I r) : pc T (parseJoinSpec r) i fun s j => s.shape I = true := by
  unfold parseJoinSpec
  refine pc_skip fun _ _ => ?_
  split
  · exact pc_seq (H.subexpr 0 _ (by omega)) fun e _ he => pc_pure he.1.shape
  · refine pc_skip fun _ _ => pc_ite (fun _ => ?_) fun _ => pc_skip fun _ _ => pc_err
    refine pc_skip fun _ _ => pc_seq (sh_parseListOfIds H .Comma) fun is _ h => pc_skip fun _ _ => pc_pure ?_
    exact identsShape_iff.2 h

/-- The right part of a join; without one, no join starts here. -/
def RightAt (T : List Token) (I : Str → Bool) (k : Nat) (x : Option JoinRight) (j : Nat) : Prop :=
  match x with
  | none => j = k ∧ NoJoin T k
  | some (.natural _ r) => RefAt T I r j ∧ NoJoin T j ∧ ¬ NoJoin T k
  | some (.cross f) => (f.shape I = true ∧ EdgeAt T j f.edge) ∧ ¬ NoJoin T k
  | some (.qualified r _ s) => (r.shape I = true ∧ s.shape I = true) ∧ ¬ NoJoin T k

theorem sh_qualifiedJoin (H : Sh T I r) (hk : ¬ NoJoin T k) :
    pc T (parseQualifiedJoin r) j fun x j' => RightAt T I k x j' := by
  unfold parseQualifiedJoin
  refine pc_skip fun _ _ => pc_skip fun _ _ => pc_skip fun _ _ => ?_
  exact pc_seq (H.tableRef _) fun e _ he => pc_seq (sh_parseJoinSpec H) fun s _ hs => pc_pure ⟨⟨he.1.shape, hs⟩, hk⟩

theorem sh_tableReferenceRight (hw : WordsOK T I) (H : Sh T I r) :
    pc T (parseTableReferenceRight r) k fun x j => RightAt T I k x j := by
  unfold parseTableReferenceRight
  refine pc_bindOf (wp_consumeToken' (fun t ht hs _ => ?_) fun hno => ?_)
  · refine pc_bindOf (wp_prevToken fun k' hk' => pc_pure ⟨by omega, fun t' ht' q hq => ?_⟩)
    rw [ht] at ht'; cases ht'
    rw [kw_not_sym hq] at hs; cases hs
  · simp only [Bool.false_eq_true, if_false]
    refine pc_bindOf (wp_nextToken (fun t ht _ => ?_) fun hl => ?_)
    · dsimp only
      have no : (∀ q, t.kw? = some q → startsJoin q = false) → pc T (do prevToken; pure none) (k + 1)
          fun x j => RightAt T I k x j := by
        intro h
        refine pc_bindOf (wp_prevToken fun k' hk' => pc_pure ⟨by omega, fun t' ht' => ?_⟩)
        rw [ht] at ht'; cases ht'
        exact h
      split
      · rename_i htw
        exact no (by simp [Token.kw?, htw])
      · rename_i w htw
        have hkw : t.kw? = kwOf w.keyword := by simp [Token.kw?, htw]
        have yes : ∀ q, kwOf w.keyword = some q → startsJoin q = true → ¬ NoJoin T k := by
          intro q h1 h2 h3
          have := h3 t ht q (by rw [hkw, h1])
          rw [h2] at this; cases this
        split
        · rename_i hq
          refine pc_skip fun _ _ => pc_skip fun _ _ => pc_seq (H.tableRef _) fun e _ he => pc_pure ?_
          exact ⟨he.1, he.2, yes _ hq rfl⟩
        · rename_i hq
          refine pc_skip fun _ _ => pc_seq (sh_parseTableFactor hw H) fun e _ he => pc_pure ?_
          exact ⟨he, yes _ hq rfl⟩
        · rename_i hq
          refine pc_skip fun _ _ => pc_seq (H.tableRef _) fun e _ he => ?_
          exact pc_seq (sh_parseJoinSpec H) fun s _ hs => pc_pure ⟨⟨he.1.shape, hs⟩, yes _ hq rfl⟩
        · exact sh_qualifiedJoin H (yes _ ‹_› rfl)
        · exact sh_qualifiedJoin H (yes _ ‹_› rfl)
        · exact sh_qualifiedJoin H (yes _ ‹_› rfl)
        · exact sh_qualifiedJoin H (yes _ ‹_› rfl)
        · rename_i h1 h2 h3 h4 h5 h6 h7
          refine no fun q hq => ?_
          rw [hkw] at hq
          cases hsj : startsJoin q with
          | false => rfl
          | true => cases q <;> simp [startsJoin] at hsj <;> simp_all
    · exact pc_pure ⟨rfl, fun t ht => by rw [List.getElem?_eq_none hl] at ht; cases ht⟩

theorem sh_tableRefLoopF (hw : WordsOK T I) (H : Sh T I r) {f : TableFactor} {e : TableRef} (hf : f.shape I = true)
    (he : RefAt T I e k) (hopen : e.open_ = false → NoJoin T k) :
    pc T (tableRefLoopF r f e) k fun e' j => RefAt T I e' j ∧ NoJoin T j := by
  unfold tableRefLoopF
  refine pc_seq (sh_tableReferenceRight hw H) fun x j hx => ?_
  have hop : ¬ NoJoin T k → e.open_ = true := by
    intro h
    cases ho : e.open_ with
    | true => rfl
    | false => exact absurd (hopen ho) h
  split
  · obtain ⟨rfl, hn⟩ := hx
    exact pc_pure ⟨he, hn⟩
  · obtain ⟨h1, h2, h3⟩ := hx
    exact H.tableRefLoop _ _ _ hf ⟨by simp [TableRef.shape, he.shape, hop h3, h1.shape], h1.edge⟩ fun _ => h2
  · obtain ⟨h1, h3⟩ := hx
    exact H.tableRefLoop _ _ _ hf ⟨by simp [TableRef.shape, hf, h1.1], h1.2⟩ (by simp [TableRef.open_])
  · obtain ⟨h1, h3⟩ := hx
    exact H.tableRefLoop _ _ _ hf ⟨by simp [TableRef.shape, he.shape, hop h3, h1.1, h1.2], trivial⟩
      (by simp [TableRef.open_])

theorem sh_fromClause (H : Sh T I r) : pc T (parseFromClause r) i fun es j => TableRef.shapes I es = true ∧ es ≠ [] ∧
    ∀ x, es.getLast? = some x → EdgeAt T j x.edge := by
  unfold parseFromClause
  refine pc_seq (H.tableRef _) fun e j he => pc_seq (H.fromRest _) fun es j' hes => pc_pure ⟨?_, by simp, ?_⟩
  · simp [TableRef.shapes, he.1.shape, hes.1]
  · intro x hx
    cases es with
    | nil =>
      have := hes.2.1 rfl
      subst this
      simp at hx
      subst hx
      exact he.1.edge
    | cons y ys =>
      rw [List.getLast?_cons_cons] at hx
      exact hes.2.2 x hx

/-- The optional expression after a keyword. -/
theorem sh_optExpr (H : Sh T I r) (k : KW) : pc T (do
      if ← kw k then do
        let e ← parseExpr r
        pure (some e)
      else pure none) i fun x j => Expr.shapeO I x = true ∧ (x = none → j = i) ∧
        (x.isSome = true → ∃ t, T[i]? = some t ∧ t.matchesKw k.str = true) := by
  refine pc_bindOf (wp_kw (fun t ht hm _ => ?_) fun _ => pc_pure ⟨rfl, fun _ => rfl, by simp⟩)
  exact pc_seq (H.subexpr 0 _ (by omega)) fun e _ he => pc_pure ⟨he.1.shape, by simp, fun _ => ⟨t, ht, hm⟩⟩

theorem sh_parseSelect (hk : KwOK T) (H : Sh T I r) (pos : Pos) :
    pc T (parseSelect r pos) k fun e j => ∃ s, e = .select s ∧ s.shape I = true ∧ EdgeAt T j s.edge := by
  unfold parseSelect
  refine pc_skip fun distinct _ => ?_
  refine pc_seq (H.selectList _) fun pr a hpr => ?_
  have h1 : pc T (do if ← kw .FROM then parseFromClause r else pure []) a fun es j =>
      TableRef.shapes I es = true ∧ (es = [] → j = a) ∧ ∀ x, es.getLast? = some x → EdgeAt T j x.edge := by
    refine pc_bindOf (wp_kw (fun _ _ _ _ => ?_) fun _ => pc_pure ⟨rfl, fun _ => rfl, by simp⟩)
    exact pc_mono (sh_fromClause H) fun es j h => ⟨h.1, fun h0 => absurd h0 h.2.1, h.2.2⟩
  refine pc_seq h1 fun fr b hfr => ?_
  have hedge : EdgeAt T b (fromEdge pr fr) := by
    unfold fromEdge
    cases hl : fr.getLast? with
    | some x => exact hfr.2.2 x hl
    | none =>
      have := hfr.2.1 (by simpa using hl)
      subst this
      cases hp : pr.getLast? with
      | some x => exact hpr.2.2 x hp
      | none => trivial
  refine pc_seq (sh_optExpr H .WHERE) fun wh c hwh => ?_
  have h2 : pc T (do
      match ← parseKeywords [.GROUP, .BY] with
      | some _ => r.exprList
      | none => pure []) c fun es j => Expr.shapes I es = true ∧ (es = [] → j = c) := by
    refine pc_bindOf (wp_parseKeywords' (fun _ _ _ _ _ => ?_) (pc_pure ⟨rfl, fun _ => rfl⟩))
    exact pc_mono (H.exprList _) fun es _ h => ⟨h.2, fun h0 => absurd h0 h.1⟩
  refine pc_seq h2 fun gr d hgr => ?_
  refine pc_seq (sh_optExpr H .HAVING) fun ha e hha => pc_pure ⟨_, rfl, ?_, ?_⟩
  · have h3 : ha = none ∨ wh.isSome = true ∨ gr ≠ [] ∨ fromEdge pr fr = .closed := by
      cases ha with
      | none => exact .inl rfl
      | some x =>
        cases wh with
        | some => exact .inr (.inl rfl)
        | none =>
          cases gr with
          | cons => exact .inr (.inr (.inl (by simp)))
          | nil =>
            right; right; right
            have h4 := hwh.2.1 rfl
            have h5 := hgr.2 rfl
            subst h4 h5
            obtain ⟨t, ht, hm⟩ := hha.2.2 rfl
            have := hedge.kw ht (kw_of_matches hk ht hm)
            cases hx : fromEdge pr fr with
            | closed => rfl
            | tab => rw [hx] at this; cases this
            | col => rw [hx] at this; cases this
    simp only [SQLSelect.shape, hpr.2.1, hfr.1, hwh.1, hgr.1, hha.1, Bool.and_true, Bool.and_eq_true,
      Bool.not_eq_true', List.isEmpty_eq_false_iff, Bool.or_eq_true, Option.isNone_iff_eq_none, beq_iff_eq]
    refine ⟨hpr.1, ?_⟩
    rcases h3 with h3 | h3 | h3 | h3 <;> simp [h3]
  · simp only [SQLSelect.edge]
    split
    · trivial
    · rename_i hc
      simp at hc
      have h4 := hwh.2.1 (by simpa using hc.1.1)
      have h5 := hgr.2 hc.1.2
      have h6 := hha.2.1 (by simpa using hc.2)
      subst h4 h5 h6
      exact hedge

theorem setOperator_level {t : Token} {op : SetOp} {np : Nat} (h : setOperator t = some (op, np)) :
    op.level = np ∧ 0 < np := by
  unfold setOperator at h
  split at h <;> simp at h <;> obtain ⟨rfl, rfl⟩ := h <;> simp [SetOp.level]

theorem sh_bodyLoopF (H : Sh T I r) {p : Nat} {e : SetExpr} (h : BodyAt T I i e k) (hp : p < e.lp) :
    pc T (bodyLoopF r p e) k fun e' j => BodyAt T I i e' j ∧ p < e'.lp ∧ nq T j ≤ p := by
  unfold bodyLoopF
  have hpk : ∀ o : Option Token, o = T[k]? → pc T (match o.bind setOperator with
      | none => pure e
      | some (op, np) =>
        if p ≥ np then pure e
        else do
          let _ ← mustNext
          let all ← kw .ALL
          let right ← r.queryBody np
          r.bodyLoop p (.setOp op all e right)) k fun e' j => BodyAt T I i e' j ∧ p < e'.lp ∧ nq T j ≤ p := by
    intro o ho
    subst ho
    split
    · rename_i hs
      exact pc_pure ⟨h, hp, by simp [nq, hs]⟩
    · rename_i op np hs
      have hnq : nq T k = np := by simp [nq, hs]
      have hlv : op.level = np := by
        rw [Option.bind_eq_some_iff] at hs
        obtain ⟨t, -, hs⟩ := hs
        exact (setOperator_level hs).1
      refine pc_ite (fun hge => pc_pure ⟨h, hp, by rw [hnq]; exact hge⟩) fun hge => ?_
      refine pc_skip fun _ _ => pc_skip fun all a => ?_
      have hlt : np < 100 := by have := nq_le T k; omega
      refine pc_seq (H.queryBody np _ hlt) fun e2 j he2 => ?_
      obtain ⟨h1, h2, h3⟩ := he2
      refine H.bodyLoop _ _ i _ ⟨?_, ?_, h1.edge, h.start⟩ ?_
      · have := h.rp
        simp only [SetExpr.shape, h.shape, h1.shape, Bool.and_eq_true, decide_eq_true_eq, true_and, hlv]
        exact ⟨by omega, h2⟩
      · have := h1.rp
        simp only [SetExpr.rp, hlv]; omega
      · simp only [SetExpr.lp, hlv]; omega
  refine pc_bindOf (wp_peekToken (fun t ht _ => ?_) fun hl => ?_)
  · exact hpk _ ht.symm
  · exact hpk _ (List.getElem?_eq_none hl).symm

theorem sh_queryBodyF (hk : KwOK T) (H : Sh T I r) {p : Nat} (hp : p < 100) :
    pc T (queryBodyF r p) i fun e j => BodyAt T I i e j ∧ p < e.lp ∧ nq T j ≤ p := by
  have hrp : ∀ j, nq T j ≤ 100 := fun j => by have := nq_le T j; omega
  unfold queryBodyF
  refine pc_bindOf (wp_kwTok' (fun t ht hm _ => ?_) fun hno => ?_)
  · refine pc_seq (sh_parseSelect hk H _) fun e j he => ?_
    obtain ⟨s, rfl, h1, h2⟩ := he
    exact H.bodyLoop _ _ i _ ⟨h1, hrp _, h2, .inl rfl⟩ hp
  · dsimp only
    refine pc_bindOf (wp_consumeToken (fun t ht hs _ => ?_) ?_)
    · simp only [if_true]
      refine pc_seq (H.query _) fun q _ hq => pc_skip fun _ _ => ?_
      exact H.bodyLoop _ _ i _ ⟨hq.1, hrp _, trivial, .inr ⟨t, ht, hs⟩⟩ hp
    · simp only [Bool.false_eq_true, if_false]
      exact pc_panic

theorem sh_parseLimit : pc T parseLimit i fun l j => l.wf = true := by
  unfold parseLimit
  refine pc_skip fun _ _ => pc_ite (fun _ => pc_pure rfl) fun _ => ?_
  refine pc_seq sh_parseLiteralInt fun x a hx => ?_
  have h1 : pc T (do
      match ← kwTok .OFFSET with
      | some ot => do
        let (o, _) ← parseLiteralInt
        pure (some (⟨ot.from_, ot.to_, o⟩ : LongValue))
      | none => pure none) a fun y _ => ∀ o, y = some o → longOK o = true := by
    refine pc_skip fun y _ => ?_
    split
    · refine pc_seq sh_parseLiteralInt fun y _ hy => pc_pure ?_
      rintro _ ⟨⟩
      simpa [longOK] using hy
    · exact pc_pure (by simp)
  refine pc_seq h1 fun o _ ho => pc_pure ?_
  obtain ⟨n, t⟩ := x
  have hx' : longOK ⟨t.from_, t.to_, n⟩ = true := by simpa [longOK] using hx
  cases o with
  | none => simp [LimitExpr.wf, hx']
  | some o => simp [LimitExpr.wf, hx', ho o rfl]

theorem sh_queryF (hk : KwOK T) (H : Sh T I r) : pc T (queryF r) i fun q j => q.shape I = true ∧ EdgeAt T j q.edge ∧
    (q.startsSelect = true ∨ ∃ t, T[i]? = some t ∧ t.isSym .LParen = true) := by
  unfold queryF
  have h1 : pc T (do if ← kw .WITH then r.cteList else pure []) i fun cs j =>
      CTE.shapes I cs = true ∧ (cs = [] → j = i) := by
    refine pc_bindOf (wp_kw (fun _ _ _ _ => ?_) fun _ => pc_pure ⟨rfl, fun _ => rfl⟩)
    exact pc_mono (H.cteList _) fun es _ h => ⟨h.2, fun h0 => absurd h0 h.1⟩
  refine pc_seq h1 fun cs a hcs => ?_
  refine pc_seq (H.queryBody 0 _ (by omega)) fun body b hb => ?_
  obtain ⟨hb, -, -⟩ := hb
  have h2 : pc T (do
      match ← parseKeywords [.ORDER, .BY] with
      | some _ => r.orderByList
      | none => pure []) b fun es j => OrderByExpr.shapes I es = true ∧ (es = [] → j = b) := by
    refine pc_bindOf (wp_parseKeywords' (fun _ _ _ _ _ => ?_) (pc_pure ⟨rfl, fun _ => rfl⟩))
    exact pc_mono (H.orderByList _) fun es _ h => ⟨h.2, fun h0 => absurd h0 h.1⟩
  refine pc_seq h2 fun ob c hob => ?_
  have h3 : pc T (do
      if ← kw .LIMIT then do
        let l ← parseLimit
        pure (some l)
      else pure none) c fun x j => (x = none → j = c) ∧ ∀ l, x = some l → l.wf = true ∧
        ∃ t, T[c]? = some t ∧ t.matchesKw KW.LIMIT.str = true := by
    refine pc_bindOf (wp_kw (fun t ht hm _ => ?_) fun _ => pc_pure ⟨fun _ => rfl, by simp⟩)
    refine pc_seq sh_parseLimit fun l _ hl => pc_pure ⟨by simp, ?_⟩
    rintro _ ⟨⟩
    exact ⟨hl, t, ht, hm⟩
  refine pc_seq h3 fun lim d hlim => pc_pure ⟨?_, ?_, ?_⟩
  · cases lim with
    | none => simp [QueryStmt.shape, hcs.1, hb.shape, hob.1]
    | some l =>
      obtain ⟨hl, t, ht, hm⟩ := hlim.2 l rfl
      have : ob ≠ [] ∨ body.edge = .closed := by
        cases ob with
        | cons => exact .inl (by simp)
        | nil =>
          right
          have h5 := hob.2 rfl
          subst h5
          have := hb.edge.kw ht (kw_of_matches hk ht hm)
          cases hx : body.edge with
          | closed => rfl
          | tab => rw [hx] at this; cases this
          | col => rw [hx] at this; cases this
      simp only [QueryStmt.shape, hcs.1, hb.shape, hob.1, hl, Bool.and_true, Bool.true_and, Bool.or_eq_true,
        Bool.not_eq_true', List.isEmpty_eq_false_iff, beq_iff_eq]
      exact this
  · simp only [QueryStmt.edge]
    split
    · rename_i hc
      simp at hc
      have h5 := hob.2 hc.1
      have h6 := hlim.1 hc.2
      subst h5 h6
      exact hb.edge
    · trivial
  · cases cs with
    | cons => exact .inl rfl
    | nil =>
      have := hcs.2 rfl
      subst this
      rcases hb.start with h | h
      · exact .inl (by simp [QueryStmt.startsSelect, h])
      · exact .inr h

theorem sh_selectListF (hw : WordsOK T I) (H : Sh T I r) : pc T (selectListF r) i fun es j =>
    es ≠ [] ∧ SelectItem.shapes I es = true ∧ ∀ x, es.getLast? = some x → EdgeAt T j x.edge := by
  unfold selectListF
  refine pc_seq (H.subexpr 0 _ (by omega)) fun e a he => ?_
  have h1 : pc T (do
      match e with
      | .qualifiedWildcard ids => pure (SelectItem.qualifiedWildcard ⟨ids⟩)
      | _ => do
        match ← parseOptionalAlias reservedForColumnAlias with
        | some a => pure (.alias e a)
        | none => pure (.unnamed e)) a fun x j => x.shape I = true ∧ EdgeAt T j x.edge := by
    split
    · refine pc_pure ⟨?_, trivial⟩
      have := he.1.shape
      simpa only [Expr.shape, SelectItem.shape, ObjectName.shape] using this
    · rename_i hq
      have hq' : (match e with
          | .qualifiedWildcard _ => false
          | _ => true) = true := by
        cases e <;> first | rfl | exact absurd rfl (hq _)
      refine pc_seq (sh_parseOptionalAlias hw _) fun al j hal => ?_
      split
      · refine pc_pure ⟨?_, trivial⟩
        simp only [SelectItem.shape, he.1.shape, hq', Bool.and_true, Bool.true_and]
        exact hal.1
      · refine pc_pure ⟨?_, hal.2 rfl⟩
        simp only [SelectItem.shape, he.1.shape, hq', Bool.and_true]
  refine pc_seq h1 fun x b hx => ?_
  refine pc_bindOf (wp_mustPeek fun t ht _ => pc_ite (fun _ => ?_) fun _ => ?_)
  · refine pc_skip fun _ _ => pc_seq (H.selectList _) fun es j hes => pc_pure ⟨by simp, ?_, ?_⟩
    · simp [SelectItem.shapes, hx.1, hes.2.1]
    · intro y hy
      cases es with
      | nil => exact absurd rfl hes.1
      | cons z zs => rw [List.getLast?_cons_cons] at hy; exact hes.2.2 y hy
  · refine pc_pure ⟨by simp, by simp [SelectItem.shapes, hx.1], ?_⟩
    intro y hy
    simp at hy
    subst hy
    exact hx.2

theorem sh_fromRestF (H : Sh T I r) : pc T (fromRestF r) i fun es j => TableRef.shapes I es = true ∧
    (es = [] → j = i) ∧ ∀ x, es.getLast? = some x → EdgeAt T j x.edge := by
  unfold fromRestF
  refine pc_bindOf (wp_consumeToken (fun _ _ _ _ => ?_) (pc_pure ⟨rfl, fun _ => rfl, by simp⟩))
  exact pc_mono (sh_fromClause H) fun es j h => ⟨h.1, fun h0 => absurd h0 h.2.1, h.2.2⟩

end Verif
