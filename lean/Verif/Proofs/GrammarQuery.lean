import Verif.Proofs.GrammarExpr
/-
The tokens that the parser reads as a query belong to the language of the query.
-/
set_option linter.unusedSimpArgs false
set_option linter.unusedVariables false
namespace Verif
open Spec

variable {T : List Token} {fns : FloatFns} {q : Quirks} {α β : Type} {i j k : Nat} {r : Parsers}

/-- The alias that is read, or nothing but perhaps AS at the end. -/
theorem gr_optionalAlias (hk : KwOK T) {reserved : KW → Bool} {bad : List KW} (hb : ∀ k ∈ bad, reserved k = true)
    (i : Nat) : pc T (parseOptionalAlias reserved) i fun a j => match a with
      | some a => Span T i j (aliasLang bad a)
      | none => j = i ∨ (j = i + 1 ∧ T.length ≤ j ∧ ∃ t, T[i]? = some t ∧ t.matchesKw KW.AS.str = true) := by
  unfold parseOptionalAlias
  refine pc_bindOf (wp_kw (fun t0 h0 hm _ => ?_) fun _ => ?_)
  · refine pc_bindOf (wp_nextToken (fun t ht _ => ?_) fun hl => pc_pure (.inr ⟨rfl, hl, t0, h0, hm⟩))
    dsimp only
    split
    · rename_i w hw
      simp only [Bool.true_or, if_true]
      exact pc_pure (Span.left ((span_kw h0 hm).P.cat (span_word ht hw)))
    · exact pc_panic
  · refine pc_bindOf (wp_nextToken (fun t ht _ => ?_) fun hl => pc_pure (.inl rfl))
    dsimp only
    split
    · rename_i w hw
      refine pc_ite (fun hr => ?_) fun _ => pg_prev (pc_pure (.inl rfl))
      refine pc_pure (Span.right (span_unreserved hk ht (word_tok hw) ?_ hb))
      simpa using hr
    · simp only [Bool.false_eq_true, if_false]
      exact pg_prev (pc_pure (.inl rfl))

theorem gr_tableAlias (hk : KwOK T) (hq : QuirksOK T q) (i : Nat) :
    pc T (parseOptionalAlias reservedForTableAlias) i fun a j => Span T i j (tableAliasLang q a) := by
  refine pc_mono (gr_optionalAlias hk (bad := tableKeywords) (by decide) i) fun a j h => ?_
  cases a with
  | some a => exact h
  | none =>
    rcases h with rfl | ⟨rfl, hl, t, ht, hm⟩
    · exact Span.lostNone
    · cases hqa : q.as with
      | true => exact Span.lostT hqa (span_kw ht hm).P
      | false =>
        have hlt := (List.getElem?_eq_some_iff.1 ht).1
        have : T.getLast? = some t := by
          rw [List.getLast?_eq_getElem?, show T.length - 1 = i by omega]; exact ht
        rw [hq.as hqa t this] at hm
        cases hm

theorem gr_cteListF (H : Gr T fns q r) (i : Nat) :
    pc T (cteListF r) i fun es j => Span T i j (sepBy .Comma (CTE.langs fns q es)) := by
  unfold cteListF
  refine pg_identifier fun x h1 => pg_expectKeyword fun t h2 => pg_expectToken fun h3 => ?_
  refine pc_seq (H.query _) fun s m hs => pg_expectToken fun h4 => ?_
  have h5 : Span T i (m + 1) ((CTE.mk x s Pos.zero).lang fns q) := h1.cat (h2.P.cat (Span.cat (h3.cat (hs.1.cat h4)) Span.unset))
  refine pg_consumeIf (fun h6 => ?_) (pc_pure h5.sepOne)
  exact pc_seq (H.cteList _) fun es j hes => pc_pure (h5.sepMore h6 hes)

theorem gr_limit (h1 : Span T i k (kwd .LIMIT)) : pc T parseLimit k fun l j => Span T i j (limitLang (some l)) := by
  unfold parseLimit
  refine pg_kwIf (fun h2 => pc_pure (h1.cat (h2.cat Span.unset2))) ?_
  refine pg_literalInt fun x h2 => ?_
  have h3 : pc T (do
      match ← kwTok .OFFSET with
      | some ot => do
        let (o, _) ← parseLiteralInt
        pure (some (⟨ot.from_, ot.to_, o⟩ : LongValue))
      | none => pure none) (k + 1) fun y j => match y with
        | none => j = k + 1
        | some o => Span T (k + 1) j (spans o.from_ o.to_ (kwd .OFFSET) ⬝ numberZ o.long) := by
    refine pg_kwTok (fun t h => ?_) (pc_pure rfl)
    exact pg_literalInt fun y h' => pc_pure (h.cat h'.P)
  refine pc_seq h3 fun y j hy => pc_pure ?_
  cases y with
  | none => subst hy; exact h1.cat (h2.cat Span.unset2)
  | some o => exact h1.cat (h2.cat (Span.assoc (Span.cat hy Span.unset2)))

theorem gr_queryF (H : Gr T fns q r) (i : Nat) : pc T (queryF r) i fun s j => Span T i j (s.lang fns q) ∧
    ((∃ t, T[i]? = some t ∧ t.matchesKw KW.WITH.str = true) → s.hasWith = true) := by
  unfold queryF
  have h1 : pc T (do if ← kw .WITH then r.cteList else pure []) i fun cs j =>
      Span T i j (clause (kwd .WITH ⬝ ·) (CTE.langs fns q cs)) ∧
      ((∃ t, T[i]? = some t ∧ t.matchesKw KW.WITH.str = true) → cs ≠ []) := by
    refine pc_bindOf (wp_kw (fun t ht hm _ => ?_) fun hno => pc_pure ⟨Span.clauseNone, ?_⟩)
    · refine pc_mono (H.cteList _) fun cs j h => ⟨Span.clause ((span_kw ht hm).P.cat h) ⟨_, _, h⟩, ?_⟩
      rintro - rfl
      exact h.2.elim
    · rintro ⟨t, ht, hm⟩
      rw [hno t ht] at hm; cases hm
  refine pc_seq h1 fun cs a hcs => pc_seq (H.queryBody 0 _) fun body b hb => ?_
  have h2 : pc T (do
      match ← parseKeywords [.ORDER, .BY] with
      | some _ => r.orderByList
      | none => pure []) b fun es j => Span T b j (clause (kwd .ORDER ⬝ kwd .BY ⬝ ·) (OrderByExpr.langs fns q es)) := by
    refine pg_keywords (fun ts j h => ?_) (pc_pure Span.clauseNone)
    exact pc_mono (H.orderByList _) fun es j' hes => Span.clause (Span.assoc (h.cat hes)) ⟨_, _, hes⟩
  refine pc_seq h2 fun ob c hob => ?_
  have h3 : pc T (do
      if ← kw .LIMIT then do
        let l ← parseLimit
        pure (some l)
      else pure none) c fun x j => Span T c j (limitLang x) := by
    refine pg_kwIf (fun h => ?_) (pc_pure Span.eps)
    exact pc_seq (gr_limit h) fun l j hl => pc_pure hl
  refine pc_seq h3 fun lim d hlim => pc_pure ⟨hcs.1.cat (hb.cat (hob.cat (hlim.cat Span.unset))), fun h => ?_⟩
  have := hcs.2 h
  cases cs with
  | nil => exact absurd rfl this
  | cons => rfl

theorem gr_selectListF (hk : KwOK T) (H : Gr T fns q r) (i : Nat) :
    pc T (selectListF r) i fun es j => Span T i j (sepBy .Comma (SelectItem.langs fns q es)) := by
  unfold selectListF
  refine pc_seq (gr_parseExpr H i) fun e a he => ?_
  have h1 : pc T (do
      match e with
      | .qualifiedWildcard ids => pure (SelectItem.qualifiedWildcard ⟨ids⟩)
      | _ => do
        match ← parseOptionalAlias reservedForColumnAlias with
        | some a => pure (.alias e a)
        | none => pure (.unnamed e)) a fun x j => Span T i j (x.lang fns q) ∨ T.length ≤ j := by
    split
    · exact pc_pure (.inl he)
    · refine pc_seq (gr_optionalAlias hk (bad := columnKeywords) (by decide) a) fun al j hal => ?_
      cases al with
      | some al => exact pc_pure (.inl (he.cat hal))
      | none =>
        rcases hal with rfl | ⟨rfl, hl, -⟩
        · exact pc_pure (.inl he)
        · exact pc_pure (.inr hl)
  refine pc_seq h1 fun x b hx => ?_
  refine pc_bindOf (wp_mustPeek fun t ht hlt => ?_)
  have hx : Span T i b (x.lang fns q) := by
    rcases hx with hx | hx
    · exact hx
    · omega
  refine pc_ite (fun hs => ?_) fun _ => pc_pure hx.sepOne
  refine pc_bindOf (wp_mustNext fun t' ht' _ => ?_)
  exact pc_seq (H.selectList _) fun es j hes => pc_pure (hx.sepMore (span_sym ht hs).P hes)

theorem gr_fromClause (H : Gr T fns q r) (i : Nat) :
    pc T (parseFromClause r) i fun es j => Span T i j (sepBy .Comma (TableRef.langs fns q es)) := by
  unfold parseFromClause
  exact pc_seq (H.tableRef i) fun e j he => pc_seq (H.fromRest j) fun es j' hes => pc_pure (Span.sepBy he hes)

theorem gr_fromRestF (H : Gr T fns q r) (i : Nat) :
    pc T (fromRestF r) i fun es j => Span T i j (tailBy .Comma (TableRef.langs fns q es)) := by
  unfold fromRestF
  refine pg_consumeIf (fun h => ?_) (pc_pure Span.eps)
  exact pc_seq (H.tableRef _) fun e j he => pc_seq (H.fromRest j) fun es j' hes =>
    pc_pure (Span.tailMore h (Span.sepBy he hes))

/-- The optional expression after a keyword. -/
theorem gr_optExpr (H : Gr T fns q r) (k : KW) (i : Nat) : pc T (do
      if ← kw k then do
        let e ← parseExpr r
        pure (some e)
      else pure none) i fun x j => Span T i j (optional (kwd k ⬝ ·) (Expr.langO fns q x)) := by
  refine pg_kwIf (fun h => ?_) (pc_pure Span.eps)
  exact pc_seq (gr_parseExpr H _) fun e j he => pc_pure (h.cat he)

theorem gr_parseSelect (H : Gr T fns q r) {pos : Pos} (h0 : Span T i k (pos ▹ kwd .SELECT)) :
    pc T (parseSelect r pos) k fun e j => Span T i j (e.lang fns q) := by
  unfold parseSelect
  have h1 : pc T (do
      match ← parseKeyword .DISTINCT with
      | .eof => .err
      | .no _ => pure false
      | .yes _ => pure true) k fun b j => Span T k j (flag b (kwd .DISTINCT)) := by
    refine pc_bindOf (wp_parseKeyword (fun _ => pc_err) (fun t ht hm _ => ?_) (fun t ht hm _ => ?_))
    · exact pc_pure (span_kw ht hm).P.flagT
    · exact pc_pure Span.flagF
  refine pc_seq h1 fun d a hd => pc_seq (H.selectList _) fun pr b hpr => ?_
  have h2 : pc T (do if ← kw .FROM then parseFromClause r else pure []) b fun es j =>
      Span T b j (clause (kwd .FROM ⬝ ·) (TableRef.langs fns q es)) := by
    refine pg_kwIf (fun h => ?_) (pc_pure Span.clauseNone)
    exact pc_mono (gr_fromClause H _) fun es j hes => Span.clause (h.cat hes) ⟨_, _, hes⟩
  refine pc_seq h2 fun fr c hfr => pc_seq (gr_optExpr H .WHERE _) fun wh d hwh => ?_
  have h3 : pc T (do
      match ← parseKeywords [.GROUP, .BY] with
      | some _ => r.exprList
      | none => pure []) d fun es j => Span T d j (clause (kwd .GROUP ⬝ kwd .BY ⬝ ·) (Expr.langs fns q es)) := by
    refine pg_keywords (fun ts j h => ?_) (pc_pure Span.clauseNone)
    exact pc_mono (H.exprList _) fun es j' hes => Span.clause (Span.assoc (h.cat hes)) ⟨_, _, hes⟩
  refine pc_seq h3 fun gr e hgr => pc_seq (gr_optExpr H .HAVING _) fun ha f hha => pc_pure ?_
  exact h0.cat (hd.cat (hpr.cat (hfr.cat (hwh.cat (hgr.cat hha)))))

theorem gr_bodyLoopF (hk : KwOK T) (H : Gr T fns q r) {p : Nat} {e : SetExpr} (he : Span T i k (e.lang fns q)) :
    pc T (bodyLoopF r p e) k fun e' j => Span T i j (e'.lang fns q) := by
  unfold bodyLoopF
  refine pc_bindOf (wp_peekToken (fun t ht _ => ?_) fun _ => pc_pure he)
  split
  · exact pc_pure he
  · rename_i op np hs
    refine pc_ite (fun _ => pc_pure he) fun _ => ?_
    refine pc_bindOf (wp_mustNext fun t' ht' _ => ?_)
    have h1 : Span T k (k + 1) (setOpLang op) := by
      simp only [Option.bind_some] at hs
      unfold setOperator at hs
      split at hs <;> cases hs <;> exact (span_kw? hk ht ‹_›).P.cat Span.unset2
    have h2 : ∀ all m, Span T (k + 1) m (flag all (kwd .ALL)) → pc T (do
        let right ← r.queryBody np
        r.bodyLoop p (.setOp op all e right)) m fun e' j => Span T i j (e'.lang fns q) := by
      intro all m hall
      exact pc_seq (H.queryBody _ _) fun e2 m2 he2 => H.bodyLoop _ _ _ _ (he.cat (h1.cat (hall.cat he2)))
    exact pg_kw (fun h => h2 true _ h.flagT) (h2 false _ Span.flagF)

theorem gr_queryBodyF (H : Gr T fns q r) (p i : Nat) :
    pc T (queryBodyF r p) i fun e j => Span T i j (e.lang fns q) := by
  unfold queryBodyF
  refine pg_kwTok (fun t h0 => ?_) (pg_consumeIf (fun h1 => ?_) pc_panic)
  · exact pc_seq (gr_parseSelect H h0.F) fun e j he => H.bodyLoop _ _ _ _ he
  · refine pc_seq (H.query _) fun s m hs => pg_expectToken fun h2 => ?_
    exact H.bodyLoop _ _ _ _ (Span.cat (h1.cat (hs.1.cat h2)) Span.unset2)

theorem gr_tableFactor (hk : KwOK T) (hq : QuirksOK T q) (H : Gr T fns q r) (i : Nat) :
    pc T (parseTableFactor r) i fun f j => Span T i j (f.lang fns q) := by
  unfold parseTableFactor
  have derived : ∀ lat a, Span T i a (flag lat (kwd .LATERAL)) → Span T a (a + 1) (sym .LParen) → pc T (do
      let s ← r.query
      expectToken .RParen
      let alias ← parseOptionalAlias reservedForTableAlias
      pure (TableFactor.derived lat Pos.zero Pos.zero Pos.zero s alias)) (a + 1) fun f j => Span T i j (f.lang fns q) := by
    intro lat a h1 h2
    refine pc_seq (H.query _) fun s m hs => pg_expectToken fun h3 => ?_
    exact pc_seq (gr_tableAlias hk hq _) fun al j hal => pc_pure (h1.cat (Span.cat (h2.cat (hs.1.cat h3)) (hal.cat (Span.unset.cat Span.unset2))))
  refine pg_kw (fun h0 => ?_) ?_
  · refine pg_consumeIf (fun h1 => derived true _ h0.flagT h1) ?_
    simp only [if_true]
    exact pc_skip fun _ _ => pc_err
  · refine pg_consumeIf (fun h1 => derived false _ Span.flagF h1) ?_
    simp only [Bool.false_eq_true, if_false]
    refine pc_seq (gr_parseObjectName H i) fun name a hn => ?_
    have h1 : pc T (do if ← consumeToken .LParen then parseOptionalArgs r else pure []) a
        fun es b => Span T a b (match es with
          | [] => lost q.odd (sym .LParen)
          | es => sym .LParen ⬝ sepBy .Comma (Expr.langs fns q es)) := by
      refine pg_consumeIf (fun h => ?_) (pc_pure Span.lostNone)
      refine pc_mono (gr_optionalArgs H _) fun es j hes => ?_
      cases es with
      | nil =>
        obtain ⟨h5, h6⟩ := hes
        exact Span.lostT H.odd ((h.cat (⟨h5, h6⟩ : Span T (a + 1) j eps)).mono fun ts hts => cat_eps hts)
      | cons x xs => exact h.cat hes
    refine pc_seq h1 fun args b hargs => pc_seq (gr_tableAlias hk hq _) fun al c hal => ?_
    have h2 : pc T (do
        if ← kw .WITH then
          if ← consumeToken .LParen then do
            let h ← r.exprList
            expectToken .RParen
            pure h
          else do
            prevToken
            pure []
        else pure []) c fun hs d => Span T c d (clause (kwd .WITH ⬝ parens ·) (Expr.langs fns q hs)) := by
      refine pg_kwIf (fun h => ?_) (pc_pure Span.clauseNone)
      refine pg_consumeIf (fun h' => ?_) (pg_prev (pc_pure Span.clauseNone))
      refine pc_seq (H.exprList _) fun es m hes => pg_expectToken fun h3 => pc_pure ?_
      exact Span.clause (h.cat (h'.cat (hes.cat h3))) ⟨_, _, hes⟩
    refine pc_seq h2 fun hs d hhs => pc_pure ?_
    cases args with
    | nil => exact hn.cat (hargs.cat (hal.cat (hhs.cat Span.unset2)))
    | cons x xs => exact hn.cat (Span.assoc (Span.cat hargs (hal.cat (hhs.cat (Span.unset2.cat (Span.only H.odd))))))

theorem gr_joinType (hk : KwOK T) (natural : Bool) (i : Nat)
    (hn : natural = false → ∀ t, T[i]? = some t → t.kw? ≠ some .INNER) :
    pc T parseJoinType i fun x j => Span T i j (joinTypeLang natural x) := by
  unfold parseJoinType
  refine pc_bindOf (wp_mustNext fun t ht _ => ?_)
  split
  · exact pc_err
  · rename_i w hw
    have kwd_ : ∀ {k : KW}, kwOf w.keyword = some k → Span T i (i + 1) (spans t.from_ t.to_ (kwd k)) :=
      fun h => span_kwOf hk ht (word_tok hw) h
    split
    · cases natural with
      | true => exact pc_pure (kwd_ ‹_›)
      | false => exact absurd (by simp [Token.kw?, hw, ‹kwOf w.keyword = _›]) (hn rfl t ht)
    · exact pg_kwIf (fun h => pc_pure ((kwd_ ‹_›).cat h)) (pc_pure (kwd_ ‹_›))
    · exact pg_kwIf (fun h => pc_pure ((kwd_ ‹_›).P.cat (h.cat Span.unset2))) (pc_pure ((kwd_ ‹_›).P.cat Span.unset2))
    · exact pg_kwIf (fun h => pc_pure ((kwd_ ‹_›).P.cat (h.cat Span.unset2))) (pc_pure ((kwd_ ‹_›).P.cat Span.unset2))
    · exact pg_prev (pc_pure Span.unset2)
    · exact pc_err

theorem gr_joinSpec (H : Gr T fns q r) (i : Nat) :
    pc T (parseJoinSpec r) i fun s j => Span T i j (s.lang fns q) := by
  unfold parseJoinSpec
  refine pg_kwTok (fun t h => ?_) (pg_kwIf (fun h => ?_) (pc_skip fun _ _ => pc_err))
  · exact pc_seq (gr_parseExpr H _) fun e j he => pc_pure (h.F.cat he)
  · refine pg_expectToken fun h1 => pc_seq (gr_parseListOfIds H _ _) fun is j his => pg_expectToken fun h2 => ?_
    exact pc_pure (h.cat (Span.cat (h1.cat (his.cat h2)) Span.unset2))

/-- The tokens of the right part of a join. -/
def rightLang (fns : FloatFns) (q : Quirks) : JoinRight → Lang
  | .natural ty r => kwd .NATURAL ⬝ joinTypeLang true ty ⬝ kwd .JOIN ⬝ r.lang fns q
  | .cross f => kwd .CROSS ⬝ kwd .JOIN ⬝ f.lang fns q
  | .qualified r ty spec => joinTypeLang false ty ⬝ kwd .JOIN ⬝ r.lang fns q ⬝ spec.lang fns q

def RightSpan (T : List Token) (fns : FloatFns) (q : Quirks) (i : Nat) (x : Option JoinRight) (j : Nat) : Prop :=
  match x with
  | none => j = i
  | some x => Span T i j (rightLang fns q x)

theorem gr_qualifiedJoin (hk : KwOK T) (H : Gr T fns q r) (i : Nat)
    (hn : ∀ t, T[i]? = some t → t.kw? ≠ some .INNER) :
    pc T (parseQualifiedJoin r) (i + 1) fun x j => RightSpan T fns q i x j := by
  unfold parseQualifiedJoin
  refine pg_prev (pc_seq (gr_joinType hk false i fun _ => hn) fun ty a hty => pg_expectKeyword fun t h1 => ?_)
  refine pc_seq (H.tableRef _) fun e b he => pc_seq (gr_joinSpec H _) fun s j hs => pc_pure ?_
  exact hty.cat (h1.P.cat (he.cat hs))

theorem gr_tableReferenceRight (hk : KwOK T) (hq : QuirksOK T q) (H : Gr T fns q r) (i : Nat) :
    pc T (parseTableReferenceRight r) i fun x j => RightSpan T fns q i x j := by
  unfold parseTableReferenceRight
  refine pg_consumeIf (fun _ => pg_prev (pc_pure rfl)) ?_
  refine pc_bindOf (wp_nextToken (fun t ht _ => ?_) fun _ => pc_pure rfl)
  dsimp only
  split
  · exact pg_prev (pc_pure rfl)
  · rename_i w hw
    have kwd_ : ∀ {k : KW}, kwOf w.keyword = some k → Span T i (i + 1) (kwd k) :=
      fun h => (span_kwOf hk ht (word_tok hw) h).P
    have not_inner : ∀ {k : KW}, kwOf w.keyword = some k → k ≠ .INNER → ∀ t', T[i]? = some t' → t'.kw? ≠ some .INNER := by
      intro k h hne t' ht' h'
      rw [ht] at ht'; cases ht'
      simp only [Token.kw?, hw, Option.bind_some, h, Option.some.injEq] at h'
      exact hne h'
    split
    · refine pc_seq (gr_joinType hk true _ (by simp)) fun ty a hty => pg_expectKeyword fun t' h1 => ?_
      exact pc_seq (H.tableRef _) fun e j he => pc_pure ((kwd_ ‹_›).cat (hty.cat (h1.P.cat he)))
    · refine pg_expectKeyword fun t' h1 => ?_
      exact pc_seq (gr_tableFactor hk hq H _) fun e j he => pc_pure ((kwd_ ‹_›).cat (h1.P.cat he))
    · refine pg_expectKeyword fun t' h1 => pc_seq (H.tableRef _) fun e a he => ?_
      refine pc_seq (gr_joinSpec H _) fun s j hs => pc_pure ?_
      exact Span.cat ((kwd_ ‹_›).cat Span.unset2) (h1.P.cat (he.cat hs))
    · exact gr_qualifiedJoin hk H i (not_inner ‹_› (by decide))
    · exact gr_qualifiedJoin hk H i (not_inner ‹_› (by decide))
    · exact gr_qualifiedJoin hk H i (not_inner ‹_› (by decide))
    · exact gr_qualifiedJoin hk H i (not_inner ‹_› (by decide))
    · exact pg_prev (pc_pure rfl)

theorem kwd_mem {k : KW} {L : Lang} (h : Span T i j (kwd k ⬝ L)) :
    ∃ t ∈ T, ∃ w, t.tok = .word w ∧ spells w.value k := by
  obtain ⟨-, a, b, hab, ⟨t, w, rfl, hw, hs⟩, -⟩ := h
  have : t ∈ between T i j := by rw [hab]; simp
  exact ⟨t, List.mem_of_mem_drop (List.mem_of_mem_take this), w, hw, hs⟩

theorem Span.rightOf {x : JoinRight} {m : Nat} (h : Span T m k Spec.anything) (hx : Span T k j (rightLang fns q x)) :
    Span T m j Spec.anything := by
  have h1 : Over (rightLang fns q x) := by
    cases x <;> (unfold rightLang; over [TableRef.over fns q _, TableFactor.over fns q _, JoinSpec.over fns q _])
  exact (h.cat hx).anything (Over.anything.cat h1)

theorem gr_tableRefLoopF (hk : KwOK T) (hq : QuirksOK T q) (H : Gr T fns q r) {f : TableFactor} {e : TableRef} {m : Nat}
    (hf : Span T i m (f.lang fns q)) (hm : Span T m k anything) (he : Span T i k (e.lang fns q)) :
    pc T (tableRefLoopF r f e) k fun e' j => Span T i j (e'.lang fns q) := by
  unfold tableRefLoopF
  refine pc_seq (gr_tableReferenceRight hk hq H k) fun x j hx => ?_
  split
  · cases hx; exact pc_pure he
  · exact H.tableRefLoop _ _ _ _ _ hf (hm.rightOf hx) (he.cat hx)
  · refine H.tableRefLoop _ _ _ _ _ hf (hm.rightOf hx) ?_
    cases hqc : q.cross with
    | true => exact hf.cat ((Span.lostT hqc hm).cat hx)
    | false =>
      obtain ⟨t, ht, w, hw, hs⟩ := kwd_mem hx
      exfalso
      obtain ⟨n, hn⟩ := List.getElem?_of_mem ht
      refine hq.cross hqc t ht ?_
      rcases hs with hs | hs
      · exact kw_of_matches hk hn (by simpa [Token.matchesKw, hw] using hs)
      · simp [Token.kw?, Token.word?, hw, hk t ht w hw, hs]
  · exact H.tableRefLoop _ _ _ _ _ hf (hm.rightOf hx) (he.cat hx)

theorem gr_tableRefF (hk : KwOK T) (hq : QuirksOK T q) (H : Gr T fns q r) (i : Nat) :
    pc T (tableRefF r) i fun e j => Span T i j (e.lang fns q) := by
  unfold tableRefF
  exact pc_seq (gr_tableFactor hk hq H i) fun f m hf => H.tableRefLoop _ _ _ _ _ hf (Span.anything Span.eps Over.eps) hf

end Verif
