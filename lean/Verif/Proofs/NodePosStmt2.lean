/-
Continuation of Proofs/NodePosStmt.lean: table references, queries and statements.
-/
import Verif.Proofs.NodePosStmt
set_option linter.unusedSimpArgs false
set_option linter.unusedVariables false

namespace Verif

variable {T : List Token} {α β : Type} {i : Nat} {r : Parsers}

theorem EndIf.dangling {l : Token} {ok : Bool} {p : Option Pos} (h : T[i]? = some l) (hd : l.dangling = true) :
    EndIf T ok p (i + 1) := fun _ => ⟨i, l, rfl, h, fun h => by rw [hd] at h; cases h⟩

theorem LastEnd.ne {ok : α → Bool} {end_ : α → Option Pos} {l : List α} {j : Nat} (h : LastEnd T ok end_ l j) :
    l ≠ [] := by
  obtain ⟨a, h1, -⟩ := h
  rintro rfl; cases h1

theorem sq_parseOptionalArgs (H : Sq T r) : pc T (parseOptionalArgs r) i fun x j => x = [] → j = i := by
  unfold parseOptionalArgs
  refine pc_bindOf (wp_consumeToken (fun u hu _ _ => ?_) ?_)
  · simp only [if_true]
    refine pc_bindOf (wp_prevToken fun j hj => ?_)
    cases hj
    exact pc_pure fun _ => rfl
  · simp only [Bool.false_eq_true, if_false]
    exact pc_mono (H.exprList i) fun x j hx h => absurd h hx.ne

theorem sq_parseTableFactor (H : Sq T r) : pc T (parseTableFactor r) i fun x j =>
    StartIf T x.leftOk x.pos i ∧ EndIf T x.rightOk x.end_ j := by
  unfold parseTableFactor
  refine pc_bindOf (wp_kw (fun t ht hm _ => ?_) (fun _ => ?_))
  · refine pc_skip fun b _ => ?_
    split
    · refine pc_skip fun q _ => pc_skip fun _ a => ?_
      refine pc_bind (pc_mono sq_parseOptionalAlias fun al j hal => ?_)
      refine pc_pure ⟨.of_false, ?_⟩
      rcases hal with ⟨a, k, l, rfl, rfl, h1, h2⟩ | ⟨rfl, -⟩
      · exact .of h1 (by simp [TableFactor.end_, h2])
      · exact .of_false
    · simp only [if_true]
      exact pc_skip fun _ _ => pc_err
  · refine pc_bindOf (wp_consumeToken (fun u hu _ _ => ?_) ?_)
    · simp only [if_true]
      refine pc_skip fun q _ => pc_skip fun _ a => ?_
      refine pc_bind (pc_mono sq_parseOptionalAlias fun al j hal => ?_)
      refine pc_pure ⟨.of_false, ?_⟩
      rcases hal with ⟨a, k, l, rfl, rfl, h1, h2⟩ | ⟨rfl, -⟩
      · exact .of h1 (by simp [TableFactor.end_, h2])
      · exact .of_false
    · simp only [Bool.false_eq_true, if_false]
      refine pc_bind (pc_mono (sq_parseObjectName H) fun n j0 hn => ?_)
      have hargs : pc T (do if ← consumeToken .LParen then parseOptionalArgs r else pure []) j0 fun x j =>
          x = [] → j = j0 ∨ ∃ l, T[j0]? = some l ∧ j = j0 + 1 ∧ l.dangling = true := by
        refine pc_bindOf (wp_consumeToken (fun u hu hs _ => ?_) ?_)
        · simp only [if_true]
          refine pc_mono (sq_parseOptionalArgs H) fun x j hx h => .inr ⟨u, hu, hx h, ?_⟩
          simp [Token.dangling, hs]
        · simp only [Bool.false_eq_true, if_false]
          exact pc_pure fun _ => .inl rfl
      refine pc_bind (pc_mono hargs fun args j1 h1 => ?_)
      refine pc_bind (pc_mono sq_parseOptionalAlias fun al j2 h2 => ?_)
      have hhints : pc T (do
          if ← kw .WITH then
            if ← consumeToken .LParen then do
              let h ← r.exprList
              expectToken .RParen
              pure h
            else do
              prevToken
              pure []
          else pure []) j2 fun x j => x = [] → j = j2 := by
        refine pc_bindOf (wp_kw (fun t ht hm _ => ?_) (fun _ => ?_))
        · simp only [if_true]
          refine pc_bindOf (wp_consumeToken (fun u hu hs _ => ?_) ?_)
          · simp only [if_true]
            refine pc_bind (pc_mono (H.exprList _) fun x j hx => ?_)
            exact pc_skip fun _ _ => pc_pure fun h => absurd h hx.ne
          · simp only [Bool.false_eq_true, if_false]
            refine pc_bindOf (wp_prevToken fun j hj => ?_)
            cases hj
            exact pc_pure fun _ => rfl
        · simp only [Bool.false_eq_true, if_false]
          exact pc_pure fun _ => rfl
      refine pc_bind (pc_mono hhints fun hints j3 h3 => ?_)
      refine pc_pure ⟨hn.startIf, ?_⟩
      cases hints with
      | cons a as => exact fun h => by simp [TableFactor.rightOk] at h
      | nil =>
        rw [h3 rfl]
        rcases h2 with ⟨a, k, l, rfl, rfl, h4, h5⟩ | ⟨rfl, h2⟩
        · exact .of h4 (by simp [TableFactor.end_, h5])
        · cases args with
          | cons a as => exact fun h => by simp [TableFactor.rightOk] at h
          | nil =>
            rcases h2 with rfl | ⟨t, ht, rfl, -, hd⟩
            · rcases h1 rfl with rfl | ⟨l, hl, rfl, hd⟩
              · exact hn.endIf
              · exact .dangling hl hd
            · exact .dangling ht hd

theorem sq_parseJoinSpec (H : Sq T r) : pc T (parseJoinSpec r) i fun x j => EndIf T x.rightOk x.end_ j := by
  unfold parseJoinSpec
  refine pc_bindOf (wp_kwTok (fun t ht _ _ => ?_) ?_)
  · refine pc_bind (pc_mono (H.exprs.subexpr 0 _) fun e j he => ?_)
    exact pc_pure he.endIf
  · refine pc_skip fun b _ => ?_
    split
    · exact pc_skip fun _ _ => pc_skip fun _ _ => pc_skip fun _ _ => pc_pure .of_false
    · exact pc_skip fun _ _ => pc_err

/-- The end of a join without its left side. -/
def JREnd (T : List Token) (j : Nat) : JoinRight → Prop
  | .natural _ x => EndIf T x.rightOk x.end_ j
  | .cross f => EndIf T f.rightOk f.end_ j
  | .qualified _ _ s => EndIf T s.rightOk s.end_ j

theorem sq_parseQualifiedJoin (H : Sq T r) : pc T (parseQualifiedJoin r) i fun x j =>
    (x = none ∧ j = i) ∨ ∃ y, x = some y ∧ JREnd T j y := by
  unfold parseQualifiedJoin
  refine pc_skip fun _ _ => pc_skip fun _ _ => pc_skip fun _ _ => pc_skip fun _ a => ?_
  refine pc_bind (pc_mono (sq_parseJoinSpec H) fun s j hs => ?_)
  exact pc_pure (.inr ⟨_, rfl, hs⟩)

theorem sq_tableRefRight (H : Sq T r) : pc T (parseTableReferenceRight r) i fun x j =>
    (x = none ∧ j = i) ∨ ∃ y, x = some y ∧ JREnd T j y := by
  have back : pc T (prevToken >>= fun _ => (pure none : P (Option JoinRight))) (i + 1) fun x j =>
      (x = none ∧ j = i) ∨ ∃ y, x = some y ∧ JREnd T j y := by
    refine pc_bindOf (wp_prevToken fun j hj => ?_)
    cases hj
    exact pc_pure (.inl ⟨rfl, rfl⟩)
  have qual : pc T (parseQualifiedJoin r) (i + 1) fun x j =>
      (x = none ∧ j = i) ∨ ∃ y, x = some y ∧ JREnd T j y := by
    unfold parseQualifiedJoin
    refine pc_skip fun _ _ => pc_skip fun _ _ => pc_skip fun _ _ => pc_skip fun _ a => ?_
    refine pc_bind (pc_mono (sq_parseJoinSpec H) fun s j hs => ?_)
    exact pc_pure (.inr ⟨_, rfl, hs⟩)
  unfold parseTableReferenceRight
  refine pc_bindOf (wp_consumeToken (fun u hu _ _ => ?_) ?_)
  · simp only [if_true]
    exact back
  · simp only [Bool.false_eq_true, if_false]
    refine pc_bindOf (wp_nextToken (fun u hu _ => ?_) (fun hl => ?_))
    · dsimp only
      split
      · exact back
      split
      · refine pc_skip fun _ _ => pc_skip fun _ _ => ?_
        refine pc_bind (pc_mono (H.tableRef _) fun x j hx => ?_)
        exact pc_pure (.inr ⟨_, rfl, hx.2⟩)
      · refine pc_skip fun _ _ => ?_
        refine pc_bind (pc_mono (sq_parseTableFactor H) fun x j hx => ?_)
        exact pc_pure (.inr ⟨_, rfl, hx.2⟩)
      · refine pc_skip fun _ _ => pc_skip fun _ _ => ?_
        refine pc_bind (pc_mono (sq_parseJoinSpec H) fun x j hx => ?_)
        exact pc_pure (.inr ⟨_, rfl, hx⟩)
      · exact qual
      · exact qual
      · exact qual
      · exact qual
      · exact back
    · exact pc_pure (.inl ⟨rfl, rfl⟩)

theorem sq_tableRefLoopF (H : Sq T r) {f : TableFactor} {e : TableRef} {k : Nat} (hf : StartIf T f.leftOk f.pos i)
    (he : StartIf T e.leftOk e.pos i) (hk : EndIf T e.rightOk e.end_ k) :
    pc T (tableRefLoopF r f e) k fun x j => StartIf T x.leftOk x.pos i ∧ EndIf T x.rightOk x.end_ j := by
  unfold tableRefLoopF
  refine pc_bind (pc_mono (sq_tableRefRight H) fun x j hx => ?_)
  rcases hx with ⟨rfl, rfl⟩ | ⟨y, rfl, hy⟩
  · exact pc_pure ⟨he, hk⟩
  · cases y with
    | natural tp right => exact H.tableRefLoop _ _ i j hf he hy
    | cross factor => exact H.tableRefLoop _ _ i j hf hf hy
    | qualified right tp spec => exact H.tableRefLoop _ _ i j hf he hy

theorem sq_selectListF (H : Sq T r) : pc T (selectListF r) i fun x j =>
    LastEnd T SelectItem.rightOk SelectItem.end_ x j := by
  unfold selectListF
  refine pc_bind (pc_mono (H.exprs.subexpr 0 _) fun e k he => ?_)
  have rest : ∀ (item : SelectItem) (k : Nat), (k = T.length ∨ EndIf T item.rightOk item.end_ k) →
      pc T (do
        let t ← mustPeek
        if t.isSym .Comma then do
          let _ ← mustNext
          let items ← r.selectList
          pure (item :: items)
        else pure [item]) k fun x j => LastEnd T SelectItem.rightOk SelectItem.end_ x j := by
    intro item k hk
    refine pc_bindOf (wp_mustPeek fun t ht hl => ?_)
    split
    · refine pc_skip fun _ _ => pc_bind (pc_mono (H.selectList _) fun x j hx => ?_)
      exact pc_pure hx.cons
    · refine pc_pure (.single ?_)
      rcases hk with rfl | hk
      · omega
      · exact hk
  refine pc_bind ?_
  split
  · exact pc_pure (rest _ _ (.inr .of_false))
  · refine pc_bind (pc_mono sq_parseOptionalAlias fun al j hal => ?_)
    rcases hal with ⟨a, k, l, rfl, rfl, h1, h2⟩ | ⟨rfl, rfl | ⟨t, ht, h1, h2, hd⟩⟩
    · exact pc_pure (rest _ _ (.inr (.of h1 (by simp [SelectItem.end_, h2]))))
    · exact pc_pure (rest _ _ (.inr he.endIf))
    · exact pc_pure (rest _ _ (.inl h2))

/-- An optional part at the end: `x = none` and nothing is read, or `Q`. -/
theorem pc_optExpr (H : Sq T r) {k : KW} : pc T (do
    if ← kw k then do
      let e ← parseExpr r
      pure (some e)
    else pure none) i fun x j => (x = none ∧ j = i) ∨ ∃ e, x = some e ∧ EndIf T e.rightOk e.end_ j := by
  refine pc_bindOf (wp_kw (fun t ht hm _ => ?_) (fun _ => ?_))
  · simp only [if_true]
    refine pc_bind (pc_mono (H.exprs.subexpr 0 _) fun e j he => ?_)
    exact pc_pure (.inr ⟨e, rfl, he.endIf⟩)
  · simp only [Bool.false_eq_true, if_false]
    exact pc_pure (.inl ⟨rfl, rfl⟩)

theorem sq_parseFromClause (H : Sq T r) : pc T (parseFromClause r) i fun x j =>
    LastEnd T TableRef.rightOk TableRef.end_ x j := by
  unfold parseFromClause
  refine pc_bind (pc_mono (H.tableRef _) fun t k ht => ?_)
  refine pc_bind (pc_mono (H.fromRest _) fun ts j hts => ?_)
  refine pc_pure ?_
  rcases hts with ⟨rfl, rfl⟩ | h
  · exact .single ht.2
  · exact h.cons

theorem sq_parseSelect (H : Sq T r) {t : Token} {k : Nat} (ht : T[i]? = some t) :
    pc T (parseSelect r t.from_) k fun x j => StartIf T x.leftOk x.pos i ∧ EndIf T x.rightOk x.end_ j := by
  unfold parseSelect
  refine pc_skip fun d _ => ?_
  refine pc_bind (pc_mono (H.selectList _) fun proj j1 h1 => ?_)
  have hfrom : pc T (do if ← kw .FROM then parseFromClause r else pure []) j1 fun x j =>
      (x = [] ∧ j = j1) ∨ LastEnd T TableRef.rightOk TableRef.end_ x j := by
    refine pc_bindOf (wp_kw (fun t ht hm _ => ?_) (fun _ => ?_))
    · simp only [if_true]
      exact pc_mono (sq_parseFromClause H) fun x j hx => .inr hx
    · simp only [Bool.false_eq_true, if_false]
      exact pc_pure (.inl ⟨rfl, rfl⟩)
  refine pc_bind (pc_mono hfrom fun fr j2 h2 => ?_)
  refine pc_bind (pc_mono (pc_optExpr H) fun wh j3 h3 => ?_)
  have hgroup : pc T (do
      match ← parseKeywords [.GROUP, .BY] with
      | some _ => r.exprList
      | none => pure []) j3 fun x j => (x = [] ∧ j = j3) ∨ LastEnd T Expr.rightOk Expr.end_ x j := by
    refine pc_bindOf (wp_parseKeywords (fun ts j _ _ => ?_) ?_)
    · exact pc_mono (H.exprList _) fun x j hx => .inr hx
    · exact pc_pure (.inl ⟨rfl, rfl⟩)
  refine pc_bind (pc_mono hgroup fun gb j4 h4 => ?_)
  refine pc_bind (pc_mono (pc_optExpr H) fun hv j5 h5 => ?_)
  refine pc_pure ⟨.of ht rfl, ?_⟩
  rcases h5 with ⟨rfl, rfl⟩ | ⟨e, rfl, h5⟩
  · rcases h4 with ⟨rfl, rfl⟩ | ⟨a, h4, h5⟩
    · rcases h3 with ⟨rfl, rfl⟩ | ⟨e, rfl, h3⟩
      · rcases h2 with ⟨rfl, rfl⟩ | ⟨a, h2, h3⟩
        · obtain ⟨a, h1, h2⟩ := h1
          simpa [SetExpr.rightOk, SQLSelect.rightOk, SetExpr.end_, SQLSelect.end_, h1] using h2
        · simpa [SetExpr.rightOk, SQLSelect.rightOk, SetExpr.end_, SQLSelect.end_, h2] using h3
      · simpa [SetExpr.rightOk, SQLSelect.rightOk, SetExpr.end_, SQLSelect.end_] using h3
    · simpa [SetExpr.rightOk, SQLSelect.rightOk, SetExpr.end_, SQLSelect.end_, h4] using h5
  · simpa [SetExpr.rightOk, SQLSelect.rightOk, SetExpr.end_, SQLSelect.end_] using h5

theorem sq_queryBodyF (H : Sq T r) {p : Nat} : pc T (queryBodyF r p) i fun x j =>
    StartIf T x.leftOk x.pos i ∧ EndIf T x.rightOk x.end_ j := by
  unfold queryBodyF
  refine pc_bindOf (wp_kwTok (fun t ht _ _ => ?_) ?_)
  · refine pc_bind (pc_mono (sq_parseSelect H ht) fun s j hs => ?_)
    exact H.bodyLoop p s i j hs.1 hs.2
  · refine pc_skip fun b _ => ?_
    split
    · exact pc_skip fun q _ => pc_skip fun _ j => H.bodyLoop p _ i j .of_false .of_false
    · exact pc_panic

theorem sq_bodyLoopF (H : Sq T r) {p : Nat} {e : SetExpr} {k : Nat} (he : StartIf T e.leftOk e.pos i)
    (hk : EndIf T e.rightOk e.end_ k) : pc T (bodyLoopF r p e) k fun x j =>
      StartIf T x.leftOk x.pos i ∧ EndIf T x.rightOk x.end_ j := by
  unfold bodyLoopF
  have key : ∀ o : Option (SetOp × Nat), pc T (match o with
    | none => pure e
    | some (op, np) =>
      if p ≥ np then pure e
      else do
        let _ ← mustNext
        let all ← kw .ALL
        let right ← r.queryBody np
        r.bodyLoop p (.setOp op all e right)) k fun x j =>
      StartIf T x.leftOk x.pos i ∧ EndIf T x.rightOk x.end_ j := by
    intro o
    split
    · exact pc_pure ⟨he, hk⟩
    · split
      · exact pc_pure ⟨he, hk⟩
      · refine pc_skip fun _ _ => pc_skip fun _ _ => pc_bind (pc_mono (H.queryBody _ _) fun x j hx => ?_)
        exact H.bodyLoop p _ i j he hx.2
  exact pc_bindOf (wp_peekToken (fun t _ _ => key _) (fun _ => pc_pure ⟨he, hk⟩))

theorem sq_parseLiteralInt : pc T parseLiteralInt i fun x j => T[i]? = some x.2 ∧ j = i + 1 := by
  unfold parseLiteralInt
  refine pc_bindOf (wp_mustNext fun t ht _ => ?_)
  split
  · split
    · exact pc_pure ⟨ht, rfl⟩
    · exact pc_err
  · exact pc_err

theorem sq_parseLimit : pc T parseLimit i fun x j => EndIf T x.rightOk (some x.end_) j := by
  unfold parseLimit
  refine pc_skip fun b a => ?_
  split
  · exact pc_pure .of_false
  · refine pc_bind (pc_mono sq_parseLiteralInt fun x j hx => ?_)
    obtain ⟨n, t⟩ := x
    obtain ⟨h1, rfl⟩ := hx
    dsimp only at h1 ⊢
    refine pc_bind (pc_bindOf (wp_kwTok (fun ot _ _ _ => ?_) ?_))
    · refine pc_skip fun y _ => ?_
      exact pc_pure (pc_pure .of_false)
    · exact pc_pure (pc_pure (.of h1 rfl))

theorem sq_queryF (H : Sq T r) : pc T (queryF r) i fun x j =>
    StartIf T x.leftOk x.pos i ∧ EndIf T x.rightOk x.end_ j := by
  unfold queryF
  have hc : pc T (do if ← kw .WITH then r.cteList else pure []) i fun x j => x ≠ [] ∨ j = i := by
    refine pc_bindOf (wp_kw (fun t ht hm _ => ?_) (fun _ => ?_))
    · simp only [if_true]
      exact pc_mono (H.cteList _) fun x j hx => .inl hx
    · simp only [Bool.false_eq_true, if_false]
      exact pc_pure (.inr rfl)
  refine pc_bind (pc_mono hc fun ctes j0 h0 => ?_)
  refine pc_bind (pc_mono (H.queryBody _ _) fun body j1 h1 => ?_)
  have ho : pc T (do
      match ← parseKeywords [.ORDER, .BY] with
      | some _ => r.orderByList
      | none => pure []) j1 fun x j =>
        (x = [] ∧ j = j1) ∨ LastEnd T OrderByExpr.rightOk OrderByExpr.end_ x j := by
    refine pc_bindOf (wp_parseKeywords (fun ts j _ _ => ?_) ?_)
    · exact pc_mono (H.orderByList _) fun x j hx => .inr hx
    · exact pc_pure (.inl ⟨rfl, rfl⟩)
  refine pc_bind (pc_mono ho fun ob j2 h2 => ?_)
  have hl : pc T (do
      if ← kw .LIMIT then do
        let l ← parseLimit
        pure (some l)
      else pure none) j2 fun x j =>
        (x = none ∧ j = j2) ∨ ∃ l : LimitExpr, x = some l ∧ EndIf T l.rightOk (some l.end_) j := by
    refine pc_bindOf (wp_kw (fun t ht hm _ => ?_) (fun _ => ?_))
    · simp only [if_true]
      exact pc_bind (pc_mono sq_parseLimit fun l j hl => pc_pure (.inr ⟨l, rfl, hl⟩))
    · simp only [Bool.false_eq_true, if_false]
      exact pc_pure (.inl ⟨rfl, rfl⟩)
  refine pc_bind (pc_mono hl fun l j3 h3 => ?_)
  refine pc_pure ⟨?_, ?_⟩
  · cases ctes with
    | nil =>
      rcases h0 with h0 | rfl
      · exact absurd rfl h0
      · simpa [QueryStmt.leftOk, QueryStmt.pos] using h1.1
    | cons c cs => exact .of_false (by simp [QueryStmt.pos])
  · rcases h3 with ⟨rfl, rfl⟩ | ⟨l, rfl, h3⟩
    · rcases h2 with ⟨rfl, rfl⟩ | ⟨a, h2, h3⟩
      · simpa [QueryStmt.rightOk, QueryStmt.end_] using h1.2
      · simpa [QueryStmt.rightOk, QueryStmt.end_, h2] using h3
    · simpa [QueryStmt.rightOk, QueryStmt.end_] using h3

theorem sq_defaultLoopF (H : Sq T r) {e : Expr} {k : Nat} (he : Spanned T e i k) :
    pc T (defaultLoopF r e) k fun e' j => Spanned T e' i j := by
  unfold defaultLoopF
  have key : ∀ stop : Bool, pc T (if stop then pure e
      else do
        let np ← getNextPrecedence
        if 0 ≥ np then pure e
        else do
          let e ← parseInfix r e np
          r.defaultLoop e) k fun e' j => Spanned T e' i j := by
    intro stop
    have next : ∀ np, pc T (if 0 ≥ np then pure e
        else do
          let e ← parseInfix r e np
          r.defaultLoop e) k fun e' j => Spanned T e' i j := by
      intro np
      split
      · exact pc_pure he
      · exact pc_bind (pc_mono (sp_parseInfix H.exprs _ he) fun e' j he' => H.defaultLoop e' i j he')
    split
    · exact pc_pure he
    · unfold getNextPrecedence
      exact pc_bind (pc_bindOf (wp_peekToken (fun t _ _ => pc_pure (next _)) (fun _ => pc_pure (next _))))
  exact pc_bindOf (wp_peekToken (fun t _ _ => key _) (fun _ => key _))

theorem sq_parseDefaultExpr (H : Sq T r) : pc T (parseDefaultExpr r) i fun e' j => Spanned T e' i j := by
  unfold parseDefaultExpr
  exact pc_bind (pc_mono (H.exprs.prefix_ i) fun e k he => H.defaultLoop e i k he)

theorem sq_tableConstraintSpec {t : Token} : pc T (parseTableConstraintSpec r t) i fun x j =>
    EndIf T true (some x.end_) j := by
  unfold parseTableConstraintSpec
  split
  · exact pc_panic
  split
  · refine pc_skip fun _ _ => pc_skip fun x _ => ?_
    split
    · exact pc_err
    · refine pc_skip fun _ _ => pc_skip fun _ _ => pc_bindOf (wp_nextSym fun rp hr _ _ => ?_)
      exact pc_pure (.of hr rfl)
  · refine pc_skip fun _ _ => pc_skip fun _ _ => pc_skip fun _ _ => pc_skip fun _ _ => ?_
    refine pc_bindOf (wp_nextSym fun rp hr _ _ => ?_)
    exact pc_pure (.of hr rfl)
  · refine pc_skip fun _ _ => pc_skip fun _ _ => pc_skip fun _ _ => pc_skip fun _ _ => pc_skip fun _ _ => ?_
    refine pc_skip fun _ _ => pc_skip fun n _ => ?_
    split
    · exact pc_panic
    · refine pc_skip fun _ _ => pc_skip fun _ _ => pc_bindOf (wp_nextSym fun rp hr _ _ => ?_)
      exact pc_pure (.of hr rfl)
  · refine pc_skip fun _ _ => pc_skip fun _ _ => pc_skip fun _ _ => ?_
    refine pc_bindOf (wp_nextSym fun rp hr _ _ => ?_)
    exact pc_pure (.of hr rfl)
  · exact pc_err

theorem sq_parseTableConstraints : pc T (parseTableConstraints r) i fun x j => EndIf T true (some x.end_) j := by
  unfold parseTableConstraints
  refine pc_skip fun x _ => ?_
  split
  · exact pc_err
  split
  · exact pc_err
  split
  · refine pc_skip fun _ _ => pc_skip fun _ _ => pc_skip fun _ _ => ?_
    exact pc_bind (pc_mono sq_tableConstraintSpec fun s j hs => pc_pure hs)
  · refine pc_skip fun _ _ => ?_
    exact pc_bind (pc_mono sq_tableConstraintSpec fun s j hs => pc_pure hs)

theorem sq_parseAlterColumn (H : Sq T r) {a : Token} : pc T (parseAlterColumn r a) i fun x j =>
    EndIf T x.rightOk x.end_ j := by
  unfold parseAlterColumn
  refine pc_skip fun name _ => pc_skip fun t k => ?_
  split
  · exact pc_err
  split
  · refine pc_bindOf (wp_kw (fun t ht hm _ => ?_) (fun _ => ?_))
    · simp only [if_true]
      exact pc_bind (pc_mono (sq_parseDefaultExpr H) fun e j he => pc_pure he.endIf)
    · simp only [Bool.false_eq_true, if_false]
      refine pc_bindOf (wp_kwsToks (fun ts h => ?_) ?_)
      · exact pc_pure (.of (h 1 (by decide)) rfl)
      · exact pc_err
  · refine pc_bindOf (wp_kwTok (fun t ht hm _ => ?_) ?_)
    · exact pc_pure (.of ht rfl)
    · refine pc_bindOf (wp_kwsToks (fun ts h => ?_) ?_)
      · exact pc_pure (.of (h 1 (by decide)) rfl)
      · exact pc_err
  · exact pc_bind (pc_mono (sq_parseDataType H) fun d j hd => pc_pure hd.2)
  · exact pc_err

/-- A name and an optional CASCADE. -/
theorem sq_nameCascade {f : Ident → Bool × Pos → AlterTableAction} (h1 : ∀ n p, (f n (false, p)).end_ = some n.to_)
    (h2 : ∀ n p, (f n (true, p)).end_ = some p) :
    pc T (do
      let name ← parseIdentifier
      let x ← parseCascade
      pure (f name x)) i fun x j => EndIf T x.rightOk x.end_ j := by
  refine pc_bind (pc_mono sq_parseIdentifier fun n j hn => ?_)
  obtain ⟨t, ht, rfl, -, h3⟩ := hn
  refine pc_bind (pc_mono sq_parseCascade fun x j hx => ?_)
  obtain ⟨c, p⟩ := x
  refine pc_pure ?_
  rcases hx with ⟨h4, rfl⟩ | ⟨h4, k, l, rfl, h6, h7⟩
  · dsimp only at h4; subst h4
    exact .of ht (by rw [h1, h3])
  · dsimp only at h4 h7; subst h4 h7
    exact .of h6 (h2 _ _)

theorem sq_parseAlterAction (H : Sq T r) : pc T (parseAlterAction r) i fun x j => EndIf T x.rightOk x.end_ j := by
  unfold parseAlterAction
  refine pc_skip fun x _ => ?_
  split
  · exact pc_skip fun _ _ => pc_pure .of_false
  refine pc_skip fun x _ => ?_
  split
  · exact pc_bind (pc_mono sq_parseTableConstraints fun c j hc => pc_pure fun _ => hc rfl)
  refine pc_skip fun x _ => ?_
  split
  · exact sq_nameCascade (f := fun n x => .dropConstraint n _ x.1 x.2) (fun _ _ => rfl) (fun _ _ => rfl)
  refine pc_skip fun x _ => ?_
  split
  · exact sq_nameCascade (f := fun n x => .removeColumn n x.1 x.2 _) (fun _ _ => rfl) (fun _ _ => rfl)
  refine pc_skip fun x _ => ?_
  split
  · exact sq_parseAlterColumn H
  · exact pc_err

theorem sq_parseAlter (H : Sq T r) : pc T (parseAlter r) i fun x j =>
    StartIf T x.leftOk x.pos i ∧ EndIf T x.rightOk x.end_ j := by
  unfold parseAlter
  refine pc_bindOf (wp_kwOrErr fun t ht _ _ => ?_)
  refine pc_skip fun _ _ => pc_skip fun _ _ => pc_bind (pc_mono (sq_parseAlterAction H) fun a j ha => ?_)
  exact pc_pure ⟨.of ht rfl, ha⟩

theorem sq_parseDrop (H : Sq T r) : pc T (parseDrop r) i fun x j =>
    StartIf T x.leftOk x.pos i ∧ EndIf T x.rightOk x.end_ j := by
  unfold parseDrop
  refine pc_bindOf (wp_kwOrErr fun t ht _ _ => ?_)
  refine pc_skip fun b _ => ?_
  split
  · refine pc_skip fun ex _ => pc_bind (pc_mono (sq_parseObjectName H) fun n j hn => ?_)
    refine pc_bind (pc_mono sq_parseCascade fun x j hx => ?_)
    obtain ⟨c, p⟩ := x
    refine pc_pure ⟨.of ht rfl, ?_⟩
    rcases hx with ⟨h4, rfl⟩ | ⟨h4, k, l, rfl, h6, h7⟩
    · dsimp only at h4; subst h4
      exact hn.endIf
    · dsimp only at h4 h7; subst h4 h7
      exact .of h6 rfl
  · refine pc_skip fun _ _ => pc_bind (pc_mono (sq_parseListOfIds H _) fun n j hn => ?_)
    exact pc_pure ⟨.of ht rfl, hn.endIf⟩

theorem sq_parseDelete (H : Sq T r) : pc T (parseDelete r) i fun x j =>
    StartIf T x.leftOk x.pos i ∧ EndIf T x.rightOk x.end_ j := by
  unfold parseDelete
  refine pc_bindOf (wp_kwOrErr fun t ht _ _ => ?_)
  refine pc_skip fun _ _ => pc_bind (pc_mono (sq_parseObjectName H) fun n j hn => ?_)
  refine pc_bind (pc_mono (pc_optExpr H) fun s j hs => ?_)
  refine pc_pure ⟨.of ht rfl, ?_⟩
  rcases hs with ⟨rfl, rfl⟩ | ⟨e, rfl, hs⟩
  · exact hn.endIf
  · exact hs

theorem sq_parseUpdate (H : Sq T r) : pc T (parseUpdate r) i fun x j =>
    StartIf T x.leftOk x.pos i ∧ EndIf T x.rightOk x.end_ j := by
  unfold parseUpdate
  refine pc_bindOf (wp_kwOrErr fun t ht _ _ => ?_)
  refine pc_skip fun _ _ => pc_skip fun _ _ => pc_bind (pc_mono (H.assignments _) fun as j has => ?_)
  refine pc_bind (pc_mono (pc_optExpr H) fun s j hs => ?_)
  refine pc_pure ⟨.of ht rfl, ?_⟩
  rcases hs with ⟨rfl, rfl⟩ | ⟨e, rfl, hs⟩
  · obtain ⟨a, h1, h2⟩ := has
    simpa [Stmt.rightOk, Stmt.end_, h1] using h2
  · simpa [Stmt.rightOk, Stmt.end_] using hs

theorem sq_parseInsert (H : Sq T r) : pc T (parseInsert r) i fun x j =>
    StartIf T x.leftOk x.pos i ∧ EndIf T x.rightOk x.end_ j := by
  unfold parseInsert
  refine pc_bindOf (wp_kwOrErr fun t ht _ _ => ?_)
  refine pc_skip fun _ _ => pc_skip fun _ _ => pc_skip fun _ _ => ?_
  have hsrc : ∀ i, pc T (do
      if ← kw .VALUES then do
        let rows ← r.rows
        pure (InsertSource.constructor Pos.zero rows)
      else do
        let q ← r.query
        pure (.subQuery q)) i fun x j => EndIf T x.rightOk x.end_ j := by
    intro i
    refine pc_bindOf (wp_kw (fun t ht hm _ => ?_) (fun _ => ?_))
    · simp only [if_true]
      refine pc_bind (pc_mono (H.rows _) fun x j hx => pc_pure ?_)
      obtain ⟨a, h1, h2⟩ := hx
      simpa [InsertSource.rightOk, InsertSource.end_, h1] using h2
    · simp only [Bool.false_eq_true, if_false]
      exact pc_bind (pc_mono (H.query _) fun x j hx => pc_pure hx.2)
  refine pc_bind (pc_mono (hsrc _) fun src j0 h0 => ?_)
  have ha : pc T (do
      match ← parseKeywords [.ON, .DUPLICATE, .KEY, .UPDATE] with
      | some _ => r.assignments
      | none => pure []) j0 fun x j =>
        (x = [] ∧ j = j0) ∨ LastEnd T (fun a : Assignment => a.value.rightOk) Assignment.end_ x j := by
    refine pc_bindOf (wp_parseKeywords (fun ts j _ _ => ?_) ?_)
    · exact pc_mono (H.assignments _) fun x j hx => .inr hx
    · exact pc_pure (.inl ⟨rfl, rfl⟩)
  refine pc_bind (pc_mono ha fun as j1 h1 => ?_)
  refine pc_pure ⟨.of ht rfl, ?_⟩
  rcases h1 with ⟨rfl, rfl⟩ | ⟨a, h1, h2⟩
  · simpa [Stmt.rightOk, Stmt.end_] using h0
  · simpa [Stmt.rightOk, Stmt.end_, h1] using h2

theorem sq_parseCreateIndex (H : Sq T r) {u : Bool} {k : Nat} : pc T (parseCreateIndex r u) k fun x j =>
    StartIf T x.leftOk x.pos i ∧ EndIf T x.rightOk x.end_ j := by
  unfold parseCreateIndex
  refine pc_skip fun _ _ => pc_skip fun _ _ => pc_skip fun _ _ => pc_skip fun _ _ => ?_
  refine pc_bind (pc_mono (pc_optExpr H) fun s j hs => ?_)
  refine pc_pure ⟨.of_false, ?_⟩
  rcases hs with ⟨rfl, rfl⟩ | ⟨e, rfl, hs⟩
  · exact .of_false
  · exact hs

theorem sq_parseCreate (H : Sq T r) : pc T (parseCreate r) i fun x j =>
    StartIf T x.leftOk x.pos i ∧ EndIf T x.rightOk x.end_ j := by
  unfold parseCreate
  refine pc_bindOf (wp_kwOrErr fun t ht _ _ => ?_)
  refine pc_skip fun b _ => ?_
  split
  · unfold parseCreateTable
    refine pc_skip fun _ _ => pc_skip fun _ _ => pc_skip fun _ _ => pc_skip fun _ _ => ?_
    exact pc_pure ⟨.of ht rfl, .of_false⟩
  · refine pc_skip fun m _ => pc_skip fun v _ => ?_
    split
    · refine pc_skip fun _ _ => ?_
      unfold parseCreateView
      refine pc_skip fun _ _ => pc_skip fun _ _ => pc_skip fun _ _ => pc_skip fun _ _ => ?_
      exact pc_bind (pc_mono (H.query _) fun q j hq => pc_pure ⟨.of ht rfl, hq.2⟩)
    · refine pc_skip fun _ _ => pc_skip fun _ _ => ?_
      split
      · exact sq_parseCreateIndex H
      · exact pc_panic

theorem sq_statementF (H : Sq T r) : pc T (statementF r) i fun x j =>
    StartIf T x.leftOk x.pos i ∧ EndIf T x.rightOk x.end_ j := by
  unfold statementF
  refine pc_bindOf (wp_nextOrErr fun t ht _ => ?_)
  have back : ∀ {p : P Stmt}, pc T p i (fun x j => StartIf T x.leftOk x.pos i ∧ EndIf T x.rightOk x.end_ j) →
      pc T (prevToken >>= fun _ => p) (i + 1) fun x j => StartIf T x.leftOk x.pos i ∧ EndIf T x.rightOk x.end_ j := by
    intro p hp
    exact pc_bindOf (wp_prevToken fun j hj => by cases hj; exact hp)
  have hq : pc T (statementF.parseQueryStmt r) (i + 1) fun x j =>
      StartIf T x.leftOk x.pos i ∧ EndIf T x.rightOk x.end_ j :=
    back (pc_bind (pc_mono (H.query _) fun q j hq => pc_pure hq))
  split
  · exact pc_err
  split
  · exact hq
  · exact hq
  · exact back (sq_parseCreate H)
  · exact back (sq_parseDelete H)
  · exact back (sq_parseInsert H)
  · exact back (sq_parseAlter H)
  · exact back (sq_parseUpdate H)
  · exact back (sq_parseDrop H)
  · exact pc_bind (pc_mono (H.statement _) fun s j hs => pc_pure ⟨.of_false, hs.2⟩)
  · exact pc_err

theorem sq_step (fns : FloatFns) (hs : StarsOk T) (H : Sq T r) : Sq T (.step fns r) where
  exprs := sp_step fns hs H.exprs
  listOfIds := by
    intro s i
    show pc T (listOfIdsF r s) i _
    unfold listOfIdsF
    refine pc_bindOf (wp_nextToken (fun t ht _ => ?_) (fun _ => pc_pure (by simp)))
    dsimp only
    split
    · refine pc_bind (pc_mono (H.listOfIdsSep s _) fun x j hx => pc_pure fun l hl => ?_)
      rw [Option.map_eq_some_iff] at hl
      obtain ⟨l', rfl, rfl⟩ := hl
      refine ⟨⟨t, ht, rfl⟩, ?_⟩
      rcases hx l' rfl with ⟨rfl, rfl⟩ | ⟨h1, k, u, rfl, h2, h3⟩
      · exact ⟨i, t, rfl, ht, rfl⟩
      · refine ⟨k, u, rfl, h2, ?_⟩
        cases l' with
        | nil => exact absurd rfl h1
        | cons a as => simpa [identsEnd, List.getLast?_cons_cons] using h3
    · exact pc_skip fun _ _ => pc_pure (by simp)
  listOfIdsSep := by
    intro s i
    show pc T (listOfIdsSepF r s) i _
    unfold listOfIdsSepF
    refine pc_bindOf (wp_nextToken (fun t ht _ => ?_) (fun _ => pc_pure ?_))
    · dsimp only
      split
      · refine pc_mono (H.listOfIds s _) fun x j hx l hl => .inr ?_
        obtain ⟨⟨f, -, h1⟩, h2⟩ := hx l hl
        refine ⟨?_, h2⟩
        rintro rfl; cases h1
      · refine pc_bindOf (wp_prevToken fun j hj => ?_)
        cases hj
        exact pc_pure fun l hl => .inl ⟨by simpa using hl.symm, rfl⟩
    · intro l hl
      exact .inl ⟨by simpa using hl.symm, rfl⟩
  exprList := by
    intro i
    show pc T (exprListF r) i _
    unfold exprListF
    refine pc_bind (pc_mono (H.exprs.subexpr 0 _) fun e k he => ?_)
    refine pc_bindOf (wp_peekToken (fun t _ _ => ?_) (fun _ => pc_pure (.single he.endIf)))
    dsimp only
    split
    · exact pc_skip fun _ _ => pc_bind (pc_mono (H.exprList _) fun x j hx => pc_pure hx.cons)
    · exact pc_pure (.single he.endIf)
  orderByList := by
    intro i
    show pc T (orderByListF r) i _
    unfold orderByListF
    refine pc_bind (pc_mono (H.exprs.subexpr 0 _) fun e k he => ?_)
    have hasc : pc T (do
        if ← kw .ASC then pure (some true)
        else if ← kw .DESC then pure (some false)
        else pure none) k fun x j => x.isSome = true ∨ (x = none ∧ j = k) := by
      refine pc_bindOf (wp_kw (fun t ht hm _ => ?_) (fun _ => ?_))
      · exact pc_pure (.inl rfl)
      · refine pc_bindOf (wp_kw (fun t ht hm _ => ?_) (fun _ => ?_))
        · exact pc_pure (.inl rfl)
        · exact pc_pure (.inr ⟨rfl, rfl⟩)
    refine pc_bind (pc_mono hasc fun asc j hasc => ?_)
    have hend : LastEnd T OrderByExpr.rightOk OrderByExpr.end_ [.mk e Pos.zero asc] j := by
      refine .single ?_
      rcases hasc with h | ⟨rfl, rfl⟩
      · intro hr
        cases asc with
        | none => cases h
        | some b => simp [OrderByExpr.rightOk] at hr
      · simpa [OrderByExpr.rightOk, OrderByExpr.end_] using he.endIf
    refine pc_bindOf (wp_peekToken (fun t _ _ => ?_) (fun _ => pc_pure hend))
    dsimp only
    split
    · exact pc_skip fun _ _ => pc_bind (pc_mono (H.orderByList _) fun x j hx => pc_pure hx.cons)
    · exact pc_pure hend
  cteList := by
    intro i
    show pc T (cteListF r) i _
    unfold cteListF
    refine pc_skip fun _ _ => pc_skip fun _ _ => pc_skip fun _ _ => pc_skip fun _ _ => pc_skip fun _ _ => ?_
    refine pc_skip fun b _ => ?_
    split
    · exact pc_skip fun _ _ => pc_pure (by simp)
    · exact pc_pure (by simp)
  selectList := fun i => sq_selectListF H
  tableRef := by
    intro i
    show pc T (tableRefF r) i _
    unfold tableRefF
    exact pc_bind (pc_mono (sq_parseTableFactor H) fun f k hf => H.tableRefLoop f _ i k hf.1 hf.1 hf.2)
  tableRefLoop := fun f e i k hf he hk => sq_tableRefLoopF H hf he hk
  fromRest := by
    intro i
    show pc T (fromRestF r) i _
    unfold fromRestF
    refine pc_bindOf (wp_consumeToken (fun u hu _ _ => ?_) ?_)
    · exact pc_mono (sq_parseFromClause H) fun x j hx => .inr hx
    · exact pc_pure (.inl ⟨rfl, rfl⟩)
  query := fun i => sq_queryF H
  queryBody := fun p i => sq_queryBodyF H
  bodyLoop := fun p e i k he hk => sq_bodyLoopF H he hk
  assignments := by
    intro i
    show pc T (assignmentsF r) i _
    unfold assignmentsF
    refine pc_skip fun t _ => ?_
    split
    · exact pc_err
    · refine pc_skip fun _ _ => pc_bind (pc_mono (H.exprs.subexpr 0 _) fun e k he => ?_)
      refine pc_bindOf (wp_consumeToken (fun u hu _ _ => ?_) ?_)
      · exact pc_bind (pc_mono (H.assignments _) fun x j hx => pc_pure hx.cons)
      · exact pc_pure (.single he.endIf)
  rows := by
    intro i
    show pc T (rowsF r) i _
    unfold rowsF
    refine pc_skip fun _ _ => pc_skip fun _ _ => pc_bindOf (wp_nextSym fun rp hr _ _ => ?_)
    refine pc_bindOf (wp_consumeToken (fun u hu _ _ => ?_) ?_)
    · exact pc_bind (pc_mono (H.rows _) fun x j hx => pc_pure hx.cons)
    · exact pc_pure (.single (.of hr rfl))
  defaultLoop := fun e i k he => sq_defaultLoopF H he
  statement := fun i => sq_statementF H

theorem sq_at (fns : FloatFns) (hs : StarsOk T) : ∀ n, Sq T (Parsers.at fns n)
  | 0 => by
    refine ⟨sp_at fns hs 0, ?_, ?_, ?_, ?_, ?_, ?_, ?_, ?_, ?_, ?_, ?_, ?_, ?_, ?_, ?_, ?_⟩ <;>
      intros <;> intro x j hx <;> cases hx
  | n + 1 => sq_step fns hs (sq_at fns hs n)

end Verif
