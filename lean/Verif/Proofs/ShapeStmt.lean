import Verif.Proofs.ShapeQuery
/-
The statements that the parser returns have the shape of Spec/Shape.lean.
-/
set_option linter.unusedSimpArgs false
set_option linter.unusedVariables false
namespace Verif

variable {T : List Token} {I : Str → Bool} {α β : Type} {i j k : Nat} {r : Parsers}

theorem sh_getNextPrecedence : pc T getNextPrecedence i fun x j => x = nx T i ∧ j = i := by
  unfold getNextPrecedence
  refine pc_bindOf (wp_peekToken (fun t ht _ => ?_) fun hl => ?_)
  · exact pc_pure ⟨by simp [nx, ht], rfl⟩
  · exact pc_pure ⟨by simp [nx, List.getElem?_eq_none hl], rfl⟩

theorem sh_defaultLoopF (hk : KwOK T) (hw : WordsOK T I) (H : Sh T I r) {e : Expr} (h : ExAt T I i e k)
    (hd : e.defaultOK = true) :
    pc T (defaultLoopF r e) k fun e' j => e'.shape I = true ∧ e'.defaultOK = true := by
  have key : (∀ t, T[k]? = some t → t.kw? ≠ some .NOT) → pc T (do
      let np ← getNextPrecedence
      if 0 ≥ np then pure e
      else do
        let e ← parseInfix r e np
        r.defaultLoop e) k fun e' j => e'.shape I = true ∧ e'.defaultOK = true := by
    intro hn
    refine pc_seq sh_getNextPrecedence fun np j hnp => ?_
    obtain ⟨rfl, rfl⟩ := hnp
    refine pc_ite (fun _ => pc_pure ⟨h.shape, hd⟩) fun _ => ?_
    refine pc_seq (sh_parseInfix hk hw H h (b := false) fun _ => hn) fun e' j he' => ?_
    exact H.defaultLoop e' i j he'.at_ (he'.default_ rfl hd)
  unfold defaultLoopF
  refine pc_bindOf (wp_peekToken (fun t ht _ => ?_) fun hl => ?_)
  · refine pc_ite (fun _ => pc_pure ⟨h.shape, hd⟩) fun hs => key fun t' ht' => ?_
    rw [ht] at ht'; cases ht'
    intro hkw
    simp [hkw] at hs
  · refine pc_ite (fun _ => pc_pure ⟨h.shape, hd⟩) fun hs => key fun t' ht' => ?_
    rw [List.getElem?_eq_none hl] at ht'; cases ht'

theorem sh_defaultExpr (H : Sh T I r) : pc T (parseDefaultExpr r) i fun e j => e.shape I = true ∧ e.defaultOK = true := by
  unfold parseDefaultExpr
  exact pc_seq (H.prefix_ _) fun e j he => H.defaultLoop e i j he.1 (isPrefix_defaultOK he.2)

theorem sh_columnSpec (H : Sh T I r) {t : Token} :
    pc T (parseColumnSpec r t) i fun x j => ∀ s, x = some s → s.shape I = true := by
  unfold parseColumnSpec
  split
  · exact pc_skip fun _ _ => pc_skip fun _ _ => pc_pure (by rintro _ ⟨⟩; rfl)
  · exact pc_skip fun _ _ => pc_pure (by rintro _ ⟨⟩; rfl)
  · exact pc_skip fun _ _ => pc_skip fun _ _ => pc_pure (by rintro _ ⟨⟩; rfl)
  · refine pc_skip fun _ _ => pc_seq (sh_parseObjectName H) fun o _ ho => pc_skip fun _ _ => ?_
    refine pc_seq (sh_parseColumnNames H) fun c _ hc => pc_skip fun _ _ => pc_pure ?_
    rintro _ ⟨⟩
    simp [ColumnSpec.shape, ho, hc]
  · refine pc_skip fun _ _ => pc_skip fun _ _ => pc_seq (H.subexpr 0 _ (by omega)) fun e _ he => pc_skip fun _ _ => ?_
    exact pc_pure (by rintro _ ⟨⟩; exact he.1.shape)
  · exact pc_pure (by simp)

theorem sh_columnConstraintsF (hw : WordsOK T I) (H : Sh T I r) :
    pc T (columnConstraintsF r) i fun cs j => ∀ c ∈ cs, c.shape I = true := by
  unfold columnConstraintsF
  refine pc_skip fun o a => ?_
  split
  · exact pc_pure (by simp)
  · rename_i t
    have h1 : pc T (do
        match t.kw? with
        | some .CONSTRAINT => do
          let _ ← mustNext
          let i ← parseIdentifier
          pure (some i)
        | _ => pure none) a fun x _ => optIdentShape I x = true := by
      split
      · exact pc_skip fun _ _ => pc_seq (sh_parseIdentifier hw) fun x _ hx => pc_pure hx
      · exact pc_pure rfl
    refine pc_seq h1 fun name b hname => pc_skip fun t' _ => ?_
    split
    · exact pc_pure (by simp)
    · refine pc_seq (sh_columnSpec H) fun s _ hs => ?_
      split
      · exact pc_pure (by simp)
      · refine pc_seq (H.columnConstraints _) fun rest _ hrest => pc_pure ?_
        intro c hc
        rcases List.mem_cons.1 hc with rfl | hc
        · simp [ColumnConstraint.shape, hname, hs _ rfl]
        · exact hrest c hc

theorem sh_columnLoopF (H : Sh T I r) {d : Option Expr} {s : List ColumnConstraint} {a : List AutoIncrement}
    (h : ColumnOK I (d, s, a)) : pc T (columnLoopF r d s a) i fun x j => ColumnOK I x := by
  have hspecs : ∀ k, pc T (columnLoopF.parseSpecs r d a) k fun x j => ColumnOK I x := by
    intro k
    unfold columnLoopF.parseSpecs
    exact pc_seq (H.columnConstraints _) fun cs _ hcs => H.columnLoop _ _ _ _ ⟨h.1, hcs⟩
  unfold columnLoopF
  refine pc_skip fun o b => ?_
  split
  · exact pc_pure h
  · split
    · refine pc_skip fun _ _ => pc_ite (fun _ => ?_) fun _ => H.columnLoop _ _ _ _ h
      refine pc_seq (sh_defaultExpr H) fun e _ he => H.columnLoop _ _ _ _ ⟨?_, h.2⟩
      rintro _ ⟨⟩
      exact he
    · exact hspecs _
    · exact hspecs _
    · exact hspecs _
    · exact hspecs _
    · exact hspecs _
    · exact hspecs _
    · exact pc_skip fun _ _ => H.columnLoop _ _ _ _ h
    · exact pc_pure h

theorem sh_columnDef (hw : WordsOK T I) (H : Sh T I r) : pc T (parseColumnDef r) i fun c j => c.shape I = true := by
  unfold parseColumnDef
  refine pc_bindOf (wp_mustNext fun t ht _ => ?_)
  split
  · exact pc_panic
  · rename_i w htw
    refine pc_seq (sh_parseDataType hw H) fun dt _ hdt => ?_
    refine pc_seq (H.columnLoop none [] [] _ ⟨by simp, by simp⟩) fun x _ hx => ?_
    obtain ⟨d, s, a⟩ := x
    refine pc_pure ?_
    have h1 : (s.all (ColumnConstraint.shape I)) = true := by simpa using hx.2
    have h2 := word_ok hw ht htw
    cases d with
    | none => simp [ColumnDef.shape, h1, h2, hdt]
    | some e => have := hx.1 e rfl; simp [ColumnDef.shape, h1, h2, hdt, this.1, this.2]

theorem sh_tableConstraintSpec (hw : WordsOK T I) (H : Sh T I r) {t : Token} :
    pc T (parseTableConstraintSpec r t) i fun c j => c.shape I = true := by
  unfold parseTableConstraintSpec
  split
  · exact pc_panic
  · split
    · refine pc_skip fun _ _ => pc_skip fun _ _ => ?_
      split
      · exact pc_err
      · exact pc_skip fun _ _ => pc_seq (sh_parseColumnNames H) fun c _ hc => pc_skip fun _ _ => pc_pure hc
    · refine pc_skip fun _ _ => pc_skip fun _ _ => pc_skip fun _ _ => ?_
      exact pc_seq (sh_parseColumnNames H) fun c _ hc => pc_skip fun _ _ => pc_pure hc
    · refine pc_skip fun _ _ => pc_skip fun _ _ => pc_skip fun _ _ => ?_
      refine pc_seq (sh_parseColumnNames H) fun c _ hc => pc_skip fun _ _ => pc_skip fun _ _ => ?_
      refine pc_bindOf (wp_mustNext fun n hn _ => ?_)
      split
      · exact pc_panic
      · rename_i nw hnw
        refine pc_skip fun _ _ => pc_seq (H.listOfIds _ _) fun x _ hx => pc_skip fun _ _ => pc_pure ?_
        have h1 : identListOK I (x.getD []) := by
          cases x with
          | none => simp [identListOK]
          | some l => exact (hx l rfl).2
        have h2 := word_ok hw hn hnw
        have h3 : ((x.getD []).all fun i => I i.value) = true := by simpa [identListOK] using h1
        simp only [TableConstraintSpec.shape, hc, h2, h3, Bool.and_self]
    · refine pc_skip fun _ _ => pc_skip fun _ _ => pc_seq (H.subexpr 0 _ (by omega)) fun e _ he => ?_
      exact pc_skip fun _ _ => pc_pure he.1.shape
    · exact pc_err

theorem sh_tableConstraints (hw : WordsOK T I) (H : Sh T I r) :
    pc T (parseTableConstraints r) i fun c j => c.shape I = true := by
  unfold parseTableConstraints
  refine pc_skip fun o _ => ?_
  split
  · exact pc_err
  · split
    · exact pc_err
    · refine pc_ite (fun _ => ?_) fun _ => ?_
      · refine pc_skip fun _ _ => pc_seq (sh_parseIdentifier hw) fun n _ hn => pc_skip fun _ _ => ?_
        exact pc_seq (sh_tableConstraintSpec hw H) fun s _ hs => pc_pure (by
          simp [TableConstraint.shape, hs, optIdentShape, hn])
      · refine pc_skip fun _ _ => ?_
        exact pc_seq (sh_tableConstraintSpec hw H) fun s _ hs => pc_pure (by
          simp [TableConstraint.shape, hs, optIdentShape])

theorem sh_parseElement (hw : WordsOK T I) (H : Sh T I r) {w : SQLWord} :
    pc T (parseElement r w) i fun c j => c.shape I = true := by
  have hc : ∀ k, pc T (parseElement.parseC r) k fun c j => c.shape I = true := by
    intro k
    unfold parseElement.parseC
    exact pc_seq (sh_tableConstraints hw H) fun c _ hc => pc_pure hc
  unfold parseElement
  refine pc_skip fun _ _ => ?_
  split
  · exact hc _
  · exact hc _
  · exact hc _
  · exact hc _
  · exact hc _
  · exact pc_seq (sh_columnDef hw H) fun c _ hc => pc_pure hc

theorem sh_elementsF (hw : WordsOK T I) (H : Sh T I r) :
    pc T (elementsF r) i fun es j => ∀ e ∈ es, e.shape I = true := by
  unfold elementsF
  refine pc_skip fun o _ => ?_
  split
  · exact pc_err
  · split
    · exact pc_err
    · refine pc_seq (sh_parseElement hw H) fun e _ he => pc_skip fun o' _ => ?_
      split
      · exact pc_panic
      · refine pc_ite (fun _ => pc_pure (by simpa using he)) fun _ => pc_ite (fun _ => ?_) fun _ => pc_panic
        exact pc_seq (H.elements _) fun es _ hes => pc_pure (by simpa [he] using hes)

theorem sh_optionName (hw : WordsOK T I) : pc T parseOptionName i fun x j => I x.2.value = true := by
  unfold parseOptionName
  refine pc_skip fun _ _ => pc_ite (fun _ => ?_) fun _ => ?_
  · refine pc_skip fun _ _ => pc_skip fun _ _ => ?_
    split
    · exact pc_err
    · exact pc_seq (sh_parseIdentifier hw) fun n _ hn => pc_pure hn
  · split
    · exact pc_err
    · exact pc_seq (sh_parseIdentifier hw) fun n _ hn => pc_pure hn

theorem sh_tableOption (hw : WordsOK T I) : pc T parseTableOption i fun o j => o.shape I = true := by
  unfold parseTableOption
  refine pc_skip fun _ _ => ?_
  split
  · exact pc_err
  · refine pc_skip fun _ _ => ?_
    split
    · exact pc_seq (sh_optionName hw) fun n _ hn => pc_pure hn
    · exact pc_skip fun _ _ => pc_seq (sh_optionName hw) fun n _ hn => pc_pure hn
    · exact pc_seq (sh_optionName hw) fun n _ hn => pc_pure hn
    · exact pc_err

theorem sh_tableOptionsF (hw : WordsOK T I) (H : Sh T I r) :
    pc T (tableOptionsF r) i fun os j => ∀ o ∈ os, o.shape I = true := by
  unfold tableOptionsF
  refine pc_skip fun _ _ => ?_
  split
  · exact pc_pure (by simp)
  · refine pc_ite (fun _ => pc_skip fun _ _ => pc_pure (by simp)) fun _ => ?_
    split
    · exact pc_pure (by simp)
    · refine pc_seq (sh_tableOption hw) fun o _ ho => pc_seq (H.tableOptions _) fun os _ hos => ?_
      exact pc_pure (by simpa [ho] using hos)

theorem sh_assignmentsF (hw : WordsOK T I) (H : Sh T I r) :
    pc T (assignmentsF r) i fun as j => as ≠ [] ∧ ∀ a ∈ as, a.shape I = true := by
  unfold assignmentsF
  refine pc_bindOf (wp_mustNext fun t ht _ => ?_)
  split
  · exact pc_err
  · rename_i w htw
    have hI := word_ok hw ht htw
    refine pc_skip fun _ _ => pc_seq (H.subexpr 0 _ (by omega)) fun v _ hv => pc_skip fun _ _ => ?_
    have hv := hv.1.shape
    refine pc_ite (fun _ => ?_) fun _ => pc_pure ⟨by simp, by simp [Assignment.shape, hI, hv]⟩
    refine pc_seq (H.assignments _) fun rest _ hr => pc_pure ⟨by simp, ?_⟩
    intro a ha
    rcases List.mem_cons.1 ha with rfl | ha
    · simp [Assignment.shape, hI, hv]
    · exact hr.2 a ha

theorem sh_rowsF (H : Sh T I r) : pc T (rowsF r) i fun rs j => rs ≠ [] ∧ ∀ x ∈ rs, x.shape I = true := by
  unfold rowsF
  refine pc_skip fun _ _ => pc_seq (H.exprList _) fun v _ hv => pc_skip fun _ _ => pc_skip fun _ _ => ?_
  have h1 : ∀ f t, (RowValueExpr.mk v f t).shape I = true := by intro f t; simp [RowValueExpr.shape, hv.1, hv.2]
  refine pc_ite (fun _ => ?_) fun _ => pc_pure ⟨by simp, by simp [h1]⟩
  refine pc_seq (H.rows _) fun rest _ hr => pc_pure ⟨by simp, ?_⟩
  intro a ha
  rcases List.mem_cons.1 ha with rfl | ha
  · exact h1 _ _
  · exact hr.2 a ha

theorem sh_where (H : Sh T I r) : pc T (do
      if ← kw .WHERE then do
        let e ← parseExpr r
        pure (some e)
      else pure none) i fun x j => Expr.shapeO I x = true := pc_mono (sh_optExpr H .WHERE) fun _ _ h => h.1

theorem sh_createTable (hw : WordsOK T I) (H : Sh T I r) (t : Token) :
    pc T (parseCreateTable r t) i fun s j => s.shape I = true := by
  unfold parseCreateTable
  refine pc_skip fun _ _ => pc_seq (sh_parseObjectName H) fun o a ho => ?_
  have h1 : pc T (parseElements r) a fun es _ => ∀ e ∈ es, e.shape I = true := by
    unfold parseElements
    exact pc_skip fun _ _ => pc_ite (fun _ => H.elements _) fun _ => pc_pure (by simp)
  refine pc_seq h1 fun es _ hes => pc_seq (H.tableOptions _) fun os _ hos => pc_pure ?_
  have h2 : es.all (TableElement.shape I) = true := by simpa using hes
  have h3 : os.all (TableOption.shape I) = true := by simpa using hos
  simp [Stmt.shape, ho, h2, h3]

theorem sh_createView (H : Sh T I r) (t : Token)
    (hv : ∀ u, T[i]? = some u → u.matchesKw KW.MATERIALIZED.str = true →
      ∀ v, T[i + 1]? = some v → v.matchesKw KW.VIEW.str = false) :
    pc T (parseCreateView r t) i fun s j => s.shape I = true := by
  unfold parseCreateView
  refine pc_bindOf (wp_kw (fun u hu hm _ => ?_) fun _ => ?_)
  · refine pc_bindOf (wp_expectKeyword fun v hv' hm' _ => ?_)
    rw [hv u hu hm v hv'] at hm'; cases hm'
  · refine pc_skip fun _ _ => pc_seq (sh_parseObjectName H) fun o _ ho => pc_skip fun _ _ => ?_
    exact pc_seq (H.query _) fun q _ hq => pc_pure (by simp [Stmt.shape, ho, hq.1])

theorem sh_createIndex (hw : WordsOK T I) (H : Sh T I r) (u : Bool) :
    pc T (parseCreateIndex r u) i fun s j => s.shape I = true := by
  unfold parseCreateIndex
  have h1 : pc T (do
      if ← kw .ON then pure none
      else do
        let n ← parseIdentifier
        let _ ← expectKeyword .ON
        pure (some n)) i fun x _ => optIdentShape I x = true := by
    refine pc_skip fun _ _ => pc_ite (fun _ => pc_pure rfl) fun _ => ?_
    exact pc_seq (sh_parseIdentifier hw) fun n _ hn => pc_skip fun _ _ => pc_pure hn
  refine pc_seq h1 fun n _ hn => pc_seq (sh_parseObjectName H) fun o a ho => ?_
  have h2 : pc T (do
      if ← kw .USING then do
        let m ← parseIdentifier
        pure (some m)
      else pure none) a fun x _ => optIdentShape I x = true := by
    refine pc_skip fun _ _ => pc_ite (fun _ => ?_) fun _ => pc_pure rfl
    exact pc_seq (sh_parseIdentifier hw) fun n _ hn => pc_pure hn
  refine pc_seq h2 fun m b hm => ?_
  have h3 : pc T (do
      if ← consumeToken .LParen then do
        let c ← parseColumnNames r
        expectToken .RParen
        pure c
      else pure []) b fun c _ => (c.all fun i => I i.value) = true := by
    refine pc_skip fun _ _ => pc_ite (fun _ => ?_) fun _ => pc_pure rfl
    refine pc_seq (sh_parseColumnNames H) fun c _ hc => pc_skip fun _ _ => pc_pure ?_
    rw [identsShape_iff] at hc
    simpa [identListOK] using hc.2
  refine pc_seq h3 fun c _ hc => pc_seq (sh_where H) fun e _ he => pc_pure ?_
  simp only [Stmt.shape, ho, hn, hm, hc, he, Bool.and_self]

theorem sh_parseCreate (hw : WordsOK T I) (H : Sh T I r) : pc T (parseCreate r) i fun s j => s.shape I = true := by
  unfold parseCreate
  refine pc_bindOf (wp_kwOrErr fun t ht _ _ => pc_skip fun _ a => pc_ite (fun _ => sh_createTable hw H t) fun _ => ?_)
  refine pc_bindOf (wp_kw (fun u hu hm _ => ?_) fun hno => ?_)
  · refine pc_bindOf (wp_kw (fun v hv hm' _ => ?_) fun hno' => ?_)
    · simp only [Bool.or_self, if_true]
      refine pc_bindOf (wp_prevToken fun k hk => ?_)
      cases hk
      refine sh_createView H t fun x hx hxm => ?_
      rw [hv] at hx; cases hx
      exact absurd (matchesKw_unique hxm hm') (by decide)
    · simp only [Bool.or_false, if_true]
      refine pc_bindOf (wp_prevToken fun k hk => ?_)
      cases hk
      exact sh_createView H t fun x hx hxm v hv => hno' v hv
  · refine pc_bindOf (wp_kw (fun v hv hm' _ => ?_) fun hno' => ?_)
    · simp only [Bool.or_true, if_true]
      refine pc_bindOf (wp_prevToken fun k hk => ?_)
      cases hk
      refine sh_createView H t fun x hx hxm => ?_
      rw [hv] at hx; cases hx
      exact absurd (matchesKw_unique hxm hm') (by decide)
    · simp only [Bool.or_self, Bool.false_eq_true, if_false]
      refine pc_skip fun _ _ => pc_skip fun _ _ => ?_
      exact pc_ite (fun _ => sh_createIndex hw H _) fun _ => pc_panic

theorem sh_parseDelete (H : Sh T I r) : pc T (parseDelete r) i fun s j => s.shape I = true := by
  unfold parseDelete
  refine pc_skip fun _ _ => pc_skip fun _ _ => pc_seq (sh_parseObjectName H) fun o _ ho => ?_
  exact pc_seq (sh_where H) fun e _ he => pc_pure (by simp [Stmt.shape, ho, he])

theorem sh_parseUpdate (H : Sh T I r) : pc T (parseUpdate r) i fun s j => s.shape I = true := by
  unfold parseUpdate
  refine pc_skip fun _ _ => pc_seq (sh_parseObjectName H) fun o _ ho => pc_skip fun _ _ => ?_
  refine pc_seq (H.assignments _) fun as _ has => pc_seq (sh_where H) fun e _ he => pc_pure ?_
  have h1 : as.all (Assignment.shape I) = true := by simpa using has.2
  simp [Stmt.shape, ho, he, h1, has.1]

theorem sh_parseInsert (hk : KwOK T) (H : Sh T I r) : pc T (parseInsert r) i fun s j => s.shape I = true := by
  unfold parseInsert
  refine pc_skip fun _ _ => pc_skip fun _ _ => pc_seq (sh_parseObjectName H) fun o a ho => ?_
  have h1 : pc T (do
      if ← consumeToken .LParen then do
        let c ← parseColumnNames r
        expectToken .RParen
        pure c
      else pure []) a fun c j => (c = [] → ∀ t, T[j]? = some t → t.isSym .LParen = false) ∧
        (c = [] ∨ identsShape I c = true) := by
    refine pc_bindOf (wp_consumeToken' (fun _ _ _ _ => ?_) fun hno => pc_pure ⟨fun _ => hno, .inl rfl⟩)
    refine pc_seq (sh_parseColumnNames H) fun c _ hc => pc_skip fun _ _ => pc_pure ⟨fun h0 => ?_, .inr hc⟩
    exact absurd h0 (identsShape_iff.1 hc).1
  refine pc_seq h1 fun c b hc => ?_
  have hce : (c.isEmpty || identsShape I c) = true := by
    rcases hc.2 with rfl | h
    · rfl
    · simp [h]
  have h2 : pc T (do
      if ← kw .VALUES then do
        let rows ← r.rows
        pure (InsertSource.constructor Pos.zero rows)
      else do
        let q ← r.query
        pure (.subQuery q)) b fun s j => s.shape I = true ∧ ∀ q, s = .subQuery q →
          (c ≠ [] ∨ q.startsSelect = true) ∧ EdgeAt T j q.edge := by
    refine pc_bindOf (wp_kw (fun _ _ _ _ => ?_) fun _ => ?_)
    · refine pc_seq (H.rows _) fun rs _ hrs => pc_pure ⟨?_, by simp⟩
      have : rs.all (RowValueExpr.shape I) = true := by simpa using hrs.2
      simp [InsertSource.shape, hrs.1, this]
    · refine pc_seq (H.query _) fun q _ hq => pc_pure ⟨hq.1, ?_⟩
      rintro _ ⟨⟩
      refine ⟨?_, hq.2.1⟩
      cases c with
      | cons => exact .inl (by simp)
      | nil =>
        rcases hq.2.2 with h | ⟨t, ht, hs⟩
        · exact .inr h
        · rw [hc.1 rfl t ht] at hs; cases hs
  refine pc_seq h2 fun src d hsrc => ?_
  have h3 : pc T (do
      match ← parseKeywords [.ON, .DUPLICATE, .KEY, .UPDATE] with
      | some _ => r.assignments
      | none => pure []) d fun as j => (∀ x ∈ as, x.shape I = true) ∧
        (as ≠ [] → ∃ t, T[d]? = some t ∧ t.matchesKw KW.ON.str = true) := by
    refine pc_bindOf (wp_parseKeywords' (fun t _ _ ht hm => ?_) (pc_pure ⟨by simp, by simp⟩))
    exact pc_mono (H.assignments _) fun as _ h => ⟨h.2, fun _ => ⟨t, ht, hm⟩⟩
  refine pc_seq h3 fun as _ has => pc_pure ?_
  have h4 : as.all (Assignment.shape I) = true := by simpa using has.1
  cases src with
  | constructor p rows => simp [Stmt.shape, ho, hce, hsrc.1, h4]
  | subQuery q =>
    obtain ⟨h5, h6⟩ := hsrc.2 q rfl
    have h7 : as = [] ∨ q.edge ≠ .col := by
      cases as with
      | nil => exact .inl rfl
      | cons x xs =>
        right
        obtain ⟨t, ht, hm⟩ := has.2 (by simp)
        have := h6.kw ht (kw_of_matches hk ht hm)
        intro hcol
        rw [hcol] at this; cases this
    simp only [Stmt.shape, ho, hce, hsrc.1, h4, Bool.and_true, Bool.and_eq_true, Bool.or_eq_true, Bool.not_eq_true',
      List.isEmpty_eq_false_iff, List.isEmpty_iff, bne_iff_ne, true_and]
    exact ⟨h5, h7⟩

theorem sh_alterColumn (hw : WordsOK T I) (H : Sh T I r) {t : Token} :
    pc T (parseAlterColumn r t) i fun a j => a.shape I = true := by
  unfold parseAlterColumn
  refine pc_seq (sh_parseIdentifier hw) fun n _ hn => pc_skip fun _ _ => ?_
  split
  · exact pc_err
  · split
    · refine pc_skip fun _ _ => pc_ite (fun _ => ?_) fun _ => ?_
      · exact pc_seq (sh_defaultExpr H) fun e _ he => pc_pure (by
          simp [AlterTableAction.shape, AlterColumnAction.shape, hn, he.1, he.2])
      · refine pc_skip fun _ _ => ?_
        split
        · exact pc_pure (by simp [AlterTableAction.shape, AlterColumnAction.shape, hn])
        · exact pc_err
    · refine pc_skip fun _ _ => ?_
      split
      · exact pc_pure (by simp [AlterTableAction.shape, AlterColumnAction.shape, hn])
      · refine pc_skip fun _ _ => ?_
        split
        · exact pc_pure (by simp [AlterTableAction.shape, AlterColumnAction.shape, hn])
        · exact pc_err
    · exact pc_seq (sh_parseDataType hw H) fun e _ he => pc_pure (by
        simp [AlterTableAction.shape, AlterColumnAction.shape, hn, he])
    · exact pc_err

theorem sh_alterAction (hw : WordsOK T I) (H : Sh T I r) : pc T (parseAlterAction r) i fun a j => a.shape I = true := by
  unfold parseAlterAction
  refine pc_skip fun _ _ => ?_
  split
  · exact pc_seq (sh_columnDef hw H) fun c _ hc => pc_pure hc
  · refine pc_skip fun _ _ => ?_
    split
    · exact pc_seq (sh_tableConstraints hw H) fun c _ hc => pc_pure hc
    · refine pc_skip fun _ _ => ?_
      split
      · exact pc_seq (sh_parseIdentifier hw) fun c _ hc => pc_skip fun _ _ => pc_pure hc
      · refine pc_skip fun _ _ => ?_
        split
        · exact pc_seq (sh_parseIdentifier hw) fun c _ hc => pc_skip fun _ _ => pc_pure hc
        · refine pc_skip fun _ _ => ?_
          split
          · exact sh_alterColumn hw H
          · exact pc_err

theorem sh_parseAlter (hw : WordsOK T I) (H : Sh T I r) : pc T (parseAlter r) i fun s j => s.shape I = true := by
  unfold parseAlter
  refine pc_skip fun _ _ => pc_skip fun _ _ => pc_seq (sh_parseObjectName H) fun o _ ho => ?_
  exact pc_seq (sh_alterAction hw H) fun e _ he => pc_pure (by simp [Stmt.shape, ho, he])

theorem sh_parseDrop (H : Sh T I r) : pc T (parseDrop r) i fun s j => s.shape I = true := by
  unfold parseDrop
  refine pc_skip fun _ _ => pc_skip fun _ _ => pc_ite (fun _ => ?_) fun _ => ?_
  · refine pc_skip fun _ _ => pc_seq (sh_parseObjectName H) fun o _ ho => pc_skip fun _ _ => pc_pure ?_
    simp [Stmt.shape, ho]
  · exact pc_skip fun _ _ => pc_seq (sh_parseColumnNames H) fun c _ hc => pc_pure hc

theorem sh_statementF (hk : KwOK T) (hw : WordsOK T I) (H : Sh T I r) :
    pc T (statementF r) i fun s j => s.shape I = true := by
  unfold statementF
  refine pc_bindOf (wp_nextOrErr fun t ht _ => ?_)
  split
  · exact pc_err
  · rename_i w htw
    have hq : pc T (statementF.parseQueryStmt r) (i + 1) fun s j => s.shape I = true := by
      unfold statementF.parseQueryStmt
      refine pc_bindOf (wp_prevToken fun k hk => ?_)
      cases hk
      refine pc_seq (H.query _) fun q _ hq => pc_pure ?_
      rcases hq.2.2 with h | ⟨t', ht', hs⟩
      · simp [Stmt.shape, hq.1, h]
      · rw [ht] at ht'; cases ht'
        rw [word_not_sym htw] at hs; cases hs
    split
    · exact hq
    · exact hq
    · exact pc_skip fun _ _ => sh_parseCreate hw H
    · exact pc_skip fun _ _ => sh_parseDelete H
    · exact pc_skip fun _ _ => sh_parseInsert hk H
    · exact pc_skip fun _ _ => sh_parseAlter hw H
    · exact pc_skip fun _ _ => sh_parseUpdate H
    · exact pc_skip fun _ _ => sh_parseDrop H
    · exact pc_seq (H.statement _) fun s _ hs => pc_pure hs
    · exact pc_err

theorem sh_step (fns : FloatFns) (hk : KwOK T) (hw : WordsOK T I) (H : Sh T I r) : Sh T I (.step fns r) where
  subexpr := by
    intro p i hp
    show pc T (subexprF r p) i _
    unfold subexprF
    exact pc_seq (H.prefix_ i) fun e k h => H.subexprLoop p e i k h.1 (by rw [isPrefix_lp h.2]; exact hp)
  subexprLoop := by
    intro p e i k h hp
    show pc T (subexprLoopF r p e) k _
    unfold subexprLoopF
    refine pc_seq sh_getNextPrecedence fun np j hnp => ?_
    obtain ⟨rfl, rfl⟩ := hnp
    refine pc_ite (fun hge => pc_pure ⟨h, hp, hge⟩) fun hge => ?_
    refine pc_seq (sh_parseInfix hk hw H h (b := true) (by simp)) fun e' j h' => ?_
    exact H.subexprLoop p e' i j h'.at_ (by have := h'.lp; omega)
  prefix_ := fun i => sh_prefixF fns hw H
  idParts := by
    intro i
    show pc T (idPartsF r) i _
    unfold idPartsF
    refine pc_bindOf (wp_consumeToken' (fun u hu hs _ => ?_) fun hno => ?_)
    · simp only [if_true]
      refine pc_bindOf (wp_nextOrErr fun n hn _ => ?_)
      have hper : ∀ {x : Prop} {j : Nat}, x → ∀ t, T[i]? = some t → (t.isSym .Period = true → x) ∧
          (t.isSym .Period = false → j = i) := by
        intro x j hx t ht
        rw [hu] at ht; cases ht
        exact ⟨fun _ => hx, fun h => by rw [hs] at h; cases h⟩
      split
      · rename_i w htw
        refine pc_seq (H.idParts _) fun x j hx => ?_
        obtain ⟨ids, wild⟩ := x
        refine pc_pure ⟨?_, hper (.inl (by simp))⟩
        have := word_ok hw hn htw
        simpa [identListOK, this] using hx.1
      · exact pc_ite (fun _ => pc_pure ⟨by simp [identListOK], hper (.inr rfl)⟩) fun _ => pc_err
    · simp only [Bool.false_eq_true, if_false]
      refine pc_pure ⟨by simp [identListOK], fun t ht => ⟨fun h => ?_, fun _ => rfl⟩⟩
      rw [hno t ht] at h; cases h
  exprList := by
    intro i
    show pc T (exprListF r) i _
    unfold exprListF
    refine pc_seq (H.subexpr 0 _ (by omega)) fun e _ he => pc_skip fun o _ => ?_
    have he := he.1.shape
    split
    · exact pc_pure ⟨by simp, by simp [Expr.shapes, he]⟩
    · refine pc_ite (fun _ => pc_skip fun _ _ => ?_) fun _ => pc_pure ⟨by simp, by simp [Expr.shapes, he]⟩
      exact pc_seq (H.exprList _) fun es _ hes => pc_pure ⟨by simp, by simp [Expr.shapes, he, hes.2]⟩
  listOfIds := by
    intro s i
    show pc T (listOfIdsF r s) i _
    unfold listOfIdsF
    refine pc_bindOf (wp_nextToken (fun t ht _ => ?_) fun _ => pc_pure (by simp))
    dsimp only
    split
    · rename_i w htw
      have := word_ok hw ht htw
      refine pc_seq (H.listOfIdsSep s _) fun x _ hx => pc_pure fun is h => ?_
      rw [Option.map_eq_some_iff] at h
      obtain ⟨l, rfl, rfl⟩ := h
      exact ⟨by simp, by simpa [identListOK, this] using hx l rfl⟩
    · exact pc_skip fun _ _ => pc_pure (by simp)
  listOfIdsSep := by
    intro s i
    show pc T (listOfIdsSepF r s) i _
    unfold listOfIdsSepF
    refine pc_skip fun o _ => ?_
    split
    · exact pc_pure (by rintro _ ⟨⟩; simp [identListOK])
    · refine pc_ite (fun _ => pc_mono (H.listOfIds s _) fun x _ hx is h => (hx is h).2) fun _ => ?_
      exact pc_skip fun _ _ => pc_pure (by rintro _ ⟨⟩; simp [identListOK])
  orderByList := by
    intro i
    show pc T (orderByListF r) i _
    unfold orderByListF
    refine pc_seq (H.subexpr 0 _ (by omega)) fun e _ he => pc_skip fun asc _ => pc_skip fun o _ => ?_
    have he := he.1.shape
    split
    · exact pc_pure ⟨by simp, by simp [OrderByExpr.shapes, OrderByExpr.shape, he]⟩
    · refine pc_ite (fun _ => pc_skip fun _ _ => ?_)
        fun _ => pc_pure ⟨by simp, by simp [OrderByExpr.shapes, OrderByExpr.shape, he]⟩
      exact pc_seq (H.orderByList _) fun es _ hes =>
        pc_pure ⟨by simp, by simp [OrderByExpr.shapes, OrderByExpr.shape, he, hes.2]⟩
  caseLoop := by
    intro i
    show pc T (caseLoopF r) i _
    unfold caseLoopF
    refine pc_seq (H.subexpr 0 _ (by omega)) fun c _ hc => pc_skip fun _ _ => ?_
    refine pc_seq (H.subexpr 0 _ (by omega)) fun x _ hx => pc_skip fun _ _ => pc_ite (fun _ => ?_) fun _ => ?_
    · refine pc_seq (H.caseLoop _) fun y _ hy => ?_
      obtain ⟨cs, xs⟩ := y
      exact pc_pure ⟨by simp, by simpa using hy.2.1, by simp [Expr.shapes, hc.1.shape, hy.2.2.1],
        by simp [Expr.shapes, hx.1.shape, hy.2.2.2]⟩
    · exact pc_pure ⟨by simp, by simp, by simp [Expr.shapes, hc.1.shape], by simp [Expr.shapes, hx.1.shape]⟩
  query := fun i => sh_queryF hk H
  queryBody := fun p i hp => sh_queryBodyF hk H hp
  bodyLoop := fun p e i k h hp => sh_bodyLoopF H h hp
  cteList := by
    intro i
    show pc T (cteListF r) i _
    unfold cteListF
    refine pc_seq (sh_parseIdentifier hw) fun n _ hn => pc_skip fun _ _ => pc_skip fun _ _ => ?_
    refine pc_seq (H.query _) fun q _ hq => pc_skip fun _ _ => pc_skip fun _ _ => pc_ite (fun _ => ?_) fun _ => ?_
    · exact pc_seq (H.cteList _) fun es _ hes =>
        pc_pure ⟨by simp, by simp [CTE.shapes, CTE.shape, hn, hq.1, hes.2]⟩
    · exact pc_pure ⟨by simp, by simp [CTE.shapes, CTE.shape, hn, hq.1]⟩
  selectList := fun i => sh_selectListF hw H
  tableRef := by
    intro i
    show pc T (tableRefF r) i _
    unfold tableRefF
    exact pc_seq (sh_parseTableFactor hw H) fun f _ hf =>
      H.tableRefLoop _ _ _ hf.1 ⟨hf.1, hf.2⟩ (by simp [TableRef.open_])
  tableRefLoop := fun f e k hf he ho => sh_tableRefLoopF hw H hf he ho
  fromRest := fun i => sh_fromRestF H
  defaultLoop := fun e i k h hd => sh_defaultLoopF hk hw H h hd
  columnLoop := fun d s a i h => sh_columnLoopF H h
  columnConstraints := fun i => sh_columnConstraintsF hw H
  elements := fun i => sh_elementsF hw H
  tableOptions := fun i => sh_tableOptionsF hw H
  assignments := fun i => sh_assignmentsF hw H
  rows := fun i => sh_rowsF H
  statement := fun i => sh_statementF hk hw H

theorem sh_at (fns : FloatFns) (hk : KwOK T) (hw : WordsOK T I) : ∀ n, Sh T I (Parsers.at fns n)
  | 0 => by
    constructor <;> intros <;> intro x j hx <;> cases hx
  | n + 1 => sh_step fns hk hw (sh_at fns hk hw n)

end Verif
