import Verif.Proofs.GrammarQuery
import Verif.Proofs.ShapeStmt
/-
The tokens that the parser reads as a statement belong to the language of the statement.
-/
set_option linter.unusedSimpArgs false
set_option linter.unusedVariables false
namespace Verif
open Spec

variable {T : List Token} {fns : FloatFns} {q : Quirks} {α β : Type} {i j k : Nat} {r : Parsers} {A B : Lang}

theorem concat_append {ts us : List Token} : ∀ {as : List Lang}, concat as ts → A us → concat (as ++ [A]) (ts ++ us)
  | [], h, h' => ⟨us, [], by cases h; simp, h', rfl⟩
  | a :: as, ⟨x, y, h, hx, hy⟩, h' => ⟨x, y ++ us, by simp [h], hx, concat_append hy h'⟩

theorem Span.concat {as : List Lang} (h1 : Span T i k (concat as)) (h2 : Span T k j A) :
    Span T i j (Spec.concat (as ++ [A])) :=
  ⟨Nat.le_trans h1.1 h2.1, by rw [between_append h1.1 h2.1]; exact concat_append h1.2 h2.2⟩

/-! ### Columns and constraints -/

theorem gr_defaultLoopF (hk : KwOK T) (H : Gr T fns q r) {e : Expr} (he : Span T i k (e.lang fns q)) :
    pc T (defaultLoopF r e) k fun e' j => Span T i j (e'.lang fns q) := by
  unfold defaultLoopF
  have key : pc T (do
      let np ← getNextPrecedence
      if 0 ≥ np then pure e
      else do
        let e ← parseInfix r e np
        r.defaultLoop e) k fun e' j => Span T i j (e'.lang fns q) := by
    refine pc_seq (gr_nextPrecedence k) fun np m hm => ?_
    subst hm
    refine pc_ite (fun _ => pc_pure he) fun _ => ?_
    exact pc_seq (gr_parseInfix hk H he) fun e2 m h2 => H.defaultLoop _ _ _ h2
  exact pc_bindOf (wp_peekToken (fun t ht _ => pc_ite (fun _ => pc_pure he) fun _ => key)
    fun _ => pc_ite (fun _ => pc_pure he) fun _ => key)

theorem gr_defaultExpr (H : Gr T fns q r) (i : Nat) :
    pc T (parseDefaultExpr r) i fun e j => Span T i j (e.lang fns q) := by
  unfold parseDefaultExpr
  exact pc_seq (H.prefix_ i) fun e j he => H.defaultLoop _ _ _ he

theorem gr_columnSpec (hk : KwOK T) (H : Gr T fns q r) {t : Token} (ht : T[i]? = some t) :
    pc T (parseColumnSpec r t) i fun x j => (x = none → j = i) ∧ ∀ s, x = some s → Span T i j (s.lang fns q) := by
  unfold parseColumnSpec
  have kwd_ : ∀ {k : KW}, t.kw? = some k → Span T i (i + 1) (spans t.from_ t.to_ (kwd k)) := fun h => span_kw? hk ht h
  split
  · refine pc_bindOf (wp_mustNext fun _ _ _ => pg_kwOrErr fun n h => pc_pure ⟨by simp, ?_⟩)
    rintro _ ⟨⟩
    exact (kwd_ ‹_›).F.cat h.E
  · refine pc_bindOf (wp_mustNext fun _ _ _ => pc_pure ⟨by simp, ?_⟩)
    rintro _ ⟨⟩
    exact (kwd_ ‹_›).F.cat Span.unset2
  · refine pc_bindOf (wp_mustNext fun _ _ _ => pg_kwOrErr fun n h => pc_pure ⟨by simp, ?_⟩)
    rintro _ ⟨⟩
    exact (kwd_ ‹_›).F.cat (h.E.cat Span.unset)
  · refine pc_bindOf (wp_mustNext fun _ _ _ => pc_seq (gr_parseObjectName H _) fun o a ho => ?_)
    refine pg_expectToken fun h1 => pc_seq (gr_parseColumnNames H _) fun c b hc => pg_nextSym fun _ h2 => ?_
    refine pc_pure ⟨by simp, ?_⟩
    rintro _ ⟨⟩
    exact (kwd_ ‹_›).F.cat (ho.cat (h1.cat (hc.cat h2.E)))
  · refine pc_bindOf (wp_mustNext fun _ _ _ => pg_expectToken fun h1 => ?_)
    refine pc_seq (gr_parseExpr H _) fun e b he => pg_nextSym fun _ h2 => pc_pure ⟨by simp, ?_⟩
    rintro _ ⟨⟩
    exact (kwd_ ‹_›).F.cat (h1.cat (he.cat h2.E))
  · exact pc_pure ⟨by simp, by simp⟩

theorem gr_columnConstraintsF (hk : KwOK T) (H : Gr T fns q r) (i : Nat) : pc T (columnConstraintsF r) i fun cs j =>
    Span T i j ((ColumnItem.constraints cs).lang fns q) := by
  unfold columnConstraintsF
  refine pc_bindOf (wp_peekToken (fun t ht _ => ?_) fun _ => pc_pure (Span.eps.cat Span.lostNone))
  dsimp only
  have h1 : pc T (do
      match t.kw? with
      | some .CONSTRAINT => do
        let _ ← mustNext
        let i ← parseIdentifier
        pure (some i)
      | _ => pure none) i fun x j => Span T i j (columnNameLang x) := by
    split
    · exact pc_bindOf (wp_mustNext fun _ _ _ => pg_identifier fun x h => pc_pure ((span_kw? hk ht ‹_›).P.cat h))
    · exact pc_pure Span.eps
  refine pc_seq h1 fun name a hn => ?_
  have hnil : Span T i a ((ColumnItem.constraints []).lang fns q) := by
    refine Span.eps.cat ?_
    cases name with
    | none => exact Span.lostEps hn
    | some n => exact Span.lostT H.odd (hn.mono fun _ h => ⟨n, h⟩)
  refine pc_bindOf (wp_mustPeek fun t' ht' _ => ?_)
  split
  · exact pc_pure hnil
  · refine pc_seq (gr_columnSpec hk H ht') fun s b hs => ?_
    split
    · have := hs.1 rfl
      subst this
      exact pc_pure hnil
    · refine pc_seq (H.columnConstraints _) fun rest c hrest => pc_pure ?_
      have h2 : Span T i b (columnNameLang name ⬝ _ ⬝ unset Pos.zero) := hn.cat ((hs.2 _ rfl).cat Span.unset)
      refine (h2.cat hrest).mono ?_
      rintro _ ⟨x, _, rfl, hx, y, z, rfl, hy, hz⟩
      exact ⟨x ++ y, z, by simp, ⟨x, y, rfl, hx, hy⟩, hz⟩

theorem columnItems_snoc {items : List ColumnItem} {d : Option Expr} {s : List ColumnConstraint}
    {a : List AutoIncrement} (h : ColumnItems items d s a) :
    (∀ x, ColumnItems (items ++ [.default_ x]) (some x) s a) ∧
    (∀ cs, ColumnItems (items ++ [.constraints cs]) d cs a) ∧
    (∀ x, ColumnItems (items ++ [.autoIncrement x]) d s (a ++ [x])) := by
  obtain ⟨h1, h2, h3⟩ := h
  refine ⟨fun x => ⟨?_, ?_, ?_⟩, fun cs => ⟨?_, ?_, ?_⟩, fun x => ⟨?_, ?_, ?_⟩⟩ <;>
    simp [List.filterMap_append, ColumnItem.default?, ColumnItem.constraints?, ColumnItem.autoIncrement?, h1, h2, h3]

theorem gr_columnLoopF (hk : KwOK T) (H : Gr T fns q r) {d : Option Expr} {s : List ColumnConstraint}
    {a : List AutoIncrement} {items : List ColumnItem}
    (hs : Span T i k (concat (items.map (ColumnItem.lang fns q)))) (hi : ColumnItems items d s a) :
    pc T (columnLoopF r d s a) k fun x j => ∃ items', Span T i j (concat (items'.map (ColumnItem.lang fns q))) ∧
      ColumnItems items' x.1 x.2.1 x.2.2 := by
  have more : ∀ {it : ColumnItem} {m : Nat}, Span T k m (it.lang fns q) →
      Span T i m (concat ((items ++ [it]).map (ColumnItem.lang fns q))) := by
    intro it m h
    rw [List.map_append]
    exact hs.concat h
  have hspecs : pc T (columnLoopF.parseSpecs r d a) k fun x j => ∃ items',
      Span T i j (concat (items'.map (ColumnItem.lang fns q))) ∧ ColumnItems items' x.1 x.2.1 x.2.2 := by
    unfold columnLoopF.parseSpecs
    exact pc_seq (H.columnConstraints _) fun cs m hcs => H.columnLoop _ _ _ _ _ _ (more hcs) ((columnItems_snoc hi).2.1 cs)
  unfold columnLoopF
  refine pc_bindOf (wp_peekToken (fun t ht _ => ?_) fun _ => pc_pure ⟨items, hs, hi⟩)
  dsimp only
  split
  · refine pg_kwIf (fun h => ?_) (H.columnLoop _ _ _ _ _ _ hs hi)
    exact pc_seq (gr_defaultExpr H _) fun e m he => H.columnLoop _ _ _ _ _ _ (more (it := .default_ e) (h.cat he)) ((columnItems_snoc hi).1 e)
  · exact hspecs
  · exact hspecs
  · exact hspecs
  · exact hspecs
  · exact hspecs
  · exact hspecs
  · refine pc_bindOf (wp_mustNext fun _ _ _ => ?_)
    exact H.columnLoop _ _ _ _ _ _ (more (it := .autoIncrement ⟨t.from_, t.to_⟩) (span_kw? hk ht ‹_›)) ((columnItems_snoc hi).2.2 _)
  · exact pc_pure ⟨items, hs, hi⟩

theorem gr_columnDef (hk : KwOK T) (H : Gr T fns q r) (i : Nat) :
    pc T (parseColumnDef r) i fun c j => Span T i j (c.lang fns q) := by
  unfold parseColumnDef
  refine pc_bindOf (wp_mustNext fun t ht _ => ?_)
  split
  · exact pc_panic
  · rename_i w hw
    refine pc_seq (gr_parseDataType hk H _) fun dt a hdt => ?_
    refine pc_seq (H.columnLoop none [] [] a a [] Span.eps ⟨rfl, rfl, rfl⟩) fun x b hx => ?_
    obtain ⟨d, s, au⟩ := x
    obtain ⟨items, h1, h2⟩ := hx
    exact pc_pure ((span_word ht hw).cat (hdt.cat ⟨h1.1, items, h1.2, h2, .inl H.odd⟩))

theorem gr_tableConstraintSpec (hk : KwOK T) (H : Gr T fns q r) {t : Token} (ht : T[i]? = some t) :
    pc T (parseTableConstraintSpec r t) i fun c j => Span T i j (c.lang fns q) := by
  unfold parseTableConstraintSpec
  split
  · exact pc_panic
  · rename_i w hw
    have kwd_ : ∀ {k : KW}, kwOf w.keyword = some k → Span T i (i + 1) (spans t.from_ t.to_ (kwd k)) :=
      fun h => span_kwOf hk ht (word_tok hw) h
    split
    · have key : ∀ m, Span T (i + 1) m (opt (kwd .KEY)) → pc T (do
          expectToken .LParen
          let columns ← parseColumnNames r
          let rp ← nextSym .RParen
          pure (TableConstraintSpec.unique false Pos.zero t.from_ rp.to_ columns)) m
          fun c j => Span T i j (c.lang fns q) := by
        intro m hm
        refine pg_expectToken fun h1 => pc_seq (gr_parseColumnNames H _) fun c b hc => pg_nextSym fun _ h2 => ?_
        exact pc_pure ((kwd_ ‹_›).F.cat (hm.cat (Span.cat (h1.cat (hc.cat h2.E)) Span.unset)))
      refine pc_bindOf (wp_mustNext fun _ _ _ => ?_)
      refine pc_bindOf (wp_parseKeyword (fun _ => pc_err) (fun t ht hm _ => ?_) (fun t ht hm _ => ?_))
      · exact key _ (span_kw ht hm).P.opt
      · exact key _ Span.optNone
    · refine pc_bindOf (wp_mustNext fun _ _ _ => pg_expectKeyword fun _ h0 => pg_expectToken fun h1 => ?_)
      refine pc_seq (gr_parseColumnNames H _) fun c b hc => pg_nextSym fun _ h2 => ?_
      exact pc_pure ((kwd_ ‹_›).F.cat (h0.P.cat (Span.cat (h1.cat (hc.cat h2.E)) Span.unset)))
    · refine pc_bindOf (wp_mustNext fun _ _ _ => pg_expectKeyword fun _ h0 => pg_expectToken fun h1 => ?_)
      refine pc_seq (gr_parseColumnNames H _) fun c b hc => pg_expectToken fun h2 => ?_
      refine pg_expectKeyword fun _ h3 => pc_bindOf (wp_mustNext fun n hn _ => ?_)
      split
      · exact pc_panic
      · rename_i nw hnw
        refine pg_expectToken fun h4 => pc_seq (H.listOfIds _ _) fun x d hx => pg_nextSym fun _ h5 => pc_pure ?_
        refine (kwd_ ‹_›).F.cat (h0.P.cat ((h1.cat (hc.cat h2) : Span _ _ _ (parens _)).cat (h3.P.cat ((span_word hn hnw).cat
          (h4.cat (Span.cat ?_ h5.E))))))
        cases x with
        | none => exact (hx.2 rfl rfl).cat (Span.only H.odd)
        | some l =>
          have := hx.1 l rfl
          cases l with
          | nil => exact this.2.elim
          | cons => exact this
    · refine pc_bindOf (wp_mustNext fun _ _ _ => pg_expectToken fun h1 => ?_)
      refine pc_seq (gr_parseExpr H _) fun e b he => pg_nextSym fun _ h2 => ?_
      exact pc_pure ((kwd_ ‹_›).F.cat (h1.cat (he.cat h2.E)))
    · exact pc_err

theorem gr_tableConstraints (hk : KwOK T) (H : Gr T fns q r) (i : Nat) :
    pc T (parseTableConstraints r) i fun c j => Span T i j (c.lang fns q) := by
  unfold parseTableConstraints
  refine pc_bindOf (wp_peekToken (fun t ht _ => ?_) fun _ => pc_err)
  dsimp only
  split
  · exact pc_err
  · rename_i w hw
    refine pc_ite (fun hc => ?_) fun _ => ?_
    · refine pc_bindOf (wp_mustNext fun _ _ _ => pg_identifier fun x h => ?_)
      refine pc_bindOf (wp_mustPeek fun t' ht' _ => pc_seq (gr_tableConstraintSpec hk H ht') fun s j hs => ?_)
      exact pc_pure (Span.cat ((span_kwOf hk ht (word_tok hw) hc).F.cat h : Span _ _ _ (nameLang _ (some x))) hs)
    · refine pc_bindOf (wp_mustPeek fun t' ht' _ => pc_seq (gr_tableConstraintSpec hk H ht') fun s j hs => ?_)
      exact pc_pure (Span.cat (Span.unset : Span _ _ _ (nameLang _ none)) hs)

theorem gr_parseElement (hk : KwOK T) (H : Gr T fns q r) {w : SQLWord} (i : Nat) :
    pc T (parseElement r w) (i + 1) fun c j => Span T i j (c.lang fns q) := by
  have hc : pc T (parseElement.parseC r) i fun c j => Span T i j (c.lang fns q) := by
    unfold parseElement.parseC
    exact pc_seq (gr_tableConstraints hk H i) fun c _ hc => pc_pure hc
  unfold parseElement
  refine pg_prev ?_
  split
  · exact hc
  · exact hc
  · exact hc
  · exact hc
  · exact hc
  · exact pc_seq (gr_columnDef hk H i) fun c _ hc => pc_pure hc

theorem gr_elementsF (hk : KwOK T) (H : Gr T fns q r) (i : Nat) : pc T (elementsF r) i fun es j =>
    Span T i j (sepBy .Comma (es.map (TableElement.lang fns q)) ⬝ sym .RParen) := by
  unfold elementsF
  refine pc_bindOf (wp_nextToken (fun t ht _ => ?_) fun _ => pc_err)
  dsimp only
  split
  · exact pc_err
  · refine pc_seq (gr_parseElement hk H i) fun e a he => ?_
    refine pc_bindOf (wp_nextToken (fun t' ht' _ => ?_) fun _ => pc_panic)
    dsimp only
    refine pc_ite (fun hs => pc_pure (Span.cat he.sepOne (span_sym ht' hs).P)) fun _ => ?_
    refine pc_ite (fun hs => ?_) fun _ => pc_panic
    refine pc_seq (H.elements _) fun es j hes => pc_pure ?_
    cases es with
    | nil => obtain ⟨_, _, _, _, h, _⟩ := hes; exact h.elim
    | cons x xs =>
      have h1 := he.cat ((span_sym ht' hs).P.cat hes)
      refine h1.mono ?_
      rintro _ ⟨a, _, rfl, ha, b, _, rfl, hb, c, d, rfl, hc, hd⟩
      exact ⟨a ++ (b ++ c), d, by simp, ⟨a, b ++ c, rfl, ha, b, c, rfl, hb, hc⟩, hd⟩

theorem gr_parseElements (H : Gr T fns q r) (i : Nat) : pc T (parseElements r) i fun es j =>
    Span T i j (clause parens (es.map (TableElement.lang fns q))) := by
  unfold parseElements
  refine pg_consumeIf (fun h => ?_) (pc_pure Span.clauseNone)
  refine pc_mono (H.elements _) fun es j hes => ?_
  cases es with
  | nil => obtain ⟨_, _, _, _, h, _⟩ := hes; exact h.elim
  | cons x xs => exact h.cat hes

theorem gr_optionName (i : Nat) : pc T parseOptionName i fun x j =>
    Span T i j (flag x.1 (sym .Eq) ⬝ word [] x.2) := by
  unfold parseOptionName
  refine pc_bindOf (wp_mustPeek fun t ht _ => pc_ite (fun hs => ?_) fun _ => ?_)
  · refine pc_bindOf (wp_mustNext fun _ _ _ => pc_bindOf (wp_mustPeek fun t' ht' _ => ?_))
    split
    · exact pc_err
    · exact pg_identifier fun x h => pc_pure ((span_sym ht hs).P.flagT.cat h)
  · split
    · exact pc_err
    · exact pg_identifier fun x h => pc_pure (Span.flagF.cat h)

theorem gr_tableOption (hk : KwOK T) (i : Nat) : pc T parseTableOption i fun o j => Span T i j o.lang := by
  unfold parseTableOption
  refine pc_bindOf (wp_mustPeek fun t ht _ => ?_)
  split
  · exact pc_err
  · rename_i w hw
    have kwd_ : ∀ {k : KW}, kwOf w.keyword = some k → Span T i (i + 1) (spans t.from_ t.to_ (kwd k)) :=
      fun h => span_kwOf hk ht (word_tok hw) h
    refine pc_bindOf (wp_mustNext fun _ _ _ => ?_)
    split
    · exact pc_seq (gr_optionName _) fun x j hx => pc_pure ((kwd_ ‹_›).F.cat hx)
    · refine pg_kwOrErr fun c h => ?_
      exact pc_seq (gr_optionName _) fun x j hx => pc_pure ((kwd_ ‹_›).F.flagFromT.cat (h.F.cat hx))
    · exact pc_seq (gr_optionName _) fun x j hx => pc_pure (Span.flagFromF.cat ((kwd_ ‹_›).F.cat hx))
    · exact pc_err

theorem gr_tableOptionsF (hk : KwOK T) (H : Gr T fns q r) (i : Nat) : pc T (tableOptionsF r) i fun os j =>
    Span T i j (concat (os.map TableOption.lang) ⬝ opt (sym .Comma)) := by
  unfold tableOptionsF
  refine pc_bindOf (wp_peekToken (fun t ht _ => ?_) fun _ => pc_pure (Span.eps.cat Span.optNone))
  dsimp only
  refine pc_ite (fun hs => ?_) fun _ => ?_
  · exact pc_bindOf (wp_mustNext fun _ _ _ => pc_pure (Span.eps.cat (span_sym ht hs).P.opt))
  · split
    · exact pc_pure (Span.eps.cat Span.optNone)
    · refine pc_seq (gr_tableOption hk i) fun o a ho => pc_seq (H.tableOptions a) fun os j hos => pc_pure ?_
      refine (ho.cat hos).mono ?_
      rintro _ ⟨x, _, rfl, hx, y, z, rfl, hy, hz⟩
      exact ⟨x ++ y, z, by simp, ⟨x, y, rfl, hx, hy⟩, hz⟩

theorem gr_assignmentsF (H : Gr T fns q r) (i : Nat) : pc T (assignmentsF r) i fun as j =>
    Span T i j (sepBy .Comma (as.map (Assignment.lang fns q))) := by
  unfold assignmentsF
  refine pc_bindOf (wp_mustNext fun t ht _ => ?_)
  split
  · exact pc_err
  · rename_i w hw
    refine pg_expectToken fun h1 => pc_seq (gr_parseExpr H _) fun e a he => ?_
    have h2 : Span T i a ((Assignment.mk ⟨w.string, t.from_, t.to_⟩ e).lang fns q) :=
      (span_word ht hw).cat (h1.cat he)
    refine pg_consumeIf (fun h3 => ?_) (pc_pure h2.sepOne)
    exact pc_seq (H.assignments _) fun as j has => pc_pure (h2.sepMore h3 has)

theorem gr_rowsF (H : Gr T fns q r) (i : Nat) : pc T (rowsF r) i fun rs j =>
    Span T i j (sepBy .Comma (rs.map (RowValueExpr.lang fns q))) := by
  unfold rowsF
  refine pg_nextSym fun l h1 => pc_seq (H.exprList _) fun v a hv => pg_nextSym fun rp h2 => ?_
  have h3 : Span T i (a + 1) ((RowValueExpr.mk v l.from_ rp.to_).lang fns q) := h1.F.cat (hv.cat h2.E)
  refine pg_consumeIf (fun h4 => ?_) (pc_pure h3.sepOne)
  exact pc_seq (H.rows _) fun as j has => pc_pure (h3.sepMore h4 has)

/-! ### Statements -/

theorem gr_columns (H : Gr T fns q r) (i : Nat) : pc T (do
      if ← consumeToken .LParen then do
        let c ← parseColumnNames r
        expectToken .RParen
        pure c
      else pure []) i fun c j => Span T i j (columnsLang c) := by
  refine pg_consumeIf (fun h => ?_) (pc_pure Span.clauseNone)
  refine pc_seq (gr_parseColumnNames H _) fun c a hc => pg_expectToken fun h2 => pc_pure ?_
  exact Span.clause (h.cat (Span.cat hc h2)) ⟨_, _, hc⟩

theorem gr_createTable (H : Gr T fns q r) (t : Token) (h0 : Span T i k (t.from_ ▹ kwd .CREATE ⬝ kwd .TABLE)) :
    pc T (parseCreateTable r t) k fun s j => Span T i j (s.lang fns q) := by
  unfold parseCreateTable
  have key : ∀ (x : Option (List Token)) m, Span T k m (flag x.isSome (kwd .IF ⬝ kwd .NOT ⬝ kwd .EXISTS)) → pc T (do
      let name ← parseObjectName r
      let elements ← parseElements r
      let options ← r.tableOptions
      pure (Stmt.createTable t.from_ name elements x.isSome options)) m fun s j => Span T i j (s.lang fns q) := by
    intro x m hm
    refine pc_seq (gr_parseObjectName H _) fun o a ho => pc_seq (gr_parseElements H _) fun es b hes => ?_
    refine pc_seq (H.tableOptions _) fun os j hos => pc_pure ?_
    exact Span.assoc (h0.cat (hm.cat (ho.cat (hes.cat hos))))
  exact pg_keywords (fun ts j h => key (some ts) j h.flagT) (key none _ Span.flagF)

theorem gr_createView (H : Gr T fns q r) (t : Token) (h0 : Span T i k (t.from_ ▹ kwd .CREATE ⬝ opt (kwd .MATERIALIZED)))
    (hv : ∀ u, T[k]? = some u → u.matchesKw KW.MATERIALIZED.str = true →
      ∀ v, T[k + 1]? = some v → v.matchesKw KW.VIEW.str = false) :
    pc T (parseCreateView r t) k fun s j => Span T i j (s.lang fns q) := by
  unfold parseCreateView
  refine pc_bindOf (wp_kw (fun u hu hm _ => ?_) fun _ => ?_)
  · refine pc_bindOf (wp_expectKeyword fun v hv' hm' _ => ?_)
    rw [hv u hu hm v hv'] at hm'; cases hm'
  · refine pg_expectKeyword fun _ h1 => pc_seq (gr_parseObjectName H _) fun o a ho => ?_
    refine pg_expectKeyword fun _ h2 => pc_seq (H.query _) fun s j hs => pc_pure ?_
    exact Span.assoc (h0.cat (h1.P.cat (ho.cat (h2.P.cat hs.1))))

theorem equalFold_of_upper {s k : Str} (h : upper s = k) (hk : ∀ c ∈ k, 'A' ≤ c ∧ c ≤ 'Z' ∧ c ≠ 'I') :
    equalFold s k = true := by
  subst h
  simp only [equalFold, beq_iff_eq]
  induction s with
  | nil => rfl
  | cons c s ih =>
    simp only [upper, List.map_cons, List.cons.injEq]
    exact ⟨upper_fold rfl (hk _ (by simp [upper])), ih fun k hk' => hk k (by simp [upper] at hk' ⊢; exact .inr hk')⟩

theorem gr_createIndex (H : Gr T fns q r) (u : Bool) (h0 : Span T i k (kwd .CREATE
      ⬝ (if u then opt (kwd .INDEX) ⬝ kwd .UNIQUE ⬝ kwd .INDEX else kwd .INDEX))) :
    pc T (parseCreateIndex r u) k fun s j => Span T i j (s.lang fns q) := by
  unfold parseCreateIndex
  have h1 : pc T (do
      if ← kw .ON then pure none
      else do
        let n ← parseIdentifier
        let _ ← expectKeyword .ON
        pure (some n)) k fun x j => Span T k j (optional id (x.map (word [.ON])) ⬝ kwd .ON) := by
    refine pc_bindOf (wp_kw (fun u hu hm _ => pc_pure (Span.eps.cat (span_kw hu hm).P)) fun hno => ?_)
    simp only [Bool.false_eq_true, if_false]
    unfold parseIdentifier
    refine pc_bind (pc_bindOf (wp_nextOrErr fun t ht _ => ?_))
    split
    · exact pc_err
    · rename_i w hw
      refine pc_pure (pg_expectKeyword fun _ h2 => pc_pure ?_)
      refine Span.cat (Span.one ht ?_) h2.P
      refine ⟨t, w, rfl, word_tok hw, rfl, rfl, rfl, ?_⟩
      rintro k hk h
      rw [List.mem_singleton.1 hk] at h
      have h3 := equalFold_of_upper h (by decide)
      have h4 := hno t ht
      simp [Token.matchesKw, word_tok hw, h3] at h4
  refine pc_seq h1 fun n a hn => pc_seq (gr_parseObjectName H _) fun o b ho => ?_
  have h2 : pc T (do
      if ← kw .USING then do
        let m ← parseIdentifier
        pure (some m)
      else pure none) b fun x j => Span T b j (optional (kwd .USING ⬝ ·) (x.map (word []))) := by
    refine pg_kwIf (fun h => ?_) (pc_pure Span.eps)
    exact pg_identifier fun x h' => pc_pure (h.cat h')
  refine pc_seq h2 fun m c hm => pc_seq (gr_columns H _) fun cs d hcs => ?_
  refine pc_seq (gr_optExpr H .WHERE _) fun e j he => pc_pure ?_
  exact Span.assoc (h0.cat (Span.assoc (hn.cat (ho.cat (hm.cat (hcs.cat (Span.cat he Span.unset2)))))))

theorem gr_parseCreate (H : Gr T fns q r) (i : Nat) : pc T (parseCreate r) i fun s j => Span T i j (s.lang fns q) := by
  unfold parseCreate
  refine pg_kwOrErr fun t h0 => pg_kwIf (fun h1 => gr_createTable H t (h0.F.cat h1)) ?_
  refine pc_bindOf (wp_kw (fun u hu hm _ => ?_) fun hno => ?_)
  · refine pc_bindOf (wp_kw (fun v hv hm' _ => ?_) fun hno' => ?_)
    · simp only [Bool.or_self, if_true]
      refine pg_prev (gr_createView H t (h0.F.cat (span_kw hu hm).P.opt) fun x hx hxm => ?_)
      rw [hv] at hx; cases hx
      exact absurd (matchesKw_unique hxm hm') (by decide)
    · simp only [Bool.or_false, if_true]
      exact pg_prev (gr_createView H t (h0.F.cat Span.optNone) fun x hx hxm v hv => hno' v hv)
  · refine pc_bindOf (wp_kw (fun v hv hm' _ => ?_) fun hno' => ?_)
    · simp only [Bool.or_true, if_true]
      refine pg_prev (gr_createView H t (h0.F.cat Span.optNone) fun x hx hxm => ?_)
      rw [hv] at hx; cases hx
      exact absurd (matchesKw_unique hxm hm') (by decide)
    · simp only [Bool.or_self, Bool.false_eq_true, if_false]
      refine pg_kw (fun h1 => ?_) ?_
      · refine pg_keywords (fun ts j h2 => ?_) ?_
        · simp only [Bool.true_or, if_true, Option.isSome_some]
          exact gr_createIndex H true (h0.P.cat (h1.opt.cat h2))
        · simp only [Bool.true_or, if_true, Option.isSome_none]
          exact gr_createIndex H false (h0.P.cat h1)
      · refine pg_keywords (fun ts j h2 => ?_) ?_
        · simp only [Bool.or_true, if_true, Option.isSome_some]
          exact gr_createIndex H true (h0.P.cat (Span.optNone.cat h2))
        · simp only [Bool.or_self, Bool.false_eq_true, if_false, Option.isSome_none]
          exact pc_panic

theorem gr_parseDelete (H : Gr T fns q r) (i : Nat) : pc T (parseDelete r) i fun s j => Span T i j (s.lang fns q) := by
  unfold parseDelete
  refine pg_kwOrErr fun t h0 => pg_expectKeyword fun _ h1 => pc_seq (gr_parseObjectName H _) fun o a ho => ?_
  exact pc_seq (gr_optExpr H .WHERE _) fun e j he => pc_pure (h0.F.cat (h1.P.cat (ho.cat he)))

theorem gr_parseUpdate (H : Gr T fns q r) (i : Nat) : pc T (parseUpdate r) i fun s j => Span T i j (s.lang fns q) := by
  unfold parseUpdate
  refine pg_kwOrErr fun t h0 => pc_seq (gr_parseObjectName H _) fun o a ho => pg_expectKeyword fun _ h1 => ?_
  refine pc_seq (H.assignments _) fun as b has => ?_
  exact pc_seq (gr_optExpr H .WHERE _) fun e j he => pc_pure (h0.F.cat (ho.cat (h1.P.cat (has.cat he))))

theorem gr_parseInsert (H : Gr T fns q r) (i : Nat) : pc T (parseInsert r) i fun s j => Span T i j (s.lang fns q) := by
  unfold parseInsert
  refine pg_kwOrErr fun t h0 => pg_expectKeyword fun _ h1 => pc_seq (gr_parseObjectName H _) fun o a ho => ?_
  refine pc_seq (gr_columns H _) fun cs b hcs => ?_
  have h2 : pc T (do
      if ← kw .VALUES then do
        let rows ← r.rows
        pure (InsertSource.constructor Pos.zero rows)
      else do
        let q ← r.query
        pure (.subQuery q)) b fun s j => Span T b j (s.lang fns q) := by
    refine pg_kwIf (fun h => ?_) ?_
    · exact pc_seq (H.rows _) fun rs j hrs => pc_pure (h.cat (Span.cat hrs Span.unset))
    · exact pc_seq (H.query _) fun s j hs => pc_pure hs.1
  refine pc_seq h2 fun src c hsrc => ?_
  have h3 : pc T (do
      match ← parseKeywords [.ON, .DUPLICATE, .KEY, .UPDATE] with
      | some _ => r.assignments
      | none => pure []) c fun as j => Span T c j (clause (kwd .ON ⬝ kwd .DUPLICATE ⬝ kwd .KEY ⬝ kwd .UPDATE ⬝ ·)
        (as.map (Assignment.lang fns q))) := by
    refine pg_keywords (fun ts j h => ?_) (pc_pure Span.clauseNone)
    refine pc_mono (H.assignments _) fun as l has => Span.clause ?_ ⟨_, _, has⟩
    refine (h.cat has).mono ?_
    rintro _ ⟨_, e, rfl, ⟨a, _, rfl, ha, b, _, rfl, hb, c, d, rfl, hc, hd⟩, he⟩
    exact ⟨a, b ++ (c ++ (d ++ e)), by simp, ha, b, _, rfl, hb, c, _, rfl, hc, d, e, rfl, hd, he⟩
  exact pc_seq h3 fun as j has => pc_pure (h0.F.cat (h1.P.cat (ho.cat (hcs.cat (hsrc.cat has)))))

theorem gr_cascade (i : Nat) : pc T parseCascade i fun x j => Span T i j (flagTo x.1 x.2 (kwd .CASCADE)) := by
  unfold parseCascade
  exact pg_kwTok (fun t h => pc_pure h.E.flagToT) (pc_pure Span.flagToF)

theorem gr_alterColumn (hk : KwOK T) (H : Gr T fns q r) (t : Token)
    (h0 : Span T i k (t.from_ ▹ kwd .ALTER ⬝ kwd .COLUMN)) :
    pc T (parseAlterColumn r t) k fun a j => Span T i j (a.lang fns q) := by
  unfold parseAlterColumn
  refine pg_identifier fun x h1 => pc_bindOf (wp_mustNext fun t' ht _ => ?_)
  split
  · exact pc_err
  · rename_i w hw
    have kwd_ : ∀ {c : KW}, kwOf w.keyword = some c → Span T (k + 1) (k + 1 + 1) (t'.from_ ▹ kwd c) :=
      fun h => (span_kwOf hk ht (word_tok hw) h).F
    split
    · refine pg_kwIf (fun h2 => ?_) (pg_keywords2 (fun u v h2 h3 => ?_) pc_err)
      · refine pc_seq (gr_defaultExpr H _) fun e j he => pc_pure ?_
        exact Span.assoc (h0.cat (h1.cat ((kwd_ ‹_›).cat (h2.cat he))))
      · exact pc_pure (Span.assoc (h0.cat (h1.cat ((kwd_ ‹_›).cat (h2.P.cat h3.E)))))
    · refine pg_kwTok (fun dt h2 => ?_) (pg_keywords2 (fun u v h2 h3 => ?_) pc_err)
      · exact pc_pure (Span.assoc (h0.cat (h1.cat ((kwd_ ‹_›).cat h2.E))))
      · exact pc_pure (Span.assoc (h0.cat (h1.cat ((kwd_ ‹_›).cat (h2.P.cat h3.E)))))
    · refine pc_seq (gr_parseDataType hk H _) fun dt j hdt => pc_pure ?_
      exact Span.assoc (h0.cat (h1.cat ((kwd_ ‹_›).cat hdt)))
    · exact pc_err

theorem gr_alterAction (hk : KwOK T) (H : Gr T fns q r) (i : Nat) :
    pc T (parseAlterAction r) i fun a j => Span T i j (a.lang fns q) := by
  unfold parseAlterAction
  refine pg_keywords2 (fun u v h h' => ?_) (pg_kwTok (fun t h => ?_) (pg_keywords2 (fun u v h h' => ?_)
    (pg_keywords2 (fun u v h h' => ?_) (pg_keywords2 (fun u v h h' => ?_) pc_err))))
  · exact pc_seq (gr_columnDef hk H _) fun c j hc => pc_pure (h.F.cat (h'.P.cat hc))
  · exact pc_seq (gr_tableConstraints hk H _) fun c j hc => pc_pure (h.F.cat hc)
  · refine pg_identifier fun x h1 => pc_seq (gr_cascade _) fun c j hc => ?_
    exact pc_pure (h.F.cat (h'.P.cat (h1.cat hc)))
  · refine pg_identifier fun x h1 => pc_seq (gr_cascade _) fun c j hc => ?_
    exact pc_pure (h.F.cat (h'.P.cat (h1.cat hc)))
  · exact gr_alterColumn hk H _ (h.F.cat h'.P)

theorem gr_parseAlter (hk : KwOK T) (H : Gr T fns q r) (i : Nat) :
    pc T (parseAlter r) i fun s j => Span T i j (s.lang fns q) := by
  unfold parseAlter
  refine pg_kwOrErr fun t h0 => pg_expectKeyword fun _ h1 => pc_seq (gr_parseObjectName H _) fun o a ho => ?_
  exact pc_seq (gr_alterAction hk H _) fun e j he => pc_pure (h0.F.cat (h1.P.cat (ho.cat he)))

theorem gr_parseDrop (H : Gr T fns q r) (i : Nat) : pc T (parseDrop r) i fun s j => Span T i j (s.lang fns q) := by
  unfold parseDrop
  refine pg_kwOrErr fun t h0 => pg_kwIf (fun h1 => ?_) (pg_expectKeyword fun _ h1 => ?_)
  · have key : ∀ (x : Option (List Token)) m, Span T (i + 1 + 1) m (flag x.isSome (kwd .IF ⬝ kwd .EXISTS)) → pc T (do
        let name ← parseObjectName r
        let (cascade, pos) ← parseCascade
        pure (Stmt.dropTable [name] cascade pos x.isSome t.from_)) m fun s j => Span T i j (s.lang fns q) := by
      intro x m hm
      refine pc_seq (gr_parseObjectName H _) fun o a ho => pc_seq (gr_cascade _) fun c j hc => pc_pure ?_
      exact h0.F.cat (h1.cat (hm.cat (Span.cat ho.sepOne hc)))
    exact pg_keywords (fun ts j h => key (some ts) j h.flagT) (key none _ Span.flagF)
  · exact pc_seq (gr_parseColumnNames H _) fun c j hc => pc_pure (h0.F.cat (h1.P.cat hc))

theorem gr_statementF (hk : KwOK T) (H : Gr T fns q r) (i : Nat) :
    pc T (statementF r) i fun s j => Span T i j (s.lang fns q) := by
  unfold statementF
  refine pc_bindOf (wp_nextOrErr fun t ht _ => ?_)
  split
  · exact pc_err
  · rename_i w hw
    have hq : pc T (statementF.parseQueryStmt r) (i + 1) fun s j => Span T i j (s.lang fns q) := by
      unfold statementF.parseQueryStmt
      exact pg_prev (pc_seq (H.query _) fun s j hs => pc_pure hs.1)
    split
    · exact hq
    · exact hq
    · exact pg_prev (gr_parseCreate H i)
    · exact pg_prev (gr_parseDelete H i)
    · exact pg_prev (gr_parseInsert H i)
    · exact pg_prev (gr_parseAlter hk H i)
    · exact pg_prev (gr_parseUpdate H i)
    · exact pg_prev (gr_parseDrop H i)
    · exact pc_seq (H.statement _) fun s j hs => pc_pure ((span_kwOf hk ht (word_tok hw) ‹_›).P.cat (hs.cat Span.unset))
    · exact pc_err

theorem gr_step (hk : KwOK T) (hq : QuirksOK T q) (H : Gr T fns q r) : Gr T fns q (.step fns r) where
  odd := H.odd
  subexpr := gr_subexprF H
  subexprLoop := fun p e i k he => gr_subexprLoopF hk H p he
  prefix_ := gr_prefixF hk H
  idParts := gr_idPartsF H
  exprList := gr_exprListF H
  listOfIds := gr_listOfIdsF H
  listOfIdsSep := gr_listOfIdsSepF H
  orderByList := gr_orderByListF H
  caseLoop := fun i k h => gr_caseLoopF H h
  query := gr_queryF H
  queryBody := gr_queryBodyF H
  bodyLoop := fun p e i k he => gr_bodyLoopF hk H he
  cteList := gr_cteListF H
  selectList := gr_selectListF hk H
  tableRef := gr_tableRefF hk hq H
  tableRefLoop := fun f e i m k hf hm he => gr_tableRefLoopF hk hq H hf hm he
  fromRest := gr_fromRestF H
  defaultLoop := fun e i k he => gr_defaultLoopF hk H he
  columnLoop := fun d s a i k items hs hi => gr_columnLoopF hk H hs hi
  columnConstraints := gr_columnConstraintsF hk H
  elements := gr_elementsF hk H
  tableOptions := gr_tableOptionsF hk H
  assignments := gr_assignmentsF H
  rows := gr_rowsF H
  statement := gr_statementF hk H

theorem gr_at (fns : FloatFns) (hk : KwOK T) (hq : QuirksOK T q) : ∀ n, Gr T fns q (Parsers.at fns n)
  | 0 => by
    constructor
    · exact hq.odd
    all_goals (intros; intro x j hx; cases hx)
  | n + 1 => gr_step hk hq (gr_at fns hk hq n)

end Verif
