import Verif.Proofs.ParseQuery
/-
Every well-formed expression and query is read back: the construct lemmas put together by recursion on the tree.
-/
set_option linter.unusedSimpArgs false
set_option linter.unusedVariables false
namespace Verif

variable {d : Dialect} {fns : FloatFns}

theorem ParsesA.expr {e : Expr} (hw : e.wf d fns = true) (h : ParsesA fns e) : ParsesE fns e := h.sub.full.expr hw

mutual

theorem Expr.parses : (e : Expr) → e.wf d fns = true → ParsesA fns e
  | .ident i, h => (parse_ident (by simpa only [Expr.wf] using h)).all
  | .wildcard _, _ => parse_wildcard.all
  | .qualifiedWildcard is, h => (parse_qualifiedWildcard (by simpa only [Expr.wf] using h)).all
  | .compoundIdent is, h => by
    simp only [Expr.wf, Bool.and_eq_true, decide_eq_true_eq] at h
    exact (parse_compound h.1 h.2).all
  | .isNull x, h => by
    have w := h
    simp only [Expr.wf, Bool.and_eq_true] at w
    exact parse_isNull h (Expr.parses x w.1)
  | .isNotNull x, h => by
    have w := h
    simp only [Expr.wf, Bool.and_eq_true] at w
    exact parse_isNotNull h (Expr.parses x w.1)
  | .inList x l neg _, h => by
    have w := h
    simp only [Expr.wf, Bool.and_eq_true] at w
    exact parse_inList h (Expr.parses x w.1.1.1) (Expr.parsesL l w.2)
  | .inSubQuery x q neg _, h => by
    have w := h
    simp only [Expr.wf, Bool.and_eq_true] at w
    exact parse_inSubQuery h (Expr.parses x w.1.1.1) (QueryStmt.parses q w.1.2)
  | .between x neg low high, h => by
    have w := h
    simp only [Expr.wf, Bool.and_eq_true] at w
    exact parse_between h (Expr.parses x w.1.1.1.1.1.1) ((Expr.parses low w.1.1.1.1.2).pre w.1.1.1.2)
      ((Expr.parses high w.1.2).pre w.2)
  | .binary l op r, h => by
    have w := h
    simp only [Expr.wf, Bool.and_eq_true] at w
    exact parse_binary h (Expr.parses l w.1.1.1.1) (Expr.parses r w.1.1.1.2).sub.full
  | .cast e ty _ _, h => by
    simp only [Expr.wf, Bool.and_eq_true] at h
    exact (parse_cast ((Expr.parses e h.1).expr h.1) h.2).all
  | .nested e _ _, h => by
    simp only [Expr.wf] at h
    exact (parse_nested h ((Expr.parses e h).expr h)).all
  | .unary _ op e, h => by
    have w := h
    simp only [Expr.wf, Bool.and_eq_true] at w
    exact (parse_unary h (Expr.parses e w.1).sub.full).all
  | .function name args _ over _, h => by
    simp only [Expr.wf, Bool.and_eq_true] at h
    exact (parse_function h.1.1 h.1.2 (Expr.parsesL args h.1.2) (WindowSpec.parsesO over h.2)).all
  | .caseExpr _ _ operand conds results else_, h => by
    simp only [Expr.wf, Bool.and_eq_true, beq_iff_eq, Bool.not_eq_true', List.isEmpty_eq_false_iff] at h
    obtain ⟨⟨⟨⟨⟨h1, h2⟩, h3⟩, h4⟩, h5⟩, h6⟩ := h
    exact (parse_case (d := d) h2 h3 (Expr.parsesL conds h4) (Expr.parsesL results h5) (Expr.parsesO operand h1)
      fun e he => (Expr.parsesO else_ h6 e he).1).all
  | .exists_ _ q _ _ _, h => by
    simp only [Expr.wf] at h
    exact (parse_exists (QueryStmt.parses q h)).all
  | .subQuery _ _ q, h => by
    simp only [Expr.wf, Bool.and_eq_true] at h
    exact (parse_subQuery h.1 h.2 (QueryStmt.parses q h.1)).all
  | .long v, h => (parse_long (by simpa only [Expr.wf] using h)).all
  | .double _ _ v, h => (parse_double (by simpa only [Expr.wf] using h)).all
  | .singleQuoted _ _ s, h => parse_single.all
  | .national _ _ s, h => parse_national.all
  | .boolean _ _ _, _ => parse_boolean.all
  | .null _ _, _ => parse_null.all
  | .timeValue _ _ _ _, h => by simp [Expr.wf] at h

theorem Expr.parsesO : (o : Option Expr) → Expr.wfO d fns o = true → ∀ e, o = some e → ParsesE fns e ∧ e.wf d fns = true
  | some x, h => by
    simp only [Expr.wfO] at h
    have h1 := (Expr.parses x h).expr h
    intro e he
    cases he
    exact ⟨h1, h⟩
  | none, _ => by intro e he; cases he

theorem Expr.parsesL : (es : List Expr) → Expr.wfs d fns es = true → ∀ e ∈ es, ParsesE fns e
  | [], _ => by intro e he; cases he
  | x :: xs, h => by
    simp only [Expr.wfs, Bool.and_eq_true] at h
    have h1 := (Expr.parses x h.1).expr h.1
    have h2 := Expr.parsesL xs h.2
    intro e he
    rcases List.mem_cons.mp he with rfl | he
    · exact h1
    · exact h2 e he

theorem WindowSpec.parsesO : (o : Option WindowSpec) → WindowSpec.wfO d fns o = true → ∀ w, o = some w → ParsesW fns w
  | some x, h => by
    simp only [WindowSpec.wfO] at h
    have h1 := WindowSpec.parses x h
    intro e he
    cases he
    exact h1
  | none, _ => by intro e he; cases he

theorem WindowSpec.parses : (w : WindowSpec) → w.wf d fns = true → ParsesW fns w
  | .mk ps os f x y, h => by
    simp only [WindowSpec.wf, Bool.and_eq_true] at h
    refine parse_window (Expr.parsesL ps h.1.1) (OrderByExpr.parsesL os h.1.2) fun g hg => ?_
    subst hg
    exact h.2

theorem OrderByExpr.parsesL : (os : List OrderByExpr) → OrderByExpr.wfs d fns os = true →
    ∀ e p asc, .mk e p asc ∈ os → ParsesE fns e
  | [], _ => by intro e p asc he; cases he
  | .mk x y z :: xs, h => by
    simp only [OrderByExpr.wfs, OrderByExpr.wf, Bool.and_eq_true] at h
    have h1 := (Expr.parses x h.1).expr h.1
    have h2 := OrderByExpr.parsesL xs h.2
    intro e p asc he
    rcases List.mem_cons.mp he with he | he
    · cases he; exact h1
    · exact h2 e p asc he

theorem QueryStmt.parses : (q : QueryStmt) → q.wf d fns = true → ParsesQ fns q
  | .mk p ctes body os lim, h => by
    have w := h
    simp only [QueryStmt.wf, Bool.and_eq_true] at w
    exact parse_query h (CTE.parsesL ctes w.1.1.1) (SetExpr.parses body w.1.1.2) (OrderByExpr.parsesL os w.1.2)

theorem CTE.parsesL : (cs : List CTE) → CTE.wfs d fns cs = true → ∀ c ∈ cs, CTEE fns c
  | [], _ => by intro e he; cases he
  | .mk a q p :: xs, h => by
    simp only [CTE.wfs, CTE.wf, Bool.and_eq_true] at h
    have h1 := QueryStmt.parses q h.1.2
    have h2 := CTE.parsesL xs h.2
    intro e he
    rcases List.mem_cons.mp he with rfl | he
    · exact h1
    · exact h2 e he

theorem SetExpr.parses : (s : SetExpr) → s.wf d fns = true → ParsesB fns s
  | .selectExpr _, h => by simp [SetExpr.wf] at h
  | .select (.mk distinct projection from_ where_ groupBy having p), h => by
    simp only [SetExpr.wf] at h
    have w := h
    simp only [SQLSelect.wf, Bool.and_eq_true] at w
    obtain ⟨⟨⟨⟨⟨⟨w1, w2⟩, w3⟩, w4⟩, w5⟩, w6⟩, w7⟩ := w
    exact parse_setSelect (parse_select h (SelectItem.parsesL projection w2) (TableRef.parsesL from_ w3)
      (fun e he => (Expr.parsesO where_ w4 e he).1) (Expr.parsesL groupBy w5) fun e he => (Expr.parsesO having w6 e he).1)
  | .query _ _ q, h => parse_setQuery (QueryStmt.parses q (by simpa only [SetExpr.wf] using h))
  | .setOp op all l r, h => by
    have w := h
    simp only [SetExpr.wf, Bool.and_eq_true] at w
    exact parse_setOp h (SetExpr.parses l w.1.1.1) (SetExpr.parses r w.1.1.2).full

theorem SelectItem.parsesL : (is : List SelectItem) → SelectItem.wfs d fns is = true → ∀ i ∈ is, ItemE fns i
  | [], _ => by intro e he; cases he
  | x :: xs, h => by
    simp only [SelectItem.wfs, Bool.and_eq_true] at h
    have h1 := SelectItem.parses x h.1
    have h2 := SelectItem.parsesL xs h.2
    intro e he
    rcases List.mem_cons.mp he with rfl | he
    · exact h1
    · exact h2 e he

theorem SelectItem.parses : (i : SelectItem) → i.wf d fns = true → ItemE fns i
  | .unnamed e, h => by
    simp only [SelectItem.wf, Bool.and_eq_true] at h
    exact (Expr.parses e h.1).expr h.1
  | .alias e a, h => by
    simp only [SelectItem.wf, Bool.and_eq_true] at h
    exact (Expr.parses e h.1.1).expr h.1.1
  | .qualifiedWildcard _, _ => trivial
  | .wildcard _ _, _ => trivial

theorem TableFactor.parses : (f : TableFactor) → f.wf d fns = true → FactorE fns f
  | .table name alias args _ hints _, h => by
    simp only [TableFactor.wf, Bool.and_eq_true] at h
    exact Expr.parsesL hints h.2
  | .derived _ _ _ _ q alias, h => by
    simp only [TableFactor.wf, Bool.and_eq_true] at h
    exact QueryStmt.parses q h.1

theorem TableRef.parses : (t : TableRef) → t.wf d fns = true → ParsesR fns t
  | .factor f, h => by
    simp only [TableRef.wf] at h
    exact parse_refFactor h (TableFactor.parses f h)
  | .cross (.factor l) f, h => by
    simp only [TableRef.wf, Bool.and_eq_true] at h
    exact parse_cross (parse_refFactor h.1.1 (TableFactor.parses l h.1.1)) h.2 (TableFactor.parses f h.2)
  | .cross (.cross _ _) f, h => by simp [TableRef.wf] at h
  | .cross (.partitioned _ _ _) f, h => by simp [TableRef.wf] at h
  | .cross (.qualified _ _ _ _) f, h => by simp [TableRef.wf] at h
  | .cross (.natural _ _ _) f, h => by simp [TableRef.wf] at h
  | .partitioned _ _ _, h => by simp [TableRef.wf] at h
  | .qualified l _ r spec, h => by
    simp only [TableRef.wf, Bool.and_eq_true] at h
    exact parse_qualified h.1.1.2 (TableRef.parses l h.1.1.1) (TableRef.parses r h.1.2).full (JoinSpec.parses spec h.2)
  | .natural l _ r, h => by
    simp only [TableRef.wf, Bool.and_eq_true] at h
    exact parse_natural h.1.2 (TableRef.parses l h.1.1) (TableRef.parses r h.2).full

theorem TableRef.parsesL : (ts : List TableRef) → TableRef.wfs d fns ts = true → ∀ t ∈ ts, ParsesT fns t
  | [], _ => by intro e he; cases he
  | x :: xs, h => by
    simp only [TableRef.wfs, Bool.and_eq_true] at h
    have h1 := (TableRef.parses x h.1).full
    have h2 := TableRef.parsesL xs h.2
    intro e he
    rcases List.mem_cons.mp he with rfl | he
    · exact h1
    · exact h2 e he

theorem JoinSpec.parses : (s : JoinSpec) → s.wf d fns = true → ParsesJ fns s
  | .namedColumns cols _ _, h => parse_joinSpec h (by intro e p he; cases he)
  | .condition e _, h => by
    have w := h
    simp only [JoinSpec.wf] at w
    have h1 := (Expr.parses e w).expr w
    exact parse_joinSpec h (by intro e p he; cases he; exact h1)

end

end Verif
