import Verif.Proofs.ReadQuery2
/-
Completeness of the grammar: the lemmas on the constructs put together by recursion on the tree.
-/
set_option linter.unusedSimpArgs false
set_option linter.unusedVariables false
namespace Verif
open Spec

variable {fns : FloatFns}

mutual

theorem Expr.reads : (e : Expr) → e.shape freeWord = true → AllA fns e
  | .ident i, h => fun ks hk => (read_ident (by simpa only [Expr.shape] using h) hk).all
  | .wildcard _, _ => fun ks hk => (read_wildcard hk).all
  | .qualifiedWildcard is, h => fun ks hk => (read_qualifiedWildcard (by simpa only [Expr.shape] using h) (by simpa only [Expr.lang] using hk)).all
  | .compoundIdent is, h => by
    simp only [Expr.shape, Bool.and_eq_true, decide_eq_true_eq] at h
    exact fun ks hk => (read_compound h.1 h.2 hk).all
  | .isNull x, h => by
    have w := h
    simp only [Expr.shape, Bool.and_eq_true] at w
    exact read_isNull h (Expr.reads x w.1)
  | .isNotNull x, h => by
    have w := h
    simp only [Expr.shape, Bool.and_eq_true] at w
    exact read_isNotNull h (Expr.reads x w.1)
  | .inList x l neg _, h => by
    have w := h
    simp only [Expr.shape, Bool.and_eq_true] at w
    exact read_inList h (Expr.reads x w.1.1.1) (Expr.readsL l w.2)
  | .inSubQuery x q neg _, h => by
    have w := h
    simp only [Expr.shape, Bool.and_eq_true] at w
    exact read_inSubQuery h (Expr.reads x w.1.1.1) (QueryStmt.reads q w.1.2)
  | .between x neg low high, h => by
    have w := h
    simp only [Expr.shape, Bool.and_eq_true] at w
    exact read_between h (Expr.reads x w.1.1.1.1.1.1) (Expr.reads low w.1.1.1.1.2)
      (Expr.reads high w.1.2)
  | .binary l op r, h => by
    have w := h
    simp only [Expr.shape, Bool.and_eq_true] at w
    exact read_binary h (Expr.reads l w.1.1.1.1) (fun ks hk => (Expr.reads r w.1.1.1.2 ks hk).sub.full)
  | .cast e ty _ _, h => by
    have w := h
    simp only [Expr.shape, Bool.and_eq_true] at w
    exact read_castA h (Expr.reads e w.1)
  | .nested e _ _, h => by
    simp only [Expr.shape] at h
    exact fun ks hk => (read_nested h ((Expr.reads e h).expr h) hk).all
  | .unary _ op e, h => by
    have w := h
    simp only [Expr.shape, Bool.and_eq_true] at w
    exact fun ks hk => (read_unary h (fun ks hk => (Expr.reads e w.1 ks hk).sub.full) hk).all
  | .function name args _ over _, h => by
    simp only [Expr.shape, Bool.and_eq_true] at h
    exact fun ks hk => (read_function h.1.1 h.1.2 (Expr.readsL args h.1.2) (WindowSpec.readsO over h.2) hk).all
  | .caseExpr _ _ operand conds results else_, h => by
    simp only [Expr.shape, Bool.and_eq_true, beq_iff_eq, Bool.not_eq_true', List.isEmpty_eq_false_iff] at h
    obtain ⟨⟨⟨⟨⟨h1, h2⟩, h3⟩, h4⟩, h5⟩, h6⟩ := h
    exact fun ks hk => (read_case h2 (Expr.readsL conds h4) (Expr.readsL results h5) (Expr.readsO operand h1)
      (fun e he => (Expr.readsO else_ h6 e he).1) hk).all
  | .exists_ _ q _ _ _, h => by
    simp only [Expr.shape] at h
    exact fun ks hk => (read_exists (QueryStmt.reads q h) hk).all
  | .subQuery _ _ q, h => by
    simp only [Expr.shape, Bool.and_eq_true] at h
    exact fun ks hk => (read_subQuery h.1 h.2 (QueryStmt.reads q h.1) hk).all
  | .long v, h => fun ks hk => (read_long (by simpa only [Expr.shape] using h) hk).all
  | .double _ _ v, h => fun ks hk => (read_double hk).all
  | .singleQuoted _ _ s, h => fun ks hk => (read_single hk).all
  | .national _ _ s, h => fun ks hk => (read_national hk).all
  | .boolean _ _ _, _ => fun ks hk => (read_boolean hk).all
  | .null _ _, _ => fun ks hk => (read_null hk).all
  | .timeValue _ _ _ _, h => by simp [Expr.shape] at h

theorem Expr.readsO : (o : Option Expr) → Expr.shapeO freeWord o = true → ∀ e, o = some e → AllE fns e ∧ e.shape freeWord = true
  | some x, h => by
    simp only [Expr.shapeO] at h
    have h1 := (Expr.reads x h).expr h
    intro e he
    cases he
    exact ⟨h1, h⟩
  | none, _ => by intro e he; cases he

theorem Expr.readsL : (es : List Expr) → Expr.shapes freeWord es = true → ∀ e ∈ es, AllE fns e
  | [], _ => by intro e he; cases he
  | x :: xs, h => by
    simp only [Expr.shapes, Bool.and_eq_true] at h
    have h1 := (Expr.reads x h.1).expr h.1
    have h2 := Expr.readsL xs h.2
    intro e he
    rcases List.mem_cons.mp he with rfl | he
    · exact h1
    · exact h2 e he

theorem WindowSpec.readsO : (o : Option WindowSpec) → WindowSpec.shapeO freeWord o = true → ∀ w, o = some w → AllW fns w
  | some x, h => by
    simp only [WindowSpec.shapeO] at h
    have h1 := WindowSpec.reads x h
    intro e he
    cases he
    exact h1
  | none, _ => by intro e he; cases he

theorem WindowSpec.reads : (w : WindowSpec) → w.shape freeWord = true → AllW fns w
  | .mk ps os f x y, h => by
    simp only [WindowSpec.shape, Bool.and_eq_true] at h
    refine read_window (Expr.readsL ps h.1.1) (OrderByExpr.readsL os h.1.2) fun g hg => ?_
    subst hg
    exact h.2

theorem OrderByExpr.readsL : (os : List OrderByExpr) → OrderByExpr.shapes freeWord os = true →
    ∀ e p asc, .mk e p asc ∈ os → AllE fns e
  | [], _ => by intro e p asc he; cases he
  | .mk x y z :: xs, h => by
    simp only [OrderByExpr.shapes, OrderByExpr.shape, Bool.and_eq_true] at h
    have h1 := (Expr.reads x h.1).expr h.1
    have h2 := OrderByExpr.readsL xs h.2
    intro e p asc he
    rcases List.mem_cons.mp he with he | he
    · cases he; exact h1
    · exact h2 e p asc he

theorem QueryStmt.reads : (q : QueryStmt) → q.shape freeWord = true → AllQ fns q
  | .mk p ctes body os lim, h => by
    have w := h
    simp only [QueryStmt.shape, Bool.and_eq_true] at w
    exact read_query h (CTE.readsL ctes w.1.1.1) (SetExpr.reads body w.1.1.2) (OrderByExpr.readsL os w.1.2)

theorem CTE.readsL : (cs : List CTE) → CTE.shapes freeWord cs = true → ∀ c ∈ cs, CTER fns c
  | [], _ => by intro e he; cases he
  | .mk a q p :: xs, h => by
    simp only [CTE.shapes, CTE.shape, Bool.and_eq_true] at h
    have h1 := QueryStmt.reads q h.1.2
    have h2 := CTE.readsL xs h.2
    intro e he
    rcases List.mem_cons.mp he with rfl | he
    · exact h1
    · exact h2 e he

theorem SetExpr.reads : (s : SetExpr) → s.shape freeWord = true → AllB fns s
  | .selectExpr _, h => by simp [SetExpr.shape] at h
  | .select (.mk distinct projection from_ where_ groupBy having p), h => by
    simp only [SetExpr.shape] at h
    have w := h
    simp only [SQLSelect.shape, Bool.and_eq_true] at w
    obtain ⟨⟨⟨⟨⟨⟨w1, w2⟩, w3⟩, w4⟩, w5⟩, w6⟩, w7⟩ := w
    exact read_setSelect fun ks hk => (read_select h (SelectItem.readsL projection w2) (TableRef.readsL from_ w3)
      (fun e he => (Expr.readsO where_ w4 e he).1) (Expr.readsL groupBy w5) (fun e he => (Expr.readsO having w6 e he).1) hk)
  | .query _ _ q, h => read_setQuery (QueryStmt.reads q (by simpa only [SetExpr.shape] using h))
  | .setOp op all l r, h => by
    have w := h
    simp only [SetExpr.shape, Bool.and_eq_true] at w
    exact read_setOp h (SetExpr.reads l w.1.1.1) (SetExpr.reads r w.1.1.2)

theorem SelectItem.readsL : (is : List SelectItem) → SelectItem.shapes freeWord is = true → ∀ i ∈ is, ItemR fns i
  | [], _ => by intro e he; cases he
  | x :: xs, h => by
    simp only [SelectItem.shapes, Bool.and_eq_true] at h
    have h1 := SelectItem.reads x h.1
    have h2 := SelectItem.readsL xs h.2
    intro e he
    rcases List.mem_cons.mp he with rfl | he
    · exact h1
    · exact h2 e he

theorem SelectItem.reads : (i : SelectItem) → i.shape freeWord = true → ItemR fns i
  | .unnamed e, h => by
    simp only [SelectItem.shape, Bool.and_eq_true] at h
    exact (Expr.reads e h.1).expr h.1
  | .alias e a, h => by
    simp only [SelectItem.shape, Bool.and_eq_true] at h
    exact (Expr.reads e h.1.1).expr h.1.1
  | .qualifiedWildcard _, _ => trivial
  | .wildcard _ _, _ => trivial

theorem TableFactor.reads : (f : TableFactor) → f.shape freeWord = true → FactorR fns f
  | .table name alias args _ hints _, h => by
    simp only [TableFactor.shape, Bool.and_eq_true] at h
    exact Expr.readsL hints h.2
  | .derived _ _ _ _ q alias, h => by
    simp only [TableFactor.shape, Bool.and_eq_true] at h
    exact QueryStmt.reads q h.1

theorem TableRef.reads : (t : TableRef) → t.shape freeWord = true → AllR fns t
  | .factor f, h => by
    simp only [TableRef.shape] at h
    exact read_refFactor h (TableFactor.reads f h)
  | .cross (.factor l) f, h => by
    simp only [TableRef.shape, Bool.and_eq_true] at h
    exact read_cross (read_refFactor h.1.1 (TableFactor.reads l h.1.1)) h.2 (TableFactor.reads f h.2)
  | .cross (.cross _ _) f, h => by simp [TableRef.shape] at h
  | .cross (.partitioned _ _ _) f, h => by simp [TableRef.shape] at h
  | .cross (.qualified _ _ _ _) f, h => by simp [TableRef.shape] at h
  | .cross (.natural _ _ _) f, h => by simp [TableRef.shape] at h
  | .partitioned _ _ _, h => by simp [TableRef.shape] at h
  | .qualified l _ r spec, h => by
    simp only [TableRef.shape, Bool.and_eq_true] at h
    exact read_qualified h.1.1.2 (TableRef.reads l h.1.1.1) (TableRef.reads r h.1.2).full (JoinSpec.reads spec h.2)
  | .natural l _ r, h => by
    simp only [TableRef.shape, Bool.and_eq_true] at h
    exact read_natural h.1.2 (TableRef.reads l h.1.1) (TableRef.reads r h.2).full

theorem TableRef.readsL : (ts : List TableRef) → TableRef.shapes freeWord ts = true → ∀ t ∈ ts, AllT fns t
  | [], _ => by intro e he; cases he
  | x :: xs, h => by
    simp only [TableRef.shapes, Bool.and_eq_true] at h
    have h1 := (TableRef.reads x h.1).full
    have h2 := TableRef.readsL xs h.2
    intro e he
    rcases List.mem_cons.mp he with rfl | he
    · exact h1
    · exact h2 e he

theorem JoinSpec.reads : (s : JoinSpec) → s.shape freeWord = true → AllJ fns s
  | .namedColumns cols _ _, h => read_joinSpec h (by intro e p he; cases he)
  | .condition e _, h => by
    have w := h
    simp only [JoinSpec.shape] at w
    have h1 := (Expr.reads e w).expr w
    exact read_joinSpec h (by intro e p he; cases he; exact h1)

end

end Verif
