import Verif.Spec.Shape
/-
A tree of the right shape, with words spelled as in the dialect, and with plain parts is well-formed.
-/
set_option linter.unusedSimpArgs false
namespace Verif

variable {d : Dialect} {fns : FloatFns}

theorem identOK_of {v : Str} (h : spelled d v = true) (hp : plainWord v = true) : identOK d v = true := by
  unfold spelled at h
  unfold plainWord at hp
  unfold identOK
  cases v with
  | nil => exact h
  | cons q rest =>
    simp only at h hp ⊢
    split at h
    · rename_i hq
      rw [if_pos hq] at hp ⊢
      rw [h, hp]; rfl
    · rename_i hq
      rw [if_neg hq] at hp ⊢
      rw [h, hp]; rfl

theorem identsOK_of {is : List Ident} (h : identsShape (spelled d) is = true) (hp : identsPlain is = true) :
    identsOK d is = true := by
  simp only [identsShape, identsPlain, identsOK, Bool.and_eq_true, List.all_eq_true] at *
  exact ⟨h.1, fun i hi => identOK_of (h.2 i hi) (hp i hi)⟩

theorem ObjectName.wf_of {o : ObjectName} (h : o.shape (spelled d) = true) (hp : o.plain = true) : o.wf d = true :=
  identsOK_of h hp

theorem optIdentOK_of {o : Option Ident} (h : optIdentShape (spelled d) o = true) (hp : optIdentPlain o = true) :
    optIdentOK d o = true := by
  cases o with
  | none => rfl
  | some i => exact identOK_of h hp

theorem DataType.wf_of {t : DataType} (h : t.shape (spelled d) = true) (hp : t.plain = true) : t.wf d = true := by
  cases t <;> first
    | exact h
    | (simp only [DataType.plain, DataType.wf, Bool.and_eq_true] at *; exact ⟨ObjectName.wf_of h hp.1, hp.2⟩)

mutual

theorem Expr.wf_of : (e : Expr) → e.shape (spelled d) = true → e.plain fns = true → e.wf d fns = true
  | .ident i, h, hp => by simp only [Expr.shape, Expr.plain, Expr.wf] at *; exact identOK_of h hp
  | .wildcard _, _, _ => by simp [Expr.wf]
  | .qualifiedWildcard is, h, hp => by simp only [Expr.shape, Expr.plain, Expr.wf] at *; exact identsOK_of h hp
  | .compoundIdent is, h, hp => by
    simp only [Expr.shape, Expr.plain, Expr.wf, Bool.and_eq_true] at *; exact ⟨identsOK_of h.1 hp, h.2⟩
  | .isNull x, h, hp => by
    simp only [Expr.shape, Expr.plain, Expr.wf, Bool.and_eq_true] at *; exact ⟨x.wf_of h.1 hp, h.2⟩
  | .isNotNull x, h, hp => by
    simp only [Expr.shape, Expr.plain, Expr.wf, Bool.and_eq_true] at *; exact ⟨x.wf_of h.1 hp, h.2⟩
  | .inList x l neg _, h, hp => by
    have h1 := x.wf_of; have h2 := Expr.wfs_of l
    simp_all [Expr.shape, Expr.plain, Expr.wf]
  | .inSubQuery x q neg _, h, hp => by
    have h1 := x.wf_of; have h2 := q.wf_of
    simp_all [Expr.shape, Expr.plain, Expr.wf]
  | .between x neg low high, h, hp => by
    have h1 := x.wf_of; have h2 := low.wf_of
    have h3 := high.wf_of
    simp_all [Expr.shape, Expr.plain, Expr.wf]
  | .binary l op r, h, hp => by
    have h1 := l.wf_of; have h2 := r.wf_of
    simp_all [Expr.shape, Expr.plain, Expr.wf]
  | .cast e ty _ _, h, hp => by
    simp only [Expr.shape, Expr.plain, Expr.wf, Bool.and_eq_true] at *
    exact ⟨e.wf_of h.1 hp.1, DataType.wf_of h.2 hp.2⟩
  | .nested e _ _, h, hp => by simp only [Expr.shape, Expr.plain, Expr.wf] at *; exact e.wf_of h hp
  | .unary _ op e, h, hp => by
    simp only [Expr.shape, Expr.plain, Expr.wf, Bool.and_eq_true] at *; exact ⟨e.wf_of h.1 hp, h.2⟩
  | .function name args _ over _, h, hp => by
    have h1 := ObjectName.wf_of (d := d) (o := name); have h2 := Expr.wfs_of args
    have h3 := WindowSpec.wfO_of over
    simp_all [Expr.shape, Expr.plain, Expr.wf]
  | .caseExpr _ _ operand conds results else_, h, hp => by
    have h1 := Expr.wfO_of operand; have h2 := Expr.wfs_of conds
    have h3 := Expr.wfs_of results; have h4 := Expr.wfO_of else_
    simp_all [Expr.shape, Expr.plain, Expr.wf]
  | .exists_ _ q _ _ _, h, hp => by simp only [Expr.shape, Expr.plain, Expr.wf] at *; exact q.wf_of h hp
  | .subQuery _ _ q, h, hp => by
    simp only [Expr.shape, Expr.plain, Expr.wf, Bool.and_eq_true] at *; exact ⟨q.wf_of h.1 hp, h.2⟩
  | .long v, h, _ => by simp only [Expr.shape, Expr.wf] at *; exact h
  | .double _ _ v, _, hp => by simp only [Expr.plain, Expr.wf] at *; exact hp
  | .singleQuoted _ _ s, _, hp => by simp only [Expr.plain, Expr.wf] at *; exact hp
  | .national _ _ s, _, hp => by simp only [Expr.plain, Expr.wf] at *; exact hp
  | .boolean _ _ _, _, _ => by simp [Expr.wf]
  | .null _ _, _, _ => by simp [Expr.wf]
  | .timeValue _ _ _ _, h, _ => by simp [Expr.shape] at h

theorem Expr.wfO_of : (e : Option Expr) → Expr.shapeO (spelled d) e = true → Expr.plainO fns e = true →
    Expr.wfO d fns e = true
  | none, _, _ => by simp [Expr.wfO]
  | some e, h, hp => by simp only [Expr.shapeO, Expr.plainO, Expr.wfO] at *; exact e.wf_of h hp

theorem Expr.wfs_of : (e : List Expr) → Expr.shapes (spelled d) e = true → Expr.plains fns e = true →
    Expr.wfs d fns e = true
  | [], _, _ => by simp [Expr.wfs]
  | e :: es, h, hp => by
    simp only [Expr.shapes, Expr.plains, Expr.wfs, Bool.and_eq_true] at *
    exact ⟨e.wf_of h.1 hp.1, Expr.wfs_of es h.2 hp.2⟩

theorem WindowSpec.wfO_of : (e : Option WindowSpec) → WindowSpec.shapeO (spelled d) e = true →
    WindowSpec.plainO fns e = true → WindowSpec.wfO d fns e = true
  | none, _, _ => by simp [WindowSpec.wfO]
  | some e, h, hp => by simp only [WindowSpec.shapeO, WindowSpec.plainO, WindowSpec.wfO] at *; exact e.wf_of h hp

theorem WindowSpec.wf_of : (e : WindowSpec) → e.shape (spelled d) = true → e.plain fns = true → e.wf d fns = true
  | .mk p o _ _ _, h, hp => by
    have h1 := Expr.wfs_of p; have h2 := OrderByExpr.wfs_of o
    simp only [WindowSpec.shape, WindowSpec.plain, WindowSpec.wf, Bool.and_eq_true] at *
    exact ⟨⟨h1 h.1.1 hp.1, h2 h.1.2 hp.2⟩, h.2⟩

theorem OrderByExpr.wf_of : (e : OrderByExpr) → e.shape (spelled d) = true → e.plain fns = true → e.wf d fns = true
  | .mk e _ _, h, hp => by simp only [OrderByExpr.shape, OrderByExpr.plain, OrderByExpr.wf] at *; exact e.wf_of h hp

theorem OrderByExpr.wfs_of : (e : List OrderByExpr) → OrderByExpr.shapes (spelled d) e = true →
    OrderByExpr.plains fns e = true → OrderByExpr.wfs d fns e = true
  | [], _, _ => by simp [OrderByExpr.wfs]
  | e :: es, h, hp => by
    simp only [OrderByExpr.shapes, OrderByExpr.plains, OrderByExpr.wfs, Bool.and_eq_true] at *
    exact ⟨e.wf_of h.1 hp.1, OrderByExpr.wfs_of es h.2 hp.2⟩

theorem QueryStmt.wf_of : (e : QueryStmt) → e.shape (spelled d) = true → e.plain fns = true → e.wf d fns = true
  | .mk _ ctes body o _, h, hp => by
    have h1 := CTE.wfs_of ctes; have h2 := OrderByExpr.wfs_of o
    have h3 := body.wf_of
    simp only [QueryStmt.shape, QueryStmt.plain, QueryStmt.wf, Bool.and_eq_true] at *
    exact ⟨⟨⟨h1 h.1.1.1 hp.1.1, h3 h.1.1.2 hp.1.2⟩, h2 h.1.2 hp.2⟩, h.2⟩

theorem CTE.wf_of : (e : CTE) → e.shape (spelled d) = true → e.plain fns = true → e.wf d fns = true
  | .mk a q _, h, hp => by
    simp only [CTE.shape, CTE.plain, CTE.wf, Bool.and_eq_true] at *
    exact ⟨identOK_of h.1 hp.1, q.wf_of h.2 hp.2⟩

theorem CTE.wfs_of : (e : List CTE) → CTE.shapes (spelled d) e = true → CTE.plains fns e = true →
    CTE.wfs d fns e = true
  | [], _, _ => by simp [CTE.wfs]
  | e :: es, h, hp => by
    simp only [CTE.shapes, CTE.plains, CTE.wfs, Bool.and_eq_true] at *
    exact ⟨e.wf_of h.1 hp.1, CTE.wfs_of es h.2 hp.2⟩

theorem SetExpr.wf_of : (e : SetExpr) → e.shape (spelled d) = true → e.plain fns = true → e.wf d fns = true
  | .selectExpr _, h, _ => by simp [SetExpr.shape] at h
  | .select s, h, hp => by simp only [SetExpr.shape, SetExpr.plain, SetExpr.wf] at *; exact s.wf_of h hp
  | .query _ _ q, h, hp => by simp only [SetExpr.shape, SetExpr.plain, SetExpr.wf] at *; exact q.wf_of h hp
  | .setOp op _ l r, h, hp => by
    have h1 := l.wf_of; have h2 := r.wf_of
    simp_all [SetExpr.shape, SetExpr.plain, SetExpr.wf]

theorem SQLSelect.wf_of : (e : SQLSelect) → e.shape (spelled d) = true → e.plain fns = true → e.wf d fns = true
  | .mk _ projection from_ where_ groupBy having _, h, hp => by
    have h1 := SelectItem.wfs_of projection
    have h2 := TableRef.wfs_of from_
    have h3 := Expr.wfO_of where_
    have h4 := Expr.wfs_of groupBy
    have h5 := Expr.wfO_of having
    simp only [SQLSelect.shape, SQLSelect.plain, SQLSelect.wf, Bool.and_eq_true] at *
    exact ⟨⟨⟨⟨⟨⟨h.1.1.1.1.1.1, h1 h.1.1.1.1.1.2 hp.1.1.1.1⟩, h2 h.1.1.1.1.2 hp.1.1.1.2⟩, h3 h.1.1.1.2 hp.1.1.2⟩,
      h4 h.1.1.2 hp.1.2⟩, h5 h.1.2 hp.2⟩, h.2⟩

theorem SelectItem.wf_of : (e : SelectItem) → e.shape (spelled d) = true → e.plain fns = true → e.wf d fns = true
  | .unnamed e, h, hp => by
    simp only [SelectItem.shape, SelectItem.plain, SelectItem.wf, Bool.and_eq_true] at *
    exact ⟨e.wf_of h.1 hp, h.2⟩
  | .alias e a, h, hp => by
    simp only [SelectItem.shape, SelectItem.plain, SelectItem.wf, Bool.and_eq_true] at *
    exact ⟨⟨e.wf_of h.1.1 hp.1, identOK_of h.1.2 hp.2⟩, h.2⟩
  | .qualifiedWildcard p, h, hp => by
    simp only [SelectItem.shape, SelectItem.plain, SelectItem.wf] at *; exact ObjectName.wf_of h hp
  | .wildcard _ _, h, _ => by simp [SelectItem.shape] at h

theorem SelectItem.wfs_of : (e : List SelectItem) → SelectItem.shapes (spelled d) e = true →
    SelectItem.plains fns e = true → SelectItem.wfs d fns e = true
  | [], _, _ => by simp [SelectItem.wfs]
  | e :: es, h, hp => by
    simp only [SelectItem.shapes, SelectItem.plains, SelectItem.wfs, Bool.and_eq_true] at *
    exact ⟨e.wf_of h.1 hp.1, SelectItem.wfs_of es h.2 hp.2⟩

theorem TableFactor.wf_of : (e : TableFactor) → e.shape (spelled d) = true → e.plain fns = true → e.wf d fns = true
  | .table name alias args _ hints _, h, hp => by
    have h1 := Expr.wfs_of hints
    simp only [TableFactor.shape, TableFactor.plain, TableFactor.wf, Bool.and_eq_true] at *
    exact ⟨⟨⟨ObjectName.wf_of h.1.1.1 hp.1.1.1, optIdentOK_of h.1.1.2 hp.1.1.2⟩, hp.1.2⟩, h1 h.2 hp.2⟩
  | .derived _ _ _ _ q alias, h, hp => by
    simp only [TableFactor.shape, TableFactor.plain, TableFactor.wf, Bool.and_eq_true] at *
    exact ⟨q.wf_of h.1 hp.1, optIdentOK_of h.2 hp.2⟩

theorem TableRef.wf_of : (e : TableRef) → e.shape (spelled d) = true → e.plain fns = true → e.wf d fns = true
  | .factor f, h, hp => by simp only [TableRef.shape, TableRef.plain, TableRef.wf] at *; exact f.wf_of h hp
  | .cross l f, h, hp => by
    simp only [TableRef.shape, TableRef.plain, TableRef.wf, Bool.and_eq_true] at *
    exact ⟨⟨l.wf_of h.1.1 hp.1, h.1.2⟩, f.wf_of h.2 hp.2⟩
  | .partitioned _ _ _, h, _ => by simp [TableRef.shape] at h
  | .qualified l _ r spec, h, hp => by
    simp only [TableRef.shape, TableRef.plain, TableRef.wf, Bool.and_eq_true] at *
    exact ⟨⟨⟨l.wf_of h.1.1.1 hp.1.1, h.1.1.2⟩, r.wf_of h.1.2 hp.1.2⟩, spec.wf_of h.2 hp.2⟩
  | .natural l _ r, h, hp => by
    simp only [TableRef.shape, TableRef.plain, TableRef.wf, Bool.and_eq_true] at *
    exact ⟨⟨l.wf_of h.1.1 hp.1, h.1.2⟩, r.wf_of h.2 hp.2⟩

theorem TableRef.wfs_of : (e : List TableRef) → TableRef.shapes (spelled d) e = true →
    TableRef.plains fns e = true → TableRef.wfs d fns e = true
  | [], _, _ => by simp [TableRef.wfs]
  | e :: es, h, hp => by
    simp only [TableRef.shapes, TableRef.plains, TableRef.wfs, Bool.and_eq_true] at *
    exact ⟨e.wf_of h.1 hp.1, TableRef.wfs_of es h.2 hp.2⟩

theorem JoinSpec.wf_of : (e : JoinSpec) → e.shape (spelled d) = true → e.plain fns = true → e.wf d fns = true
  | .namedColumns cols _ _, h, hp => by
    simp only [JoinSpec.shape, JoinSpec.plain, JoinSpec.wf] at *; exact identsOK_of h hp
  | .condition e _, h, hp => by simp only [JoinSpec.shape, JoinSpec.plain, JoinSpec.wf] at *; exact e.wf_of h hp

end

theorem all_wf_of {α : Type} {s p w : α → Bool} (f : ∀ x, s x = true → p x = true → w x = true) {l : List α}
    (h : l.all s = true) (hp : l.all p = true) : l.all w = true := by
  simp only [List.all_eq_true] at *
  exact fun x hx => f x (h x hx) (hp x hx)

theorem RowValueExpr.wf_of (e : RowValueExpr) (h : e.shape (spelled d) = true) (hp : e.plain fns = true) :
    e.wf d fns = true := by
  simp only [RowValueExpr.shape, RowValueExpr.plain, RowValueExpr.wf, Bool.and_eq_true] at *
  exact ⟨h.1, Expr.wfs_of _ h.2 hp⟩

theorem InsertSource.wf_of (e : InsertSource) (h : e.shape (spelled d) = true) (hp : e.plain fns = true) :
    e.wf d fns = true := by
  cases e with
  | subQuery q => exact q.wf_of h hp
  | constructor p rows =>
    simp only [InsertSource.shape, InsertSource.plain, InsertSource.wf, Bool.and_eq_true] at *
    exact ⟨h.1, all_wf_of RowValueExpr.wf_of h.2 hp⟩

theorem Assignment.wf_of (e : Assignment) (h : e.shape (spelled d) = true) (hp : e.plain fns = true) :
    e.wf d fns = true := by
  simp only [Assignment.shape, Assignment.plain, Assignment.wf, Bool.and_eq_true] at *
  exact ⟨identOK_of h.1 hp.1, Expr.wf_of _ h.2 hp.2⟩

theorem TableConstraintSpec.wf_of (e : TableConstraintSpec) (h : e.shape (spelled d) = true)
    (hp : e.plain fns = true) : e.wf d fns = true := by
  cases e with
  | unique _ _ _ _ cols => exact identsOK_of (is := cols) h hp
  | referential _ cols key =>
    simp only [TableConstraintSpec.shape, TableConstraintSpec.plain, TableConstraintSpec.wf, Bool.and_eq_true] at *
    refine ⟨⟨identsOK_of h.1.1 hp.1.1.1, identOK_of h.1.2 hp.1.1.2⟩, identsOK_of ?_ hp.2⟩
    simp only [identsShape, Bool.and_eq_true]
    exact ⟨hp.1.2, h.2⟩
  | check _ _ x => exact x.wf_of h hp

theorem TableConstraint.wf_of (e : TableConstraint) (h : e.shape (spelled d) = true) (hp : e.plain fns = true) :
    e.wf d fns = true := by
  simp only [TableConstraint.shape, TableConstraint.plain, TableConstraint.wf, Bool.and_eq_true] at *
  exact ⟨optIdentOK_of h.1 hp.1, TableConstraintSpec.wf_of _ h.2 hp.2⟩

theorem ColumnSpec.wf_of (e : ColumnSpec) (h : e.shape (spelled d) = true) (hp : e.plain fns = true) :
    e.wf d fns = true := by
  cases e with
  | references _ _ name cols =>
    simp only [ColumnSpec.shape, ColumnSpec.plain, ColumnSpec.wf, Bool.and_eq_true] at *
    exact ⟨ObjectName.wf_of h.1 hp.1, identsOK_of h.2 hp.2⟩
  | check x _ _ => exact x.wf_of h hp
  | _ => rfl

theorem ColumnConstraint.wf_of (e : ColumnConstraint) (h : e.shape (spelled d) = true) (hp : e.plain fns = true) :
    e.wf d fns = true := by
  simp only [ColumnConstraint.shape, ColumnConstraint.plain, ColumnConstraint.wf, Bool.and_eq_true] at *
  exact ⟨optIdentOK_of h.1 hp.1, ColumnSpec.wf_of _ h.2 hp.2⟩

theorem ColumnDef.wf_of (e : ColumnDef) (h : e.shape (spelled d) = true) (hp : e.plain fns = true) :
    e.wf d fns = true := by
  obtain ⟨name, ty, dflt, decs, cons⟩ := e
  simp only [ColumnDef.shape, ColumnDef.plain, ColumnDef.wf, Bool.and_eq_true] at *
  refine ⟨⟨⟨identOK_of h.1.1.1 hp.1.1.1, DataType.wf_of h.1.1.2 hp.1.1.2⟩,
    all_wf_of ColumnConstraint.wf_of h.1.2 hp.1.2⟩, ?_⟩
  have h2 := h.2; have hp2 := hp.2
  revert h2 hp2
  split
  · intro h2 hp2
    simp only [Bool.and_eq_true] at *
    exact ⟨⟨Expr.wf_of _ h2.1 hp2.1, h2.2⟩, hp2.2⟩
  · intros; rfl

theorem TableElement.wf_of (e : TableElement) (h : e.shape (spelled d) = true) (hp : e.plain fns = true) :
    e.wf d fns = true := by
  cases e with
  | constraint c => exact c.wf_of h hp
  | column c => exact c.wf_of h hp

theorem TableOption.wf_of (e : TableOption) (h : e.shape (spelled d) = true) (hp : e.plain = true) :
    e.wf d = true := by
  cases e <;> exact identOK_of h hp

theorem AlterColumnAction.wf_of (e : AlterColumnAction) (h : e.shape (spelled d) = true) (hp : e.plain fns = true) :
    e.wf d fns = true := by
  cases e with
  | setDefault _ x =>
    simp only [AlterColumnAction.shape, AlterColumnAction.plain, AlterColumnAction.wf, Bool.and_eq_true] at *
    exact ⟨x.wf_of h.1 hp, h.2⟩
  | pgAlterDataType _ t => exact DataType.wf_of (t := t) h hp
  | _ => rfl

theorem AlterTableAction.wf_of (e : AlterTableAction) (h : e.shape (spelled d) = true) (hp : e.plain fns = true) :
    e.wf d fns = true := by
  cases e with
  | addColumn _ c => exact c.wf_of h hp
  | alterColumn name _ a =>
    simp only [AlterTableAction.shape, AlterTableAction.plain, AlterTableAction.wf, Bool.and_eq_true] at *
    exact ⟨identOK_of h.1 hp.1, a.wf_of h.2 hp.2⟩
  | removeColumn => exact identOK_of h hp
  | addConstraint _ c => exact c.wf_of h hp
  | dropConstraint => exact identOK_of h hp

/-- A statement of the right shape with plain parts is well-formed. -/
theorem Stmt.wf_of : (e : Stmt) → e.shape (spelled d) = true → e.plain fns = true → e.wf d fns = true
  | .query q, h, hp => by
    simp only [Stmt.shape, Stmt.plain, Stmt.wf, Bool.and_eq_true] at *
    exact ⟨q.wf_of h.1 hp, h.2⟩
  | .insert _ name cols source assigns, h, hp => by
    simp only [Stmt.shape, Stmt.plain, Stmt.wf, Bool.and_eq_true] at *
    refine ⟨⟨⟨⟨ObjectName.wf_of h.1.1.1.1 hp.1.1.1, ?_⟩, source.wf_of h.1.1.2 hp.1.2⟩,
      all_wf_of Assignment.wf_of h.1.2 hp.2⟩, h.2⟩
    have h1 := h.1.1.1.2
    simp only [Bool.or_eq_true] at h1 ⊢
    exact h1.imp id fun h1 => identsOK_of h1 hp.1.1.2
  | .copy _ _ _ _, h, _ => by simp [Stmt.shape] at h
  | .update _ name assigns selection, h, hp => by
    simp only [Stmt.shape, Stmt.plain, Stmt.wf, Bool.and_eq_true] at *
    exact ⟨⟨⟨ObjectName.wf_of h.1.1.1 hp.1.1, h.1.1.2⟩, all_wf_of Assignment.wf_of h.1.2 hp.1.2⟩,
      Expr.wfO_of _ h.2 hp.2⟩
  | .delete _ name selection, h, hp => by
    simp only [Stmt.shape, Stmt.plain, Stmt.wf, Bool.and_eq_true] at *
    exact ⟨ObjectName.wf_of h.1 hp.1, Expr.wfO_of _ h.2 hp.2⟩
  | .createView _ name q materialized, h, hp => by
    simp only [Stmt.shape, Stmt.plain, Stmt.wf, Bool.and_eq_true] at *
    exact ⟨⟨ObjectName.wf_of h.1.1 hp.1, q.wf_of h.1.2 hp.2⟩, h.2⟩
  | .createTable _ name elements _ options, h, hp => by
    simp only [Stmt.shape, Stmt.plain, Stmt.wf, Bool.and_eq_true] at *
    exact ⟨⟨⟨⟨ObjectName.wf_of h.1.1 hp.1.1.1.1, hp.1.1.1.2⟩, all_wf_of TableElement.wf_of h.1.2 hp.1.1.2⟩, hp.1.2⟩,
      all_wf_of TableOption.wf_of h.2 hp.2⟩
  | .alterTable _ name action, h, hp => by
    simp only [Stmt.shape, Stmt.plain, Stmt.wf, Bool.and_eq_true] at *
    exact ⟨ObjectName.wf_of h.1 hp.1, action.wf_of h.2 hp.2⟩
  | .dropTable names _ _ _ _, h, hp => by
    simp only [Stmt.shape, Stmt.plain, Stmt.wf, Bool.and_eq_true] at *
    exact ⟨h.1, all_wf_of (fun _ => ObjectName.wf_of) h.2 hp⟩
  | .createIndex _ name _ indexName methodName cols _ selection, h, hp => by
    simp only [Stmt.shape, Stmt.plain, Stmt.wf, Bool.and_eq_true] at *
    refine ⟨⟨⟨⟨ObjectName.wf_of h.1.1.1.1 hp.1.1.1.1.1, optIdentOK_of h.1.1.1.2 hp.1.1.1.1.2⟩,
      optIdentOK_of h.1.1.2 hp.1.1.1.2⟩, identsOK_of ?_ hp.1.2⟩, Expr.wfO_of _ h.2 hp.2⟩
    simp only [identsShape, Bool.and_eq_true]
    exact ⟨hp.1.1.2, h.1.2⟩
  | .dropIndex _ names, h, hp => identsOK_of (is := names) h hp
  | .explain s _, h, hp => Stmt.wf_of s h hp

end Verif
