import Verif.Spec.Rename
import Verif.Proofs.ShapeErase
/-
A renaming that respects the names keeps well-formed trees well-formed.
-/
set_option linter.unusedSimpArgs false
set_option linter.unusedVariables false
namespace Verif

variable {d : Dialect} {fns : FloatFns} {ρ : Renaming}

@[simp] theorem Ident.rename_value (i : Ident) : (i.rename ρ).value = ρ.ident i.value := rfl

@[simp] theorem Expr.renames_isEmpty (l : List Expr) : (Expr.renames ρ l).isEmpty = l.isEmpty := by cases l <;> rfl
@[simp] theorem Expr.renames_length : (l : List Expr) → (Expr.renames ρ l).length = l.length
  | [] => rfl
  | _ :: l => by simp [Expr.renames, Expr.renames_length l]
@[simp] theorem OrderByExpr.renames_isEmpty (l : List OrderByExpr) :
    (OrderByExpr.renames ρ l).isEmpty = l.isEmpty := by cases l <;> rfl
@[simp] theorem CTE.renames_isEmpty (l : List CTE) : (CTE.renames ρ l).isEmpty = l.isEmpty := by cases l <;> rfl
@[simp] theorem SelectItem.renames_isEmpty (l : List SelectItem) :
    (SelectItem.renames ρ l).isEmpty = l.isEmpty := by cases l <;> rfl
@[simp] theorem Expr.renameOpt_isSome (x : Option Expr) : (Expr.renameOpt ρ x).isSome = x.isSome := by cases x <;> rfl
@[simp] theorem Expr.renameOpt_isNone (x : Option Expr) : (Expr.renameOpt ρ x).isNone = x.isNone := by cases x <;> rfl

/-! ### Levels and edges -/

@[simp] theorem Expr.lp_rename : (e : Expr) → (e.rename ρ).lp = e.lp
  | .binary l _ _ => by simp [Expr.rename, Expr.lp, Expr.lp_rename l]
  | .isNull x => by simp [Expr.rename, Expr.lp, Expr.lp_rename x]
  | .isNotNull x => by simp [Expr.rename, Expr.lp, Expr.lp_rename x]
  | .inList x _ _ _ => by simp [Expr.rename, Expr.lp, Expr.lp_rename x]
  | .inSubQuery x _ _ _ => by simp [Expr.rename, Expr.lp, Expr.lp_rename x]
  | .between x _ _ _ => by simp [Expr.rename, Expr.lp, Expr.lp_rename x]
  | .ident _ | .wildcard _ | .qualifiedWildcard _ | .compoundIdent _ | .cast .. | .nested .. | .unary .. | .function ..
  | .caseExpr .. | .exists_ .. | .subQuery .. | .long _ | .double .. | .singleQuoted .. | .national .. | .boolean ..
  | .null .. | .timeValue .. => by simp [Expr.rename, Expr.lp]

@[simp] theorem Expr.rp_rename : (e : Expr) → (e.rename ρ).rp = e.rp
  | .binary _ _ r => by simp [Expr.rename, Expr.rp, Expr.rp_rename r]
  | .unary _ _ x => by simp [Expr.rename, Expr.rp, Expr.rp_rename x]
  | .between _ _ _ h => by simp [Expr.rename, Expr.rp, Expr.rp_rename h]
  | .isNull _ | .isNotNull _ | .inList .. | .inSubQuery .. | .ident _ | .wildcard _ | .qualifiedWildcard _
  | .compoundIdent _ | .cast .. | .nested .. | .function ..
  | .caseExpr .. | .exists_ .. | .subQuery .. | .long _ | .double .. | .singleQuoted .. | .national .. | .boolean ..
  | .null .. | .timeValue .. => by simp [Expr.rename, Expr.rp]

@[simp] theorem Expr.isPrefix_rename (e : Expr) : (e.rename ρ).isPrefix = e.isPrefix := by
  cases e <;> simp [Expr.rename, Expr.isPrefix]

@[simp] theorem Expr.startsExists_rename : (e : Expr) → (e.rename ρ).startsExists = e.startsExists
  | .binary l _ _ => by simp [Expr.rename, Expr.startsExists, Expr.startsExists_rename l]
  | .isNull x => by simp [Expr.rename, Expr.startsExists, Expr.startsExists_rename x]
  | .isNotNull x => by simp [Expr.rename, Expr.startsExists, Expr.startsExists_rename x]
  | .inList x _ _ _ => by simp [Expr.rename, Expr.startsExists, Expr.startsExists_rename x]
  | .inSubQuery x _ _ _ => by simp [Expr.rename, Expr.startsExists, Expr.startsExists_rename x]
  | .between x _ _ _ => by simp [Expr.rename, Expr.startsExists, Expr.startsExists_rename x]
  | .ident _ | .wildcard _ | .qualifiedWildcard _ | .compoundIdent _ | .cast .. | .nested .. | .unary .. | .function ..
  | .caseExpr .. | .exists_ .. | .subQuery .. | .long _ | .double .. | .singleQuoted .. | .national .. | .boolean ..
  | .null .. | .timeValue .. => by simp [Expr.rename, Expr.startsExists]

@[simp] theorem Expr.defaultOK_rename : (e : Expr) → (e.rename ρ).defaultOK = e.defaultOK
  | .binary l _ _ => by simp [Expr.rename, Expr.defaultOK, Expr.defaultOK_rename l]
  | .isNull x => by simp [Expr.rename, Expr.defaultOK, Expr.defaultOK_rename x]
  | .isNotNull x => by simp [Expr.rename, Expr.defaultOK, Expr.defaultOK_rename x]
  | .inList x _ _ _ => by simp [Expr.rename, Expr.defaultOK, Expr.defaultOK_rename x]
  | .inSubQuery x _ _ _ => by simp [Expr.rename, Expr.defaultOK, Expr.defaultOK_rename x]
  | .between x _ _ _ => by simp [Expr.rename, Expr.defaultOK, Expr.defaultOK_rename x]
  | .ident _ | .wildcard _ | .qualifiedWildcard _ | .compoundIdent _ | .cast .. | .nested .. | .unary .. | .function ..
  | .caseExpr .. | .exists_ .. | .subQuery .. | .long _ | .double .. | .singleQuoted .. | .national .. | .boolean ..
  | .null .. | .timeValue .. => by simp [Expr.rename, Expr.defaultOK]

@[simp] theorem SelectItem.edge_rename (i : SelectItem) : (i.rename ρ).edge = i.edge := by
  cases i <;> simp [SelectItem.rename, SelectItem.edge]

@[simp] theorem TableFactor.edge_rename (f : TableFactor) : (f.rename ρ).edge = f.edge := by
  cases f with
  | table n a as p hs q => cases a <;> cases hs <;> simp [TableFactor.rename, TableFactor.edge, Expr.renames]
  | derived l p q r s a => cases a <;> simp [TableFactor.rename, TableFactor.edge]

@[simp] theorem TableRef.edge_rename : (t : TableRef) → (t.rename ρ).edge = t.edge
  | .factor f => by simp [TableRef.rename, TableRef.edge]
  | .cross _ f => by simp [TableRef.rename, TableRef.edge]
  | .natural _ _ r => by simp [TableRef.rename, TableRef.edge, TableRef.edge_rename r]
  | .partitioned .. | .qualified .. => by simp [TableRef.rename, TableRef.edge]

@[simp] theorem TableRef.open_rename (t : TableRef) : (t.rename ρ).open_ = t.open_ := by
  cases t <;> simp [TableRef.rename, TableRef.open_]

theorem TableRef.renames_map (l : List TableRef) : TableRef.renames ρ l = l.map (TableRef.rename ρ) := by
  induction l with
  | nil => rfl
  | cons x l ih => simp [TableRef.renames, ih]

theorem SelectItem.renames_map (l : List SelectItem) : SelectItem.renames ρ l = l.map (SelectItem.rename ρ) := by
  induction l with
  | nil => rfl
  | cons x l ih => simp [SelectItem.renames, ih]

@[simp] theorem fromEdge_rename (p : List SelectItem) (f : List TableRef) :
    fromEdge (SelectItem.renames ρ p) (TableRef.renames ρ f) = fromEdge p f := by
  unfold fromEdge
  rw [SelectItem.renames_map, TableRef.renames_map, List.getLast?_map, List.getLast?_map]
  cases f.getLast? <;> cases p.getLast? <;> simp

@[simp] theorem SQLSelect.edge_rename (s : SQLSelect) : (s.rename ρ).edge = s.edge := by
  cases s; simp [SQLSelect.rename, SQLSelect.edge]

@[simp] theorem SetExpr.edge_rename : (s : SetExpr) → (s.rename ρ).edge = s.edge
  | .setOp _ _ _ r => by simp [SetExpr.rename, SetExpr.edge, SetExpr.edge_rename r]
  | .select _ | .selectExpr _ | .query .. => by simp [SetExpr.rename, SetExpr.edge]

@[simp] theorem SetExpr.startsSelect_rename : (s : SetExpr) → (s.rename ρ).startsSelect = s.startsSelect
  | .setOp _ _ l _ => by simp [SetExpr.rename, SetExpr.startsSelect, SetExpr.startsSelect_rename l]
  | .select _ | .selectExpr _ | .query .. => by simp [SetExpr.rename, SetExpr.startsSelect]

@[simp] theorem SetExpr.lp_rename : (s : SetExpr) → (s.rename ρ).lp = s.lp
  | .setOp _ _ l _ => by simp [SetExpr.rename, SetExpr.lp, SetExpr.lp_rename l]
  | .select _ | .selectExpr _ | .query .. => by simp [SetExpr.rename, SetExpr.lp]

@[simp] theorem SetExpr.rp_rename : (s : SetExpr) → (s.rename ρ).rp = s.rp
  | .setOp _ _ _ r => by simp [SetExpr.rename, SetExpr.rp, SetExpr.rp_rename r]
  | .select _ | .selectExpr _ | .query .. => by simp [SetExpr.rename, SetExpr.rp]

@[simp] theorem QueryStmt.edge_rename (q : QueryStmt) : (q.rename ρ).edge = q.edge := by
  cases q; simp [QueryStmt.rename, QueryStmt.edge]

@[simp] theorem QueryStmt.startsSelect_rename (q : QueryStmt) : (q.rename ρ).startsSelect = q.startsSelect := by
  cases q; simp [QueryStmt.rename, QueryStmt.startsSelect]

/-! ### Well-formedness -/

/-- The renaming takes names to names, no name to that of a built-in type, and puts no quote into a literal. -/
structure Renaming.Keeps (d : Dialect) (ρ : Renaming) : Prop where
  ident : ∀ v, identOK d v = true → identOK d (ρ.ident v) = true
  type : ∀ v, identOK d v = true → ((identKW v).all fun k => !k.beginsType) = true →
    ((identKW (ρ.ident v)).all fun k => !k.beginsType) = true
  text : ∀ s : Str, s.contains '\'' = false → (ρ.text s).contains '\'' = false

namespace Renaming.Keeps
variable (H : ρ.Keeps d)
include H

theorem idents {is : List Ident} (h : identsOK d is = true) : identsOK d (is.map (Ident.rename ρ)) = true := by
  simp only [identsOK, Bool.and_eq_true, List.all_eq_true, List.mem_map] at *
  refine ⟨by simpa using h.1, ?_⟩
  rintro _ ⟨i, hi, rfl⟩
  exact H.ident _ (h.2 i hi)

theorem name {o : ObjectName} (h : o.wf d = true) : (o.rename ρ).wf d = true := H.idents h

theorem opt {o : Option Ident} (h : optIdentOK d o = true) : optIdentOK d (o.map (Ident.rename ρ)) = true := by
  cases o with
  | none => rfl
  | some i => exact H.ident _ h

theorem dataType {t : DataType} (h : t.wf d = true) : (t.rename ρ).wf d = true := by
  cases t with
  | custom ty =>
    obtain ⟨is⟩ := ty
    simp only [DataType.wf, DataType.rename, Bool.and_eq_true] at *
    refine ⟨H.name h.1, ?_⟩
    cases is with
    | nil => exact h.2
    | cons i is =>
      have h1 := h.1
      simp only [ObjectName.wf, identsOK, Bool.and_eq_true, List.all_eq_true] at h1
      exact H.type _ (h1.2 i (by simp)) h.2
  | array ty _ => cases ty <;> exact h
  | _ => exact h

end Renaming.Keeps

mutual

theorem Expr.wf_rename (H : ρ.Keeps d) : (e : Expr) → e.wf d fns = true → (e.rename ρ).wf d fns = true
  | .ident i, h => by simp only [Expr.rename, Expr.wf] at *; exact H.ident _ h
  | .wildcard _, _ => by simp [Expr.rename, Expr.wf]
  | .qualifiedWildcard is, h => by simp only [Expr.rename, Expr.wf] at *; exact H.idents h
  | .compoundIdent is, h => by
    simp only [Expr.rename, Expr.wf, Bool.and_eq_true, List.length_map] at *; exact ⟨H.idents h.1, h.2⟩
  | .isNull x, h => by have h1 := x.wf_rename H; simp_all [Expr.rename, Expr.wf]
  | .isNotNull x, h => by have h1 := x.wf_rename H; simp_all [Expr.rename, Expr.wf]
  | .inList x l neg _, h => by
    have h1 := x.wf_rename H; have h2 := Expr.wfs_rename H l; simp_all [Expr.rename, Expr.wf]
  | .inSubQuery x q neg _, h => by
    have h1 := x.wf_rename H; have h2 := q.wf_rename H; simp_all [Expr.rename, Expr.wf]
  | .between x neg low high, h => by
    have h1 := x.wf_rename H; have h2 := low.wf_rename H; have h3 := high.wf_rename H
    simp_all [Expr.rename, Expr.wf]
  | .binary l op r, h => by
    have h1 := l.wf_rename H; have h2 := r.wf_rename H; simp_all [Expr.rename, Expr.wf]
  | .cast e ty _ _, h => by
    have h1 := e.wf_rename H; have h2 := H.dataType (t := ty); simp_all [Expr.rename, Expr.wf]
  | .nested e _ _, h => by have h1 := e.wf_rename H; simp_all [Expr.rename, Expr.wf]
  | .unary _ op e, h => by
    simp only [Expr.rename, Expr.wf, Bool.and_eq_true, Expr.lp_rename, Expr.startsExists_rename,
      Operator.erase_type] at *
    exact ⟨e.wf_rename H h.1, h.2⟩
  | .function name args _ over _, h => by
    have h1 := H.name (o := name); have h2 := Expr.wfs_rename H args; have h3 := WindowSpec.wfO_rename H over
    simp_all [Expr.rename, Expr.wf]
  | .caseExpr _ _ operand conds results else_, h => by
    have h1 := Expr.wfO_rename H operand; have h2 := Expr.wfs_rename H conds
    have h3 := Expr.wfs_rename H results; have h4 := Expr.wfO_rename H else_
    simp_all [Expr.rename, Expr.wf]
  | .exists_ _ q _ _ _, h => by have h1 := q.wf_rename H; simp_all [Expr.rename, Expr.wf]
  | .subQuery _ _ q, h => by have h1 := q.wf_rename H; simp_all [Expr.rename, Expr.wf]
  | .long v, h => by simp_all [Expr.rename, Expr.wf]
  | .double _ _ v, h => by simp_all [Expr.rename, Expr.wf]
  | .singleQuoted _ _ s, h => by
    simp only [Expr.rename, Expr.wf, Bool.not_eq_true'] at *; exact H.text _ h
  | .national _ _ s, h => by
    simp only [Expr.rename, Expr.wf, Bool.not_eq_true'] at *; exact H.text _ h
  | .boolean _ _ _, h => by simp [Expr.rename, Expr.wf]
  | .null _ _, h => by simp [Expr.rename, Expr.wf]
  | .timeValue _ _ _ _, h => by simp [Expr.wf] at h

theorem Expr.wfO_rename (H : ρ.Keeps d) : (x : Option Expr) → Expr.wfO d fns x = true →
    Expr.wfO d fns (Expr.renameOpt ρ x) = true
  | none, _ => rfl
  | some e, h => by have h1 := e.wf_rename H; simp_all [Expr.renameOpt, Expr.wfO]

theorem Expr.wfs_rename (H : ρ.Keeps d) : (x : List Expr) → Expr.wfs d fns x = true →
    Expr.wfs d fns (Expr.renames ρ x) = true
  | [], _ => rfl
  | e :: es, h => by
    have h1 := e.wf_rename H; have h2 := Expr.wfs_rename H es; simp_all [Expr.renames, Expr.wfs]

theorem WindowSpec.wfO_rename (H : ρ.Keeps d) : (x : Option WindowSpec) → WindowSpec.wfO d fns x = true →
    WindowSpec.wfO d fns (WindowSpec.renameOpt ρ x) = true
  | none, _ => rfl
  | some e, h => by have h1 := e.wf_rename H; simp_all [WindowSpec.renameOpt, WindowSpec.wfO]

theorem WindowSpec.wf_rename (H : ρ.Keeps d) : (x : WindowSpec) → x.wf d fns = true → (x.rename ρ).wf d fns = true
  | .mk ps os f _ _, h => by
    have h1 := Expr.wfs_rename H ps; have h2 := OrderByExpr.wfs_rename H os
    cases f <;> simp_all [WindowSpec.rename, WindowSpec.wf]

theorem OrderByExpr.wf_rename (H : ρ.Keeps d) : (x : OrderByExpr) → x.wf d fns = true →
    (x.rename ρ).wf d fns = true
  | .mk e _ _, h => by have h1 := e.wf_rename H; simp_all [OrderByExpr.rename, OrderByExpr.wf]

theorem OrderByExpr.wfs_rename (H : ρ.Keeps d) : (x : List OrderByExpr) → OrderByExpr.wfs d fns x = true →
    OrderByExpr.wfs d fns (OrderByExpr.renames ρ x) = true
  | [], _ => rfl
  | e :: es, h => by
    have h1 := e.wf_rename H; have h2 := OrderByExpr.wfs_rename H es
    simp_all [OrderByExpr.renames, OrderByExpr.wfs]

theorem QueryStmt.wf_rename (H : ρ.Keeps d) : (x : QueryStmt) → x.wf d fns = true → (x.rename ρ).wf d fns = true
  | .mk _ cs b os l, h => by
    have h1 := CTE.wfs_rename H cs; have h2 := b.wf_rename H; have h3 := OrderByExpr.wfs_rename H os
    cases l <;> simp_all [QueryStmt.rename, QueryStmt.wf]

theorem CTE.wf_rename (H : ρ.Keeps d) : (x : CTE) → x.wf d fns = true → (x.rename ρ).wf d fns = true
  | .mk a q _, h => by
    have h1 := q.wf_rename H; have h2 := H.ident a.value; simp_all [CTE.rename, CTE.wf]

theorem CTE.wfs_rename (H : ρ.Keeps d) : (x : List CTE) → CTE.wfs d fns x = true →
    CTE.wfs d fns (CTE.renames ρ x) = true
  | [], _ => rfl
  | e :: es, h => by have h1 := e.wf_rename H; have h2 := CTE.wfs_rename H es; simp_all [CTE.renames, CTE.wfs]

theorem SetExpr.wf_rename (H : ρ.Keeps d) : (x : SetExpr) → x.wf d fns = true → (x.rename ρ).wf d fns = true
  | .selectExpr _, h => by simp [SetExpr.wf] at h
  | .select s, h => by have h1 := s.wf_rename H; simp_all [SetExpr.rename, SetExpr.wf]
  | .query _ _ q, h => by have h1 := q.wf_rename H; simp_all [SetExpr.rename, SetExpr.wf]
  | .setOp _ _ l r, h => by
    have h1 := l.wf_rename H; have h2 := r.wf_rename H; simp_all [SetExpr.rename, SetExpr.wf]

theorem SQLSelect.wf_rename (H : ρ.Keeps d) : (x : SQLSelect) → x.wf d fns = true → (x.rename ρ).wf d fns = true
  | .mk _ p f w g h _, hh => by
    have h1 := SelectItem.wfs_rename H p; have h2 := TableRef.wfs_rename H f; have h3 := Expr.wfO_rename H w
    have h4 := Expr.wfs_rename H g; have h5 := Expr.wfO_rename H h
    simp_all [SQLSelect.rename, SQLSelect.wf]

theorem SelectItem.wf_rename (H : ρ.Keeps d) : (x : SelectItem) → x.wf d fns = true → (x.rename ρ).wf d fns = true
  | .unnamed e, h => by
    simp only [SelectItem.rename, SelectItem.wf, Bool.and_eq_true] at *
    refine ⟨e.wf_rename H h.1, ?_⟩
    have := h.2
    cases e <;> simp_all [Expr.rename]
  | .alias e a, h => by
    simp only [SelectItem.rename, SelectItem.wf, Bool.and_eq_true] at *
    refine ⟨⟨e.wf_rename H h.1.1, H.ident _ h.1.2⟩, ?_⟩
    have := h.2
    cases e <;> simp_all [Expr.rename]
  | .qualifiedWildcard p, h => by have h1 := H.name (o := p); simp_all [SelectItem.rename, SelectItem.wf]
  | .wildcard _ _, h => by simp [SelectItem.wf] at h

theorem SelectItem.wfs_rename (H : ρ.Keeps d) : (x : List SelectItem) → SelectItem.wfs d fns x = true →
    SelectItem.wfs d fns (SelectItem.renames ρ x) = true
  | [], _ => rfl
  | e :: es, h => by
    have h1 := e.wf_rename H; have h2 := SelectItem.wfs_rename H es
    simp_all [SelectItem.renames, SelectItem.wfs]

theorem TableFactor.wf_rename (H : ρ.Keeps d) : (x : TableFactor) → x.wf d fns = true →
    (x.rename ρ).wf d fns = true
  | .table n a as _ hs _, h => by
    have h1 := H.name (o := n); have h2 := H.opt (o := a); have h3 := Expr.wfs_rename H hs
    simp_all [TableFactor.rename, TableFactor.wf, Expr.renames]
  | .derived _ _ _ _ q a, h => by
    have h1 := q.wf_rename H; have h2 := H.opt (o := a); simp_all [TableFactor.rename, TableFactor.wf]

theorem TableRef.wf_rename (H : ρ.Keeps d) : (x : TableRef) → x.wf d fns = true → (x.rename ρ).wf d fns = true
  | .factor f, h => by have h1 := f.wf_rename H; simp_all [TableRef.rename, TableRef.wf]
  | .cross l f, h => by
    simp only [TableRef.rename, TableRef.wf, Bool.and_eq_true] at *
    refine ⟨⟨l.wf_rename H h.1.1, ?_⟩, f.wf_rename H h.2⟩
    have := h.1.2
    cases l <;> simp_all [TableRef.rename]
  | .partitioned f _ _, h => by simp [TableRef.wf] at h
  | .qualified l _ r s, h => by
    have h1 := l.wf_rename H; have h2 := r.wf_rename H; have h3 := s.wf_rename H
    simp_all [TableRef.rename, TableRef.wf]
  | .natural l _ r, h => by
    have h1 := l.wf_rename H; have h2 := r.wf_rename H; simp_all [TableRef.rename, TableRef.wf]

theorem TableRef.wfs_rename (H : ρ.Keeps d) : (x : List TableRef) → TableRef.wfs d fns x = true →
    TableRef.wfs d fns (TableRef.renames ρ x) = true
  | [], _ => rfl
  | e :: es, h => by
    have h1 := e.wf_rename H; have h2 := TableRef.wfs_rename H es; simp_all [TableRef.renames, TableRef.wfs]

theorem JoinSpec.wf_rename (H : ρ.Keeps d) : (x : JoinSpec) → x.wf d fns = true → (x.rename ρ).wf d fns = true
  | .namedColumns cs _ _, h => by have h1 := H.idents (is := cs); simp_all [JoinSpec.rename, JoinSpec.wf]
  | .condition e _, h => by have h1 := e.wf_rename H; simp_all [JoinSpec.rename, JoinSpec.wf]

end

theorem Expr.wfO_map_rename (H : ρ.Keeps d) {x : Option Expr} (h : Expr.wfO d fns x = true) :
    Expr.wfO d fns (x.map (Expr.rename ρ)) = true := by
  cases x with
  | none => rfl
  | some e => simp only [Expr.wfO, Option.map] at *; exact e.wf_rename H h

theorem all_map_of {α} {f : α → α} {p : α → Bool} (hf : ∀ x, p x = true → p (f x) = true) {l : List α}
    (h : l.all p = true) : (l.map f).all p = true := by
  simp only [List.all_map, List.all_eq_true, Function.comp] at *
  exact fun x hx => hf x (h x hx)

theorem RowValueExpr.wf_rename (H : ρ.Keeps d) (r : RowValueExpr) (h : r.wf d fns = true) :
    (r.rename ρ).wf d fns = true := by
  have h1 := Expr.wfs_rename (fns := fns) H r.values
  simp_all [RowValueExpr.rename, RowValueExpr.wf]

theorem InsertSource.wf_rename (H : ρ.Keeps d) (r : InsertSource) (h : r.wf d fns = true) :
    (r.rename ρ).wf d fns = true := by
  cases r with
  | subQuery q => exact q.wf_rename H h
  | «constructor» p rows =>
    simp only [InsertSource.rename, InsertSource.wf, Bool.and_eq_true] at *
    exact ⟨by simpa using h.1, all_map_of (fun r => r.wf_rename H) h.2⟩

theorem Assignment.wf_rename (H : ρ.Keeps d) (a : Assignment) (h : a.wf d fns = true) :
    (a.rename ρ).wf d fns = true := by
  simp only [Assignment.rename, Assignment.wf, Bool.and_eq_true] at *
  exact ⟨H.ident _ h.1, a.value.wf_rename H h.2⟩

theorem TableConstraintSpec.wf_rename (H : ρ.Keeps d) (t : TableConstraintSpec) (h : t.wf d fns = true) :
    (t.rename ρ).wf d fns = true := by
  cases t with
  | unique a b c e cols => exact H.idents h
  | referential p cols key =>
    simp only [TableConstraintSpec.rename, TableConstraintSpec.wf, ReferenceKeyExpr.rename, Bool.and_eq_true] at *
    exact ⟨⟨H.idents h.1.1, H.ident _ h.1.2⟩, H.idents h.2⟩
  | check p q e => exact e.wf_rename H h

theorem TableConstraint.wf_rename (H : ρ.Keeps d) (t : TableConstraint) (h : t.wf d fns = true) :
    (t.rename ρ).wf d fns = true := by
  simp only [TableConstraint.rename, TableConstraint.wf, Bool.and_eq_true] at *
  exact ⟨H.opt h.1, t.spec.wf_rename H h.2⟩

theorem ColumnSpec.wf_rename (H : ρ.Keeps d) (t : ColumnSpec) (h : t.wf d fns = true) :
    (t.rename ρ).wf d fns = true := by
  cases t with
  | references p q name cols =>
    simp only [ColumnSpec.rename, ColumnSpec.wf, Bool.and_eq_true] at *
    exact ⟨H.name h.1, H.idents h.2⟩
  | check e p q => exact e.wf_rename H h
  | _ => exact h

theorem ColumnConstraint.wf_rename (H : ρ.Keeps d) (t : ColumnConstraint) (h : t.wf d fns = true) :
    (t.rename ρ).wf d fns = true := by
  simp only [ColumnConstraint.rename, ColumnConstraint.wf, Bool.and_eq_true] at *
  exact ⟨H.opt h.1, t.spec.wf_rename H h.2⟩

@[simp] theorem startsNot_rename (cs : List ColumnConstraint) :
    startsNot (cs.map (ColumnConstraint.rename ρ)) = startsNot cs := by
  cases cs with
  | nil => rfl
  | cons c cs =>
    obtain ⟨n, p, s⟩ := c
    cases n <;> cases s <;> rfl

theorem ColumnDef.wf_rename (H : ρ.Keeps d) (c : ColumnDef) (h : c.wf d fns = true) :
    (c.rename ρ).wf d fns = true := by
  obtain ⟨n, t, x, a, cs⟩ := c
  simp only [ColumnDef.rename, ColumnDef.wf, Bool.and_eq_true] at *
  refine ⟨⟨⟨H.ident _ h.1.1.1, H.dataType h.1.1.2⟩, all_map_of (fun c => c.wf_rename H) h.1.2⟩, ?_⟩
  have h2 := h.2
  cases x with
  | none => rfl
  | some e =>
    simp only [Option.map, Bool.and_eq_true] at *
    refine ⟨⟨e.wf_rename H h2.1.1, ?_⟩, ?_⟩
    · rw [Expr.defaultOK_rename]; exact h2.1.2
    · rw [startsNot_rename, Expr.rp_rename, List.isEmpty_map]; exact h2.2

theorem TableElement.wf_rename (H : ρ.Keeps d) (t : TableElement) (h : t.wf d fns = true) :
    (t.rename ρ).wf d fns = true := by
  cases t with
  | constraint c => exact c.wf_rename H h
  | column c => exact c.wf_rename H h

theorem TableOption.wf_rename (H : ρ.Keeps d) (t : TableOption) (h : t.wf d = true) : (t.rename ρ).wf d = true := by
  cases t <;> exact H.ident _ h

theorem AlterColumnAction.wf_rename (H : ρ.Keeps d) (t : AlterColumnAction) (h : t.wf d fns = true) :
    (t.rename ρ).wf d fns = true := by
  cases t with
  | setDefault p e =>
    simp only [AlterColumnAction.rename, AlterColumnAction.wf, Bool.and_eq_true, Expr.defaultOK_rename] at *
    exact ⟨e.wf_rename H h.1, h.2⟩
  | pgAlterDataType p ty => exact H.dataType h
  | _ => exact h

theorem AlterTableAction.wf_rename (H : ρ.Keeps d) (t : AlterTableAction) (h : t.wf d fns = true) :
    (t.rename ρ).wf d fns = true := by
  cases t with
  | addColumn p c => exact c.wf_rename H h
  | alterColumn n p a =>
    simp only [AlterTableAction.rename, AlterTableAction.wf, Bool.and_eq_true] at *
    exact ⟨H.ident _ h.1, a.wf_rename H h.2⟩
  | removeColumn n c p q => exact H.ident _ h
  | addConstraint p c => exact c.wf_rename H h
  | dropConstraint n p c q => exact H.ident _ h

/-- A renaming that respects the names keeps well-formed statements well-formed. -/
theorem Stmt.wf_rename (H : ρ.Keeps d) : (s : Stmt) → s.wf d fns = true → (s.rename ρ).wf d fns = true
  | .query q, h => by
    simp only [Stmt.rename, Stmt.wf, Bool.and_eq_true, QueryStmt.startsSelect_rename] at *
    exact ⟨q.wf_rename H h.1, h.2⟩
  | .insert _ n cs src as, h => by
    simp only [Stmt.rename, Stmt.wf, Bool.and_eq_true] at *
    obtain ⟨⟨⟨⟨h1, h2⟩, h3⟩, h4⟩, h5⟩ := h
    refine ⟨⟨⟨⟨H.name h1, ?_⟩, src.wf_rename H h3⟩, all_map_of (fun a => a.wf_rename H) h4⟩, ?_⟩
    · rw [List.isEmpty_map]
      rcases Bool.or_eq_true _ _ ▸ h2 with h | h
      · simp [h]
      · simp [H.idents h]
    · cases src <;> simp_all [InsertSource.rename]
  | .copy _ _ _ _, h => by simp [Stmt.wf] at h
  | .update _ n as sel, h => by
    simp only [Stmt.rename, Stmt.wf, Bool.and_eq_true, List.isEmpty_map] at *
    exact ⟨⟨⟨H.name h.1.1.1, h.1.1.2⟩, all_map_of (fun a => a.wf_rename H) h.1.2⟩, Expr.wfO_map_rename H h.2⟩
  | .delete _ n sel, h => by
    simp only [Stmt.rename, Stmt.wf, Bool.and_eq_true] at *
    exact ⟨H.name h.1, Expr.wfO_map_rename H h.2⟩
  | .createView _ n q m, h => by
    simp only [Stmt.rename, Stmt.wf, Bool.and_eq_true] at *
    exact ⟨⟨H.name h.1.1, q.wf_rename H h.1.2⟩, h.2⟩
  | .createTable _ n es _ os, h => by
    simp only [Stmt.rename, Stmt.wf, Bool.and_eq_true, List.isEmpty_map, List.length_map] at *
    exact ⟨⟨⟨⟨H.name h.1.1.1.1, h.1.1.1.2⟩, all_map_of (fun e => e.wf_rename H) h.1.1.2⟩, h.1.2⟩,
      all_map_of (fun e => e.wf_rename H) h.2⟩
  | .alterTable _ n a, h => by
    simp only [Stmt.rename, Stmt.wf, Bool.and_eq_true] at *
    exact ⟨H.name h.1, a.wf_rename H h.2⟩
  | .dropTable ns _ _ _ _, h => by
    simp only [Stmt.rename, Stmt.wf, Bool.and_eq_true, List.length_map] at *
    exact ⟨h.1, all_map_of (p := ObjectName.wf d) (fun o h => H.name h) h.2⟩
  | .createIndex _ n _ i m cs _ sel, h => by
    simp only [Stmt.rename, Stmt.wf, Bool.and_eq_true] at *
    exact ⟨⟨⟨⟨H.name h.1.1.1.1, H.opt h.1.1.1.2⟩, H.opt h.1.1.2⟩, H.idents h.1.2⟩, Expr.wfO_map_rename H h.2⟩
  | .dropIndex _ ns, h => H.idents h
  | .explain s _, h => by simp only [Stmt.rename, Stmt.wf] at *; exact s.wf_rename H h

end Verif
