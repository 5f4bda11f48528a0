import Verif.Spec.Erase
import Verif.Spec.Shape
/-
Whether a tree has the shape of a parsed tree does not depend on its positions.
-/
set_option linter.unusedSimpArgs false
namespace Verif

@[simp] theorem Ident.erase_value (i : Ident) : i.erase.value = i.value := rfl
@[simp] theorem Operator.erase_type (o : Operator) : o.erase.type = o.type := rfl

@[simp] theorem identsShape_erase (I : Str → Bool) (is : List Ident) :
    identsShape I (is.map Ident.erase) = identsShape I is := by
  simp [identsShape, List.all_map, Function.comp_def]

@[simp] theorem ObjectName.shape_erase (I : Str → Bool) (o : ObjectName) : o.erase.shape I = o.shape I := by
  simp [ObjectName.erase, ObjectName.shape]

@[simp] theorem optIdentShape_erase (I : Str → Bool) (i : Option Ident) :
    optIdentShape I (i.map Ident.erase) = optIdentShape I i := by
  cases i <;> rfl

@[simp] theorem DataType.shape_erase (I : Str → Bool) : (t : DataType) → t.erase.shape I = t.shape I
  | .array ty _ => by cases ty <;> rfl
  | .custom ty => by simp [DataType.erase, DataType.shape]
  | .char .. | .varchar .. | .uuid .. | .clob .. | .binary .. | .varbinary .. | .blob .. | .decimal .. | .float ..
  | .smallInt .. | .int .. | .bigInt .. | .real .. | .double .. | .boolean .. | .date .. | .time ..
  | .timestamp .. | .regclass .. | .text .. | .bytea .. => rfl

@[simp] theorem Expr.erases_isEmpty (l : List Expr) : (Expr.erases l).isEmpty = l.isEmpty := by cases l <;> rfl
@[simp] theorem Expr.erases_length : (l : List Expr) → (Expr.erases l).length = l.length
  | [] => rfl
  | _ :: l => by simp [Expr.erases, Expr.erases_length l]
@[simp] theorem OrderByExpr.erases_isEmpty (l : List OrderByExpr) :
    (OrderByExpr.erases l).isEmpty = l.isEmpty := by cases l <;> rfl
@[simp] theorem CTE.erases_isEmpty (l : List CTE) : (CTE.erases l).isEmpty = l.isEmpty := by cases l <;> rfl
@[simp] theorem SelectItem.erases_isEmpty (l : List SelectItem) :
    (SelectItem.erases l).isEmpty = l.isEmpty := by cases l <;> rfl
@[simp] theorem Expr.eraseOpt_isSome (x : Option Expr) : (Expr.eraseOpt x).isSome = x.isSome := by cases x <;> rfl
@[simp] theorem Expr.eraseOpt_isNone (x : Option Expr) : (Expr.eraseOpt x).isNone = x.isNone := by cases x <;> rfl

/-! ### Levels and edges -/

@[simp] theorem Expr.lp_erase : (e : Expr) → e.erase.lp = e.lp
  | .binary l _ _ => by simp [Expr.erase, Expr.lp, Expr.lp_erase l]
  | .isNull x => by simp [Expr.erase, Expr.lp, Expr.lp_erase x]
  | .isNotNull x => by simp [Expr.erase, Expr.lp, Expr.lp_erase x]
  | .inList x _ _ _ => by simp [Expr.erase, Expr.lp, Expr.lp_erase x]
  | .inSubQuery x _ _ _ => by simp [Expr.erase, Expr.lp, Expr.lp_erase x]
  | .between x _ _ _ => by simp [Expr.erase, Expr.lp, Expr.lp_erase x]
  | .ident _ | .wildcard _ | .qualifiedWildcard _ | .compoundIdent _ | .cast .. | .nested .. | .unary .. | .function ..
  | .caseExpr .. | .exists_ .. | .subQuery .. | .long _ | .double .. | .singleQuoted .. | .national .. | .boolean ..
  | .null .. | .timeValue .. => by simp [Expr.erase, Expr.lp]

@[simp] theorem Expr.rp_erase : (e : Expr) → e.erase.rp = e.rp
  | .binary _ _ r => by simp [Expr.erase, Expr.rp, Expr.rp_erase r]
  | .unary _ _ x => by simp [Expr.erase, Expr.rp, Expr.rp_erase x]
  | .between _ _ _ h => by simp [Expr.erase, Expr.rp, Expr.rp_erase h]
  | .isNull _ | .isNotNull _ | .inList .. | .inSubQuery .. | .ident _ | .wildcard _ | .qualifiedWildcard _
  | .compoundIdent _ | .cast .. | .nested .. | .function ..
  | .caseExpr .. | .exists_ .. | .subQuery .. | .long _ | .double .. | .singleQuoted .. | .national .. | .boolean ..
  | .null .. | .timeValue .. => by simp [Expr.erase, Expr.rp]

@[simp] theorem Expr.isPrefix_erase (e : Expr) : e.erase.isPrefix = e.isPrefix := by
  cases e <;> simp [Expr.erase, Expr.isPrefix]

@[simp] theorem Expr.startsExists_erase : (e : Expr) → e.erase.startsExists = e.startsExists
  | .binary l _ _ => by simp [Expr.erase, Expr.startsExists, Expr.startsExists_erase l]
  | .isNull x => by simp [Expr.erase, Expr.startsExists, Expr.startsExists_erase x]
  | .isNotNull x => by simp [Expr.erase, Expr.startsExists, Expr.startsExists_erase x]
  | .inList x _ _ _ => by simp [Expr.erase, Expr.startsExists, Expr.startsExists_erase x]
  | .inSubQuery x _ _ _ => by simp [Expr.erase, Expr.startsExists, Expr.startsExists_erase x]
  | .between x _ _ _ => by simp [Expr.erase, Expr.startsExists, Expr.startsExists_erase x]
  | .ident _ | .wildcard _ | .qualifiedWildcard _ | .compoundIdent _ | .cast .. | .nested .. | .unary .. | .function ..
  | .caseExpr .. | .exists_ .. | .subQuery .. | .long _ | .double .. | .singleQuoted .. | .national .. | .boolean ..
  | .null .. | .timeValue .. => by simp [Expr.erase, Expr.startsExists]

@[simp] theorem Expr.defaultOK_erase : (e : Expr) → e.erase.defaultOK = e.defaultOK
  | .binary l _ _ => by simp [Expr.erase, Expr.defaultOK, Expr.defaultOK_erase l]
  | .isNull x => by simp [Expr.erase, Expr.defaultOK, Expr.defaultOK_erase x]
  | .isNotNull x => by simp [Expr.erase, Expr.defaultOK, Expr.defaultOK_erase x]
  | .inList x _ _ _ => by simp [Expr.erase, Expr.defaultOK, Expr.defaultOK_erase x]
  | .inSubQuery x _ _ _ => by simp [Expr.erase, Expr.defaultOK, Expr.defaultOK_erase x]
  | .between x _ _ _ => by simp [Expr.erase, Expr.defaultOK, Expr.defaultOK_erase x]
  | .ident _ | .wildcard _ | .qualifiedWildcard _ | .compoundIdent _ | .cast .. | .nested .. | .unary .. | .function ..
  | .caseExpr .. | .exists_ .. | .subQuery .. | .long _ | .double .. | .singleQuoted .. | .national .. | .boolean ..
  | .null .. | .timeValue .. => by simp [Expr.erase, Expr.defaultOK]

@[simp] theorem SelectItem.edge_erase (i : SelectItem) : i.erase.edge = i.edge := by
  cases i <;> simp [SelectItem.erase, SelectItem.edge]

@[simp] theorem TableFactor.edge_erase (f : TableFactor) : f.erase.edge = f.edge := by
  cases f with
  | table n a as p hs q => cases a <;> cases hs <;> simp [TableFactor.erase, TableFactor.edge, Expr.erases]
  | derived l p q r s a => cases a <;> simp [TableFactor.erase, TableFactor.edge]

@[simp] theorem TableRef.edge_erase : (t : TableRef) → t.erase.edge = t.edge
  | .factor f => by simp [TableRef.erase, TableRef.edge]
  | .cross _ f => by simp [TableRef.erase, TableRef.edge]
  | .natural _ _ r => by simp [TableRef.erase, TableRef.edge, TableRef.edge_erase r]
  | .partitioned .. | .qualified .. => by simp [TableRef.erase, TableRef.edge]

@[simp] theorem TableRef.open_erase (t : TableRef) : t.erase.open_ = t.open_ := by
  cases t <;> simp [TableRef.erase, TableRef.open_]

theorem TableRef.erases_map (l : List TableRef) : TableRef.erases l = l.map TableRef.erase := by
  induction l with
  | nil => rfl
  | cons x l ih => simp [TableRef.erases, ih]

theorem SelectItem.erases_map (l : List SelectItem) : SelectItem.erases l = l.map SelectItem.erase := by
  induction l with
  | nil => rfl
  | cons x l ih => simp [SelectItem.erases, ih]

@[simp] theorem fromEdge_erase (p : List SelectItem) (f : List TableRef) :
    fromEdge (SelectItem.erases p) (TableRef.erases f) = fromEdge p f := by
  unfold fromEdge
  rw [SelectItem.erases_map, TableRef.erases_map, List.getLast?_map, List.getLast?_map]
  cases f.getLast? <;> cases p.getLast? <;> simp

@[simp] theorem SQLSelect.edge_erase (s : SQLSelect) : s.erase.edge = s.edge := by
  cases s; simp [SQLSelect.erase, SQLSelect.edge]

@[simp] theorem SetOp.level_erase (o : SetOp) : o.erase.level = o.level := by cases o <;> rfl

@[simp] theorem SetExpr.edge_erase : (s : SetExpr) → s.erase.edge = s.edge
  | .setOp _ _ _ r => by simp [SetExpr.erase, SetExpr.edge, SetExpr.edge_erase r]
  | .select _ | .selectExpr _ | .query .. => by simp [SetExpr.erase, SetExpr.edge]

@[simp] theorem SetExpr.startsSelect_erase : (s : SetExpr) → s.erase.startsSelect = s.startsSelect
  | .setOp _ _ l _ => by simp [SetExpr.erase, SetExpr.startsSelect, SetExpr.startsSelect_erase l]
  | .select _ | .selectExpr _ | .query .. => by simp [SetExpr.erase, SetExpr.startsSelect]

@[simp] theorem SetExpr.lp_erase : (s : SetExpr) → s.erase.lp = s.lp
  | .setOp _ _ l _ => by simp [SetExpr.erase, SetExpr.lp, SetExpr.lp_erase l]
  | .select _ | .selectExpr _ | .query .. => by simp [SetExpr.erase, SetExpr.lp]

@[simp] theorem SetExpr.rp_erase : (s : SetExpr) → s.erase.rp = s.rp
  | .setOp _ _ _ r => by simp [SetExpr.erase, SetExpr.rp, SetExpr.rp_erase r]
  | .select _ | .selectExpr _ | .query .. => by simp [SetExpr.erase, SetExpr.rp]

@[simp] theorem QueryStmt.edge_erase (q : QueryStmt) : q.erase.edge = q.edge := by
  cases q; simp [QueryStmt.erase, QueryStmt.edge]

@[simp] theorem QueryStmt.startsSelect_erase (q : QueryStmt) : q.erase.startsSelect = q.startsSelect := by
  cases q; simp [QueryStmt.erase, QueryStmt.startsSelect]

@[simp] theorem longOK_erase (v : LongValue) : longOK v.erase = longOK v := rfl

@[simp] theorem LimitExpr.wf_erase (l : LimitExpr) : l.erase.wf = l.wf := by
  obtain ⟨c, _, _, o⟩ := l
  cases c <;> cases o <;> rfl

@[simp] theorem FrameBound.wf_erase (b : FrameBound) : b.erase.wf = b.wf := by cases b <;> rfl

@[simp] theorem WindowFrame.wf_erase (f : WindowFrame) : f.erase.wf = f.wf := by
  obtain ⟨u, s, e⟩ := f
  cases e <;> simp [WindowFrame.erase, WindowFrame.wf]

/-! ### Shape -/

mutual

@[simp] theorem Expr.shape_erase (I : Str → Bool) : (x : Expr) → x.erase.shape I = x.shape I
  | .ident _ | .wildcard _ | .qualifiedWildcard _ | .compoundIdent _ => by simp [Expr.erase, Expr.shape]
  | .isNull a => by simp [Expr.erase, Expr.shape, Expr.shape_erase I a]
  | .isNotNull a => by simp [Expr.erase, Expr.shape, Expr.shape_erase I a]
  | .inList a l _ _ => by simp [Expr.erase, Expr.shape, Expr.shape_erase I a, Expr.shapes_erase I l]
  | .inSubQuery a q _ _ => by simp [Expr.erase, Expr.shape, Expr.shape_erase I a, QueryStmt.shape_erase I q]
  | .between a _ l h => by
    simp [Expr.erase, Expr.shape, Expr.shape_erase I a, Expr.shape_erase I l, Expr.shape_erase I h]
  | .binary l _ r => by
    simp only [Expr.erase, Expr.shape, Expr.shape_erase I l, Expr.shape_erase I r, Expr.rp_erase, Expr.lp_erase]
    rfl
  | .cast a _ _ _ => by simp [Expr.erase, Expr.shape, Expr.shape_erase I a]
  | .nested a _ _ => by simp [Expr.erase, Expr.shape, Expr.shape_erase I a]
  | .unary _ _ a => by simp [Expr.erase, Expr.shape, Expr.shape_erase I a]
  | .function _ as _ w _ => by
    simp [Expr.erase, Expr.shape, Expr.shapes_erase I as, WindowSpec.shapeO_erase I w]
  | .caseExpr _ _ o cs rs e => by
    simp [Expr.erase, Expr.shape, Expr.shapeO_erase I o, Expr.shapes_erase I cs, Expr.shapes_erase I rs,
      Expr.shapeO_erase I e]
  | .exists_ _ q _ _ _ => by simp [Expr.erase, Expr.shape, QueryStmt.shape_erase I q]
  | .subQuery _ _ q => by simp [Expr.erase, Expr.shape, QueryStmt.shape_erase I q]
  | .long _ | .double _ _ _ | .singleQuoted _ _ _ | .national _ _ _ | .boolean _ _ _ | .null _ _
  | .timeValue _ _ _ _ => by simp [Expr.erase, Expr.shape]

@[simp] theorem Expr.shapeO_erase (I : Str → Bool) : (x : Option Expr) →
    Expr.shapeO I (Expr.eraseOpt x) = Expr.shapeO I x
  | none => rfl
  | some e => by simp [Expr.eraseOpt, Expr.shapeO, Expr.shape_erase I e]

@[simp] theorem Expr.shapes_erase (I : Str → Bool) : (x : List Expr) → Expr.shapes I (Expr.erases x) = Expr.shapes I x
  | [] => rfl
  | e :: es => by simp [Expr.erases, Expr.shapes, Expr.shape_erase I e, Expr.shapes_erase I es]

@[simp] theorem WindowSpec.shapeO_erase (I : Str → Bool) : (x : Option WindowSpec) →
    WindowSpec.shapeO I (WindowSpec.eraseOpt x) = WindowSpec.shapeO I x
  | none => rfl
  | some e => by simp [WindowSpec.eraseOpt, WindowSpec.shapeO, WindowSpec.shape_erase I e]

@[simp] theorem WindowSpec.shape_erase (I : Str → Bool) : (x : WindowSpec) → x.erase.shape I = x.shape I
  | .mk ps os f _ _ => by
    cases f <;> simp [WindowSpec.erase, WindowSpec.shape, Expr.shapes_erase I ps, OrderByExpr.shapes_erase I os]

@[simp] theorem OrderByExpr.shape_erase (I : Str → Bool) : (x : OrderByExpr) → x.erase.shape I = x.shape I
  | .mk e _ _ => by simp [OrderByExpr.erase, OrderByExpr.shape, Expr.shape_erase I e]

@[simp] theorem OrderByExpr.shapes_erase (I : Str → Bool) : (x : List OrderByExpr) →
    OrderByExpr.shapes I (OrderByExpr.erases x) = OrderByExpr.shapes I x
  | [] => rfl
  | e :: es => by simp [OrderByExpr.erases, OrderByExpr.shapes, OrderByExpr.shape_erase I e, OrderByExpr.shapes_erase I es]

@[simp] theorem QueryStmt.shape_erase (I : Str → Bool) : (x : QueryStmt) → x.erase.shape I = x.shape I
  | .mk _ cs b os l => by
    cases l <;> simp [QueryStmt.erase, QueryStmt.shape, CTE.shapes_erase I cs, SetExpr.shape_erase I b,
      OrderByExpr.shapes_erase I os]

@[simp] theorem CTE.shape_erase (I : Str → Bool) : (x : CTE) → x.erase.shape I = x.shape I
  | .mk _ q _ => by simp [CTE.erase, CTE.shape, QueryStmt.shape_erase I q]

@[simp] theorem CTE.shapes_erase (I : Str → Bool) : (x : List CTE) → CTE.shapes I (CTE.erases x) = CTE.shapes I x
  | [] => rfl
  | e :: es => by simp [CTE.erases, CTE.shapes, CTE.shape_erase I e, CTE.shapes_erase I es]

@[simp] theorem SetExpr.shape_erase (I : Str → Bool) : (x : SetExpr) → x.erase.shape I = x.shape I
  | .selectExpr _ => by simp [SetExpr.erase, SetExpr.shape]
  | .select s => by simp [SetExpr.erase, SetExpr.shape, SQLSelect.shape_erase I s]
  | .query _ _ q => by simp [SetExpr.erase, SetExpr.shape, QueryStmt.shape_erase I q]
  | .setOp _ _ l r => by simp [SetExpr.erase, SetExpr.shape, SetExpr.shape_erase I l, SetExpr.shape_erase I r]

@[simp] theorem SQLSelect.shape_erase (I : Str → Bool) : (x : SQLSelect) → x.erase.shape I = x.shape I
  | .mk _ p f w g h _ => by
    simp [SQLSelect.erase, SQLSelect.shape, SelectItem.shapes_erase I p, TableRef.shapes_erase I f,
      Expr.shapeO_erase I w, Expr.shapes_erase I g, Expr.shapeO_erase I h]

@[simp] theorem SelectItem.shape_erase (I : Str → Bool) : (x : SelectItem) → x.erase.shape I = x.shape I
  | .unnamed e => by
    simp only [SelectItem.erase, SelectItem.shape, Expr.shape_erase I e]
    congr 1; cases e <;> simp [Expr.erase]
  | .alias e _ => by
    simp only [SelectItem.erase, SelectItem.shape, Expr.shape_erase I e, Ident.erase_value]
    congr 1; cases e <;> simp [Expr.erase]
  | .qualifiedWildcard _ => by simp [SelectItem.erase, SelectItem.shape]
  | .wildcard _ _ => by simp [SelectItem.erase, SelectItem.shape]

@[simp] theorem SelectItem.shapes_erase (I : Str → Bool) : (x : List SelectItem) →
    SelectItem.shapes I (SelectItem.erases x) = SelectItem.shapes I x
  | [] => rfl
  | e :: es => by simp [SelectItem.erases, SelectItem.shapes, SelectItem.shape_erase I e, SelectItem.shapes_erase I es]

@[simp] theorem TableFactor.shape_erase (I : Str → Bool) : (x : TableFactor) → x.erase.shape I = x.shape I
  | .table _ _ as _ hs _ => by
    simp [TableFactor.erase, TableFactor.shape, Expr.shapes_erase I as, Expr.shapes_erase I hs]
  | .derived _ _ _ _ q _ => by simp [TableFactor.erase, TableFactor.shape, QueryStmt.shape_erase I q]

@[simp] theorem TableRef.shape_erase (I : Str → Bool) : (x : TableRef) → x.erase.shape I = x.shape I
  | .factor f => by simp [TableRef.erase, TableRef.shape, TableFactor.shape_erase I f]
  | .cross l f => by
    simp only [TableRef.erase, TableRef.shape, TableRef.shape_erase I l, TableFactor.shape_erase I f]
    congr 2; cases l <;> simp [TableRef.erase]
  | .partitioned f _ _ => by simp [TableRef.erase, TableRef.shape]
  | .qualified l _ r s => by
    simp [TableRef.erase, TableRef.shape, TableRef.shape_erase I l, TableRef.shape_erase I r, JoinSpec.shape_erase I s]
  | .natural l _ r => by simp [TableRef.erase, TableRef.shape, TableRef.shape_erase I l, TableRef.shape_erase I r]

@[simp] theorem TableRef.shapes_erase (I : Str → Bool) : (x : List TableRef) →
    TableRef.shapes I (TableRef.erases x) = TableRef.shapes I x
  | [] => rfl
  | e :: es => by simp [TableRef.erases, TableRef.shapes, TableRef.shape_erase I e, TableRef.shapes_erase I es]

@[simp] theorem JoinSpec.shape_erase (I : Str → Bool) : (x : JoinSpec) → x.erase.shape I = x.shape I
  | .namedColumns _ _ _ => by simp [JoinSpec.erase, JoinSpec.shape]
  | .condition e _ => by simp [JoinSpec.erase, JoinSpec.shape, Expr.shape_erase I e]

end

@[simp] theorem Expr.shapeO_map_erase (I : Str → Bool) (x : Option Expr) :
    Expr.shapeO I (x.map Expr.erase) = Expr.shapeO I x := by
  cases x <;> simp [Expr.shapeO]

@[simp] theorem all_map_erase {α} (f : α → α) (p : α → Bool) (h : ∀ x, p (f x) = p x) (l : List α) :
    (l.map f).all p = l.all p := by
  simp [List.all_map, Function.comp_def, h]

@[simp] theorem RowValueExpr.shape_erase (I : Str → Bool) (r : RowValueExpr) : r.erase.shape I = r.shape I := by
  simp [RowValueExpr.erase, RowValueExpr.shape]

@[simp] theorem InsertSource.shape_erase (I : Str → Bool) (r : InsertSource) : r.erase.shape I = r.shape I := by
  cases r <;> simp [InsertSource.erase, InsertSource.shape, List.all_map, Function.comp_def]

@[simp] theorem Assignment.shape_erase (I : Str → Bool) (a : Assignment) : a.erase.shape I = a.shape I := by
  simp [Assignment.erase, Assignment.shape]

@[simp] theorem TableConstraintSpec.shape_erase (I : Str → Bool) (t : TableConstraintSpec) :
    t.erase.shape I = t.shape I := by
  cases t <;> simp [TableConstraintSpec.erase, TableConstraintSpec.shape, ReferenceKeyExpr.erase, List.all_map,
    Function.comp_def]

@[simp] theorem TableConstraint.shape_erase (I : Str → Bool) (t : TableConstraint) : t.erase.shape I = t.shape I := by
  simp [TableConstraint.erase, TableConstraint.shape]

@[simp] theorem ColumnSpec.shape_erase (I : Str → Bool) (t : ColumnSpec) : t.erase.shape I = t.shape I := by
  cases t <;> simp [ColumnSpec.erase, ColumnSpec.shape]

@[simp] theorem ColumnConstraint.shape_erase (I : Str → Bool) (t : ColumnConstraint) :
    t.erase.shape I = t.shape I := by
  simp [ColumnConstraint.erase, ColumnConstraint.shape]

@[simp] theorem ColumnDef.shape_erase (I : Str → Bool) (c : ColumnDef) : c.erase.shape I = c.shape I := by
  obtain ⟨n, t, d, a, cs⟩ := c
  cases d <;> simp [ColumnDef.erase, ColumnDef.shape, List.all_map, Function.comp_def]

@[simp] theorem TableElement.shape_erase (I : Str → Bool) (t : TableElement) : t.erase.shape I = t.shape I := by
  cases t <;> simp [TableElement.erase, TableElement.shape]

@[simp] theorem TableOption.shape_erase (I : Str → Bool) (t : TableOption) : t.erase.shape I = t.shape I := by
  cases t <;> simp [TableOption.erase, TableOption.shape]

@[simp] theorem AlterColumnAction.shape_erase (I : Str → Bool) (t : AlterColumnAction) :
    t.erase.shape I = t.shape I := by
  cases t <;> simp [AlterColumnAction.erase, AlterColumnAction.shape]

@[simp] theorem AlterTableAction.shape_erase (I : Str → Bool) (t : AlterTableAction) :
    t.erase.shape I = t.shape I := by
  cases t <;> simp [AlterTableAction.erase, AlterTableAction.shape]

@[simp] theorem Stmt.shape_erase (I : Str → Bool) : (s : Stmt) → s.erase.shape I = s.shape I
  | .query q => by simp [Stmt.erase, Stmt.shape]
  | .insert _ _ _ s _ => by
    cases s <;> simp [Stmt.erase, Stmt.shape, List.all_map, Function.comp_def, InsertSource.erase, InsertSource.shape]
  | .copy .. => by simp [Stmt.erase, Stmt.shape]
  | .update .. => by simp [Stmt.erase, Stmt.shape, List.all_map, Function.comp_def]
  | .delete .. => by simp [Stmt.erase, Stmt.shape]
  | .createView .. => by simp [Stmt.erase, Stmt.shape]
  | .createTable .. => by simp [Stmt.erase, Stmt.shape, List.all_map, Function.comp_def]
  | .alterTable .. => by simp [Stmt.erase, Stmt.shape]
  | .dropTable .. => by simp [Stmt.erase, Stmt.shape, List.all_map, Function.comp_def]
  | .createIndex .. => by simp [Stmt.erase, Stmt.shape, List.all_map, Function.comp_def]
  | .dropIndex .. => by simp [Stmt.erase, Stmt.shape]
  | .explain s _ => by simp [Stmt.erase, Stmt.shape, Stmt.shape_erase I s]

end Verif
