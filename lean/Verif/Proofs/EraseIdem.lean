import Verif.Spec.Erase
import Verif.Model.Print
/-
Forgetting the positions of a tree twice is forgetting them once, and the printed text of a tree does not
depend on its positions.
-/
set_option linter.unusedSimpArgs false
namespace Verif

theorem map_erase_erase {α} (f : α → α) (h : ∀ x, f (f x) = f x) (xs : List α) :
    (xs.map f).map f = xs.map f := by
  simp [List.map_map, Function.comp_def, h]

theorem omap_erase_erase {α} (f : α → α) (h : ∀ x, f (f x) = f x) (x : Option α) :
    (x.map f).map f = x.map f := by
  cases x <;> simp [h]

@[simp] theorem Ident.erase_erase (i : Ident) : i.erase.erase = i.erase := rfl

@[simp] theorem idents_erase_erase (is : List Ident) :
    (is.map Ident.erase).map Ident.erase = is.map Ident.erase := map_erase_erase _ Ident.erase_erase is

@[simp] theorem oident_erase_erase (i : Option Ident) :
    (i.map Ident.erase).map Ident.erase = i.map Ident.erase := omap_erase_erase _ Ident.erase_erase i

@[simp] theorem ObjectName.erase_erase (o : ObjectName) : o.erase.erase = o.erase := by
  simp only [ObjectName.erase, idents_erase_erase]

@[simp] theorem DataType.erase_erase : (t : DataType) → t.erase.erase = t.erase
  | .array ty _ => by simp only [DataType.erase, DataType.erase_erase ty]
  | .custom ty => by simp only [DataType.erase, ObjectName.erase_erase]
  | .char .. | .varchar .. | .uuid .. | .clob .. | .binary .. | .varbinary .. | .blob .. | .decimal .. | .float ..
  | .smallInt .. | .int .. | .bigInt .. | .real .. | .double .. | .boolean .. | .date .. | .time ..
  | .timestamp .. | .regclass .. | .text .. | .bytea .. => rfl

@[simp] theorem Operator.erase_erase (x : Operator) : x.erase.erase = x.erase := rfl

@[simp] theorem LongValue.erase_erase (x : LongValue) : x.erase.erase = x.erase := rfl

@[simp] theorem WindowFrameUnit.erase_erase (x : WindowFrameUnit) : x.erase.erase = x.erase := rfl

@[simp] theorem JoinType.erase_erase (x : JoinType) : x.erase.erase = x.erase := rfl

@[simp] theorem FrameBound.erase_erase (x : FrameBound) : x.erase.erase = x.erase := by cases x <;> rfl

@[simp] theorem SetOp.erase_erase (x : SetOp) : x.erase.erase = x.erase := by cases x <;> rfl

@[simp] theorem WindowFrame.erase_erase (f : WindowFrame) : f.erase.erase = f.erase := by
  simp [WindowFrame.erase, omap_erase_erase _ FrameBound.erase_erase]

@[simp] theorem owf_erase_erase (f : Option WindowFrame) :
    (f.map WindowFrame.erase).map WindowFrame.erase = f.map WindowFrame.erase :=
  omap_erase_erase _ WindowFrame.erase_erase f

@[simp] theorem LimitExpr.erase_erase (l : LimitExpr) : l.erase.erase = l.erase := by
  simp [LimitExpr.erase, omap_erase_erase _ LongValue.erase_erase]

@[simp] theorem olimit_erase_erase (l : Option LimitExpr) :
    (l.map LimitExpr.erase).map LimitExpr.erase = l.map LimitExpr.erase :=
  omap_erase_erase _ LimitExpr.erase_erase l

mutual

@[simp] theorem Expr.erase_erase : (x : Expr) → x.erase.erase = x.erase
  | .ident _ => by
    simp [-Option.map_map, -List.map_map, Expr.erase]
  | .wildcard _ => by
    simp [-Option.map_map, -List.map_map, Expr.erase]
  | .qualifiedWildcard _ => by
    simp [-Option.map_map, -List.map_map, Expr.erase]
  | .compoundIdent _ => by
    simp [-Option.map_map, -List.map_map, Expr.erase]
  | .isNull a0 => by
    simp [-Option.map_map, -List.map_map, Expr.erase, Expr.erase_erase a0]
  | .isNotNull a0 => by
    simp [-Option.map_map, -List.map_map, Expr.erase, Expr.erase_erase a0]
  | .inList a0 a1 _ _ => by
    simp [-Option.map_map, -List.map_map, Expr.erase, Expr.erase_erase a0, Expr.erase_erases a1]
  | .inSubQuery a0 a1 _ _ => by
    simp [-Option.map_map, -List.map_map, Expr.erase, Expr.erase_erase a0, QueryStmt.erase_erase a1]
  | .between a0 _ a2 a3 => by
    simp [-Option.map_map, -List.map_map, Expr.erase, Expr.erase_erase a0, Expr.erase_erase a2, Expr.erase_erase a3]
  | .binary a0 _ a2 => by
    simp [-Option.map_map, -List.map_map, Expr.erase, Expr.erase_erase a0, Expr.erase_erase a2]
  | .cast a0 _ _ _ => by
    simp [-Option.map_map, -List.map_map, Expr.erase, Expr.erase_erase a0]
  | .nested a0 _ _ => by
    simp [-Option.map_map, -List.map_map, Expr.erase, Expr.erase_erase a0]
  | .unary _ _ a2 => by
    simp [-Option.map_map, -List.map_map, Expr.erase, Expr.erase_erase a2]
  | .function _ a1 _ a3 _ => by
    simp [-Option.map_map, -List.map_map, Expr.erase, Expr.erase_erases a1, WindowSpec.erase_eraseOpt a3]
  | .caseExpr _ _ a2 a3 a4 a5 => by
    simp [-Option.map_map, -List.map_map, Expr.erase, Expr.erase_eraseOpt a2, Expr.erase_erases a3, Expr.erase_erases a4, Expr.erase_eraseOpt a5]
  | .exists_ _ a1 _ _ _ => by
    simp [-Option.map_map, -List.map_map, Expr.erase, QueryStmt.erase_erase a1]
  | .subQuery _ _ a2 => by
    simp [-Option.map_map, -List.map_map, Expr.erase, QueryStmt.erase_erase a2]
  | .long _ => by
    simp [-Option.map_map, -List.map_map, Expr.erase]
  | .double _ _ _ => by
    simp [-Option.map_map, -List.map_map, Expr.erase]
  | .singleQuoted _ _ _ => by
    simp [-Option.map_map, -List.map_map, Expr.erase]
  | .national _ _ _ => by
    simp [-Option.map_map, -List.map_map, Expr.erase]
  | .boolean _ _ _ => by
    simp [-Option.map_map, -List.map_map, Expr.erase]
  | .null _ _ => by
    simp [-Option.map_map, -List.map_map, Expr.erase]
  | .timeValue _ _ _ _ => by
    simp [-Option.map_map, -List.map_map, Expr.erase]

@[simp] theorem Expr.erase_eraseOpt : (x : Option Expr) →
    Expr.eraseOpt (Expr.eraseOpt x) = Expr.eraseOpt x
  | none => rfl
  | some e => by simp only [Expr.eraseOpt, Expr.erase_erase e]

@[simp] theorem Expr.erase_erases : (x : List Expr) →
    Expr.erases (Expr.erases x) = Expr.erases x
  | [] => rfl
  | e :: es => by simp only [Expr.erases, Expr.erase_erase e, Expr.erase_erases es]

@[simp] theorem WindowSpec.erase_erase : (x : WindowSpec) → x.erase.erase = x.erase
  | .mk a0 a1 _ _ _ => by
    simp [-Option.map_map, -List.map_map, WindowSpec.erase, Expr.erase_erases a0, OrderByExpr.erase_erases a1]

@[simp] theorem WindowSpec.erase_eraseOpt : (x : Option WindowSpec) →
    WindowSpec.eraseOpt (WindowSpec.eraseOpt x) = WindowSpec.eraseOpt x
  | none => rfl
  | some e => by simp only [WindowSpec.eraseOpt, WindowSpec.erase_erase e]

@[simp] theorem OrderByExpr.erase_erase : (x : OrderByExpr) → x.erase.erase = x.erase
  | .mk a0 _ _ => by
    simp [-Option.map_map, -List.map_map, OrderByExpr.erase, Expr.erase_erase a0]

@[simp] theorem OrderByExpr.erase_erases : (x : List OrderByExpr) →
    OrderByExpr.erases (OrderByExpr.erases x) = OrderByExpr.erases x
  | [] => rfl
  | e :: es => by simp only [OrderByExpr.erases, OrderByExpr.erase_erase e, OrderByExpr.erase_erases es]

@[simp] theorem QueryStmt.erase_erase : (x : QueryStmt) → x.erase.erase = x.erase
  | .mk _ a1 a2 a3 _ => by
    simp [-Option.map_map, -List.map_map, QueryStmt.erase, CTE.erase_erases a1, SetExpr.erase_erase a2, OrderByExpr.erase_erases a3]

@[simp] theorem CTE.erase_erase : (x : CTE) → x.erase.erase = x.erase
  | .mk _ a1 _ => by
    simp [-Option.map_map, -List.map_map, CTE.erase, QueryStmt.erase_erase a1]

@[simp] theorem CTE.erase_erases : (x : List CTE) →
    CTE.erases (CTE.erases x) = CTE.erases x
  | [] => rfl
  | e :: es => by simp only [CTE.erases, CTE.erase_erase e, CTE.erase_erases es]

@[simp] theorem SetExpr.erase_erase : (x : SetExpr) → x.erase.erase = x.erase
  | .selectExpr a0 => by
    simp [-Option.map_map, -List.map_map, SetExpr.erase, SQLSelect.erase_erase a0]
  | .select a0 => by
    simp [-Option.map_map, -List.map_map, SetExpr.erase, SQLSelect.erase_erase a0]
  | .query _ _ a2 => by
    simp [-Option.map_map, -List.map_map, SetExpr.erase, QueryStmt.erase_erase a2]
  | .setOp _ _ a2 a3 => by
    simp [-Option.map_map, -List.map_map, SetExpr.erase, SetExpr.erase_erase a2, SetExpr.erase_erase a3]

@[simp] theorem SQLSelect.erase_erase : (x : SQLSelect) → x.erase.erase = x.erase
  | .mk _ a1 a2 a3 a4 a5 _ => by
    simp [-Option.map_map, -List.map_map, SQLSelect.erase, SelectItem.erase_erases a1, TableRef.erase_erases a2, Expr.erase_eraseOpt a3, Expr.erase_erases a4, Expr.erase_eraseOpt a5]

@[simp] theorem SelectItem.erase_erase : (x : SelectItem) → x.erase.erase = x.erase
  | .unnamed a0 => by
    simp [-Option.map_map, -List.map_map, SelectItem.erase, Expr.erase_erase a0]
  | .alias a0 _ => by
    simp [-Option.map_map, -List.map_map, SelectItem.erase, Expr.erase_erase a0]
  | .qualifiedWildcard _ => by
    simp [-Option.map_map, -List.map_map, SelectItem.erase]
  | .wildcard _ _ => by
    simp [-Option.map_map, -List.map_map, SelectItem.erase]

@[simp] theorem SelectItem.erase_erases : (x : List SelectItem) →
    SelectItem.erases (SelectItem.erases x) = SelectItem.erases x
  | [] => rfl
  | e :: es => by simp only [SelectItem.erases, SelectItem.erase_erase e, SelectItem.erase_erases es]

@[simp] theorem TableFactor.erase_erase : (x : TableFactor) → x.erase.erase = x.erase
  | .table _ _ a2 _ a4 _ => by
    simp [-Option.map_map, -List.map_map, TableFactor.erase, Expr.erase_erases a2, Expr.erase_erases a4]
  | .derived _ _ _ _ a4 _ => by
    simp [-Option.map_map, -List.map_map, TableFactor.erase, QueryStmt.erase_erase a4]

@[simp] theorem TableRef.erase_erase : (x : TableRef) → x.erase.erase = x.erase
  | .factor a0 => by
    simp [-Option.map_map, -List.map_map, TableRef.erase, TableFactor.erase_erase a0]
  | .cross a0 a1 => by
    simp [-Option.map_map, -List.map_map, TableRef.erase, TableRef.erase_erase a0, TableFactor.erase_erase a1]
  | .partitioned a0 _ _ => by
    simp [-Option.map_map, -List.map_map, TableRef.erase, TableFactor.erase_erase a0]
  | .qualified a0 _ a2 a3 => by
    simp [-Option.map_map, -List.map_map, TableRef.erase, TableRef.erase_erase a0, TableRef.erase_erase a2, JoinSpec.erase_erase a3]
  | .natural a0 _ a2 => by
    simp [-Option.map_map, -List.map_map, TableRef.erase, TableRef.erase_erase a0, TableRef.erase_erase a2]

@[simp] theorem TableRef.erase_erases : (x : List TableRef) →
    TableRef.erases (TableRef.erases x) = TableRef.erases x
  | [] => rfl
  | e :: es => by simp only [TableRef.erases, TableRef.erase_erase e, TableRef.erase_erases es]

@[simp] theorem JoinSpec.erase_erase : (x : JoinSpec) → x.erase.erase = x.erase
  | .namedColumns _ _ _ => by
    simp [-Option.map_map, -List.map_map, JoinSpec.erase]
  | .condition a0 _ => by
    simp [-Option.map_map, -List.map_map, JoinSpec.erase, Expr.erase_erase a0]

end

@[simp] theorem RowValueExpr.erase_erase (r : RowValueExpr) : r.erase.erase = r.erase := by
  simp [RowValueExpr.erase]

@[simp] theorem InsertSource.erase_erase (r : InsertSource) : r.erase.erase = r.erase := by
  cases r <;> simp only [InsertSource.erase, QueryStmt.erase_erase, map_erase_erase _ RowValueExpr.erase_erase]

@[simp] theorem Assignment.erase_erase (r : Assignment) : r.erase.erase = r.erase := by
  simp [Assignment.erase]

@[simp] theorem ReferenceKeyExpr.erase_erase (r : ReferenceKeyExpr) : r.erase.erase = r.erase := by
  simp only [ReferenceKeyExpr.erase, Ident.erase_erase, idents_erase_erase]

@[simp] theorem TableConstraintSpec.erase_erase (r : TableConstraintSpec) : r.erase.erase = r.erase := by
  cases r <;> simp only [TableConstraintSpec.erase, ReferenceKeyExpr.erase_erase, idents_erase_erase,
    Expr.erase_erase]

@[simp] theorem TableConstraint.erase_erase (r : TableConstraint) : r.erase.erase = r.erase := by
  simp only [TableConstraint.erase, oident_erase_erase, TableConstraintSpec.erase_erase]

@[simp] theorem ColumnSpec.erase_erase (r : ColumnSpec) : r.erase.erase = r.erase := by
  cases r <;> simp only [ColumnSpec.erase, ObjectName.erase_erase, idents_erase_erase, Expr.erase_erase]

@[simp] theorem ColumnConstraint.erase_erase (r : ColumnConstraint) : r.erase.erase = r.erase := by
  simp only [ColumnConstraint.erase, oident_erase_erase, ColumnSpec.erase_erase]

@[simp] theorem ColumnDef.erase_erase (r : ColumnDef) : r.erase.erase = r.erase := by
  simp only [ColumnDef.erase, Ident.erase_erase, DataType.erase_erase, omap_erase_erase _ Expr.erase_erase,
    map_erase_erase AutoIncrement.erase (fun _ => rfl), map_erase_erase _ ColumnConstraint.erase_erase]

@[simp] theorem TableElement.erase_erase (r : TableElement) : r.erase.erase = r.erase := by
  cases r <;> simp only [TableElement.erase, TableConstraint.erase_erase, ColumnDef.erase_erase]

@[simp] theorem TableOption.erase_erase (r : TableOption) : r.erase.erase = r.erase := by
  cases r <;> simp only [TableOption.erase, Ident.erase_erase]

@[simp] theorem AlterColumnAction.erase_erase (r : AlterColumnAction) : r.erase.erase = r.erase := by
  cases r <;> simp only [AlterColumnAction.erase, Expr.erase_erase, DataType.erase_erase]

@[simp] theorem AlterTableAction.erase_erase (r : AlterTableAction) : r.erase.erase = r.erase := by
  cases r <;> simp only [AlterTableAction.erase, Ident.erase_erase, AlterColumnAction.erase_erase,
    ColumnDef.erase_erase, TableConstraint.erase_erase]

@[simp] theorem Stmt.erase_erase : (s : Stmt) → s.erase.erase = s.erase
  | .explain s _ => by simp only [Stmt.erase, Stmt.erase_erase s]
  | .query .. | .insert .. | .copy .. | .update .. | .delete .. | .createView .. | .createTable .. | .alterTable ..
  | .dropTable .. | .createIndex .. | .dropIndex .. => by
    simp only [Stmt.erase, QueryStmt.erase_erase, ObjectName.erase_erase, idents_erase_erase, oident_erase_erase,
      InsertSource.erase_erase, map_erase_erase _ Assignment.erase_erase, omap_erase_erase _ Expr.erase_erase,
      map_erase_erase _ TableElement.erase_erase, map_erase_erase _ TableOption.erase_erase,
      AlterTableAction.erase_erase, map_erase_erase _ ObjectName.erase_erase]

/-! ### Printing ignores positions -/

@[simp] theorem Ident.wt_erase (i : Ident) : i.erase.wt = i.wt := rfl

@[simp] theorem idents'_erase (is : List Ident) (sep : Str) :
    Step.idents' (is.map Ident.erase) sep = Step.idents' is sep := by
  simp [Step.idents', List.map_map, Function.comp_def, Ident.erase]

@[simp] theorem ObjectName.wt_erase (o : ObjectName) : o.erase.wt = o.wt := by
  simp only [ObjectName.wt, ObjectName.erase, idents'_erase]

@[simp] theorem DataType.wt_erase : (t : DataType) → t.erase.wt = t.wt
  | .array ty _ => by simp only [DataType.erase, DataType.wt, DataType.wt_erase ty]
  | .custom ty => by simp only [DataType.erase, DataType.wt, ObjectName.wt_erase]
  | .char .. | .varchar .. | .uuid .. | .clob .. | .binary .. | .varbinary .. | .blob .. | .decimal .. | .float ..
  | .smallInt .. | .int .. | .bigInt .. | .real .. | .double .. | .boolean .. | .date .. | .time ..
  | .timestamp .. | .regclass .. | .text .. | .bytea .. => rfl

@[simp] theorem Operator.wt_erase (o : Operator) : o.erase.wt = o.wt := rfl
@[simp] theorem LongValue.wt_erase (o : LongValue) : o.erase.wt = o.wt := rfl
@[simp] theorem WindowFrameUnit.wt_erase (o : WindowFrameUnit) : o.erase.wt = o.wt := rfl
@[simp] theorem JoinType.wt_erase (o : JoinType) : o.erase.wt = o.wt := rfl
@[simp] theorem FrameBound.wt_erase (o : FrameBound) : o.erase.wt = o.wt := by cases o <;> rfl
@[simp] theorem SetOp.wt_erase (o : SetOp) : o.erase.wt = o.wt := by cases o <;> rfl

@[simp] theorem WindowFrame.wt_erase (f : WindowFrame) : f.erase.wt = f.wt := by
  cases f with | mk u s e => cases e <;> simp [WindowFrame.wt, WindowFrame.erase]

@[simp] theorem LimitExpr.wt_erase (l : LimitExpr) : l.erase.wt = l.wt := by
  rcases l with ⟨c, a, p, o⟩
  cases c <;> cases o <;> simp [LimitExpr.wt, LimitExpr.erase]

@[simp] theorem aliasSteps_erase (a : Option Ident) : aliasSteps (a.map Ident.erase) = aliasSteps a := by
  cases a <;> rfl

@[simp] theorem Expr.erases_isEmpty (xs : List Expr) : (Expr.erases xs).isEmpty = xs.isEmpty := by
  cases xs <;> simp [Expr.erases]

@[simp] theorem OrderByExpr.erases_isEmpty (xs : List OrderByExpr) : (OrderByExpr.erases xs).isEmpty = xs.isEmpty := by
  cases xs <;> simp [OrderByExpr.erases]

@[simp] theorem CTE.erases_isEmpty (xs : List CTE) : (CTE.erases xs).isEmpty = xs.isEmpty := by
  cases xs <;> simp [CTE.erases]

@[simp] theorem SelectItem.erases_isEmpty (xs : List SelectItem) : (SelectItem.erases xs).isEmpty = xs.isEmpty := by
  cases xs <;> simp [SelectItem.erases]

@[simp] theorem TableRef.erases_isEmpty (xs : List TableRef) : (TableRef.erases xs).isEmpty = xs.isEmpty := by
  cases xs <;> simp [TableRef.erases]

mutual

theorem Expr.wt_erase (fns : FloatFns) : (x : Expr) → x.erase.wt fns = x.wt fns
  | .ident _ => by
    simp [Expr.erase, Expr.wt]
  | .wildcard _ => by
    simp [Expr.erase, Expr.wt]
  | .qualifiedWildcard _ => by
    simp [Expr.erase, Expr.wt]
  | .compoundIdent _ => by
    simp [Expr.erase, Expr.wt]
  | .isNull a0 => by
    simp [Expr.erase, Expr.wt, Expr.wt_erase fns a0]
  | .isNotNull a0 => by
    simp [Expr.erase, Expr.wt, Expr.wt_erase fns a0]
  | .inList a0 a1 _ _ => by
    simp [Expr.erase, Expr.wt, Expr.wt_erase fns a0, Expr.wt_erases fns a1]
  | .inSubQuery a0 a1 _ _ => by
    simp [Expr.erase, Expr.wt, Expr.wt_erase fns a0, QueryStmt.wt_erase fns a1]
  | .between a0 _ a2 a3 => by
    simp [Expr.erase, Expr.wt, Expr.wt_erase fns a0, Expr.wt_erase fns a2, Expr.wt_erase fns a3]
  | .binary a0 _ a2 => by
    simp [Expr.erase, Expr.wt, Expr.wt_erase fns a0, Expr.wt_erase fns a2]
  | .cast a0 _ _ _ => by
    simp [Expr.erase, Expr.wt, Expr.wt_erase fns a0]
  | .nested a0 _ _ => by
    simp [Expr.erase, Expr.wt, Expr.wt_erase fns a0]
  | .unary _ _ a2 => by
    simp [Expr.erase, Expr.wt, Expr.wt_erase fns a2]
  | .function _ a1 _ a3 _ => by
    simp [Expr.erase, Expr.wt, Expr.wt_erases fns a1, overSteps_erase fns a3]
  | .caseExpr _ _ a2 a3 a4 a5 => by
    simp [Expr.erase, Expr.wt, optSteps_erase fns _ a2, caseSteps_erase fns a3, Expr.wt_erases fns a4, optSteps_erase fns _ a5]
  | .exists_ _ a1 _ _ _ => by
    simp [Expr.erase, Expr.wt, QueryStmt.wt_erase fns a1]
  | .subQuery _ _ a2 => by
    simp [Expr.erase, Expr.wt, QueryStmt.wt_erase fns a2]
  | .long _ => by
    simp [Expr.erase, Expr.wt]
  | .double _ _ _ => by
    simp [Expr.erase, Expr.wt]
  | .singleQuoted _ _ _ => by
    simp [Expr.erase, Expr.wt]
  | .national _ _ _ => by
    simp [Expr.erase, Expr.wt]
  | .boolean _ _ _ => by
    simp [Expr.erase, Expr.wt]
  | .null _ _ => by
    simp [Expr.erase, Expr.wt]
  | .timeValue _ _ _ _ => by
    simp [Expr.erase, Expr.wt]

theorem optSteps_erase (fns : FloatFns) (pre : Str) : (x : Option Expr) →
    optSteps fns pre (Expr.eraseOpt x) = optSteps fns pre x
  | none => rfl
  | some e => by simp only [Expr.eraseOpt, optSteps, Expr.wt_erase fns e]

theorem caseSteps_erase (fns : FloatFns) : (x : List Expr) →
    ∀ rs, caseSteps fns (Expr.erases x) rs = caseSteps fns x rs
  | [], _ => rfl
  | _ :: _, [] => rfl
  | e :: es, r :: rs => by simp only [Expr.erases, caseSteps, Expr.wt_erase fns e, caseSteps_erase fns es]

theorem Expr.wt_erases (fns : FloatFns) : (x : List Expr) →
    Expr.wts fns (Expr.erases x) = Expr.wts fns x
  | [] => rfl
  | e :: es => by simp only [Expr.erases, Expr.wts, Expr.wt_erase fns e, Expr.wt_erases fns es]

theorem WindowSpec.wt_erase (fns : FloatFns) : (x : WindowSpec) → x.erase.wt fns = x.wt fns
  | .mk a0 a1 f _ _ => by
    cases f <;> simp [WindowSpec.erase, WindowSpec.wt, Expr.wt_erases fns a0, OrderByExpr.wt_erases fns a1]

theorem overSteps_erase (fns : FloatFns) : (x : Option WindowSpec) →
    overSteps fns (WindowSpec.eraseOpt x) = overSteps fns x
  | none => rfl
  | some e => by simp only [WindowSpec.eraseOpt, overSteps, WindowSpec.wt_erase fns e]

theorem OrderByExpr.wt_erase (fns : FloatFns) : (x : OrderByExpr) → x.erase.wt fns = x.wt fns
  | .mk a0 _ _ => by
    simp [OrderByExpr.erase, OrderByExpr.wt, Expr.wt_erase fns a0]

theorem OrderByExpr.wt_erases (fns : FloatFns) : (x : List OrderByExpr) →
    OrderByExpr.wts fns (OrderByExpr.erases x) = OrderByExpr.wts fns x
  | [] => rfl
  | e :: es => by simp only [OrderByExpr.erases, OrderByExpr.wts, OrderByExpr.wt_erase fns e, OrderByExpr.wt_erases fns es]

theorem QueryStmt.wt_erase (fns : FloatFns) : (x : QueryStmt) → x.erase.wt fns = x.wt fns
  | .mk _ a1 a2 a3 l => by
    cases l <;> simp [QueryStmt.erase, QueryStmt.wt, CTE.wt_erases fns a1, SetExpr.wt_erase fns a2, OrderByExpr.wt_erases fns a3]

theorem CTE.wt_erase (fns : FloatFns) : (x : CTE) → x.erase.wt fns = x.wt fns
  | .mk _ a1 _ => by
    simp [CTE.erase, CTE.wt, QueryStmt.wt_erase fns a1]

theorem CTE.wt_erases (fns : FloatFns) : (x : List CTE) →
    CTE.wts fns (CTE.erases x) = CTE.wts fns x
  | [] => rfl
  | e :: es => by simp only [CTE.erases, CTE.wts, CTE.wt_erase fns e, CTE.wt_erases fns es]

theorem SetExpr.wt_erase (fns : FloatFns) : (x : SetExpr) → x.erase.wt fns = x.wt fns
  | .selectExpr a0 => by
    simp [SetExpr.erase, SetExpr.wt, SQLSelect.wt_erase fns a0]
  | .select a0 => by
    simp [SetExpr.erase, SetExpr.wt, SQLSelect.wt_erase fns a0]
  | .query _ _ a2 => by
    simp [SetExpr.erase, SetExpr.wt, QueryStmt.wt_erase fns a2]
  | .setOp _ _ a2 a3 => by
    simp [SetExpr.erase, SetExpr.wt, SetExpr.wt_erase fns a2, SetExpr.wt_erase fns a3]

theorem SQLSelect.wt_erase (fns : FloatFns) : (x : SQLSelect) → x.erase.wt fns = x.wt fns
  | .mk _ a1 a2 a3 a4 a5 _ => by
    simp [SQLSelect.erase, SQLSelect.wt, SelectItem.wt_erases fns a1, TableRef.wt_erases fns a2, optSteps_erase fns _ a3, Expr.wt_erases fns a4, optSteps_erase fns _ a5]

theorem SelectItem.wt_erase (fns : FloatFns) : (x : SelectItem) → x.erase.wt fns = x.wt fns
  | .unnamed a0 => by
    simp [SelectItem.erase, SelectItem.wt, Expr.wt_erase fns a0]
  | .alias a0 _ => by
    simp [SelectItem.erase, SelectItem.wt, Expr.wt_erase fns a0]
  | .qualifiedWildcard _ => by
    simp [SelectItem.erase, SelectItem.wt]
  | .wildcard _ _ => by
    simp [SelectItem.erase, SelectItem.wt]

theorem SelectItem.wt_erases (fns : FloatFns) : (x : List SelectItem) →
    SelectItem.wts fns (SelectItem.erases x) = SelectItem.wts fns x
  | [] => rfl
  | e :: es => by simp only [SelectItem.erases, SelectItem.wts, SelectItem.wt_erase fns e, SelectItem.wt_erases fns es]

theorem TableFactor.wt_erase (fns : FloatFns) : (x : TableFactor) → x.erase.wt fns = x.wt fns
  | .table _ _ a2 _ a4 _ => by
    simp [TableFactor.erase, TableFactor.wt, Expr.wt_erases fns a2, Expr.wt_erases fns a4]
  | .derived _ _ _ _ a4 _ => by
    simp [TableFactor.erase, TableFactor.wt, QueryStmt.wt_erase fns a4]

theorem TableRef.wt_erase (fns : FloatFns) : (x : TableRef) → x.erase.wt fns = x.wt fns
  | .factor a0 => by
    simp [TableRef.erase, TableRef.wt, TableFactor.wt_erase fns a0]
  | .cross a0 a1 => by
    simp [TableRef.erase, TableRef.wt, TableRef.wt_erase fns a0, TableFactor.wt_erase fns a1]
  | .partitioned a0 _ _ => by
    simp [TableRef.erase, TableRef.wt, TableFactor.wt_erase fns a0]
  | .qualified a0 _ a2 a3 => by
    simp [TableRef.erase, TableRef.wt, TableRef.wt_erase fns a0, TableRef.wt_erase fns a2, JoinSpec.wt_erase fns a3]
  | .natural a0 _ a2 => by
    simp [TableRef.erase, TableRef.wt, TableRef.wt_erase fns a0, TableRef.wt_erase fns a2]

theorem TableRef.wt_erases (fns : FloatFns) : (x : List TableRef) →
    TableRef.wts fns (TableRef.erases x) = TableRef.wts fns x
  | [] => rfl
  | e :: es => by simp only [TableRef.erases, TableRef.wts, TableRef.wt_erase fns e, TableRef.wt_erases fns es]

theorem JoinSpec.wt_erase (fns : FloatFns) : (x : JoinSpec) → x.erase.wt fns = x.wt fns
  | .namedColumns _ _ _ => by
    simp [JoinSpec.erase, JoinSpec.wt]
  | .condition a0 _ => by
    simp [JoinSpec.erase, JoinSpec.wt, Expr.wt_erase fns a0]

end

theorem map_wt_erase {α} (f : α → α) (g : α → Wt) (h : ∀ x, g (f x) = g x) (xs : List α) :
    (xs.map f).map g = xs.map g := by
  simp [List.map_map, Function.comp_def, h]

theorem Expr.map_wt_erases (fns : FloatFns) (es : List Expr) :
    (Expr.erases es).map (Expr.wt fns) = es.map (Expr.wt fns) := by
  induction es with
  | nil => rfl
  | cons e es ih => simp only [Expr.erases, List.map, Expr.wt_erase, ih]

theorem RowValueExpr.wt_erase (fns : FloatFns) (r : RowValueExpr) : r.erase.wt fns = r.wt fns := by
  simp only [RowValueExpr.wt, RowValueExpr.erase, Expr.map_wt_erases]

theorem InsertSource.wt_erase (fns : FloatFns) (r : InsertSource) : r.erase.wt fns = r.wt fns := by
  cases r <;> simp only [InsertSource.wt, InsertSource.erase, QueryStmt.wt_erase,
    map_wt_erase _ _ (RowValueExpr.wt_erase fns)]

theorem Assignment.wt_erase (fns : FloatFns) (r : Assignment) : r.erase.wt fns = r.wt fns := by
  simp only [Assignment.wt, Assignment.erase, Expr.wt_erase, Ident.wt_erase]

theorem ReferenceKeyExpr.wt_erase (r : ReferenceKeyExpr) : r.erase.wt = r.wt := by
  simp only [ReferenceKeyExpr.wt, ReferenceKeyExpr.erase, Ident.wt_erase, idents'_erase]

theorem TableConstraintSpec.wt_erase (fns : FloatFns) (r : TableConstraintSpec) :
    r.erase.wt fns = r.wt fns := by
  cases r <;> simp only [TableConstraintSpec.wt, TableConstraintSpec.erase, ReferenceKeyExpr.wt_erase,
    idents'_erase, Expr.wt_erase]

theorem constraintName_erase (n : Option Ident) : constraintName (n.map Ident.erase) = constraintName n := by
  cases n <;> rfl

theorem TableConstraint.wt_erase (fns : FloatFns) (r : TableConstraint) : r.erase.wt fns = r.wt fns := by
  simp only [TableConstraint.wt, TableConstraint.erase, TableConstraintSpec.wt_erase, constraintName_erase]

theorem ColumnSpec.wt_erase (fns : FloatFns) (r : ColumnSpec) : r.erase.wt fns = r.wt fns := by
  cases r <;> simp only [ColumnSpec.wt, ColumnSpec.erase, ObjectName.wt_erase, idents'_erase, Expr.wt_erase]

theorem ColumnConstraint.wt_erase (fns : FloatFns) (r : ColumnConstraint) : r.erase.wt fns = r.wt fns := by
  simp only [ColumnConstraint.wt, ColumnConstraint.erase, ColumnSpec.wt_erase, constraintName_erase]

theorem ColumnDef.wt_erase (fns : FloatFns) (r : ColumnDef) : r.erase.wt fns = r.wt fns := by
  rcases r with ⟨n, ty, df, dec, cs⟩
  cases df <;> simp [ColumnDef.wt, ColumnDef.erase, Function.comp_def, List.flatMap_map, AutoIncrement.wt,
    ColumnConstraint.wt_erase, Expr.wt_erase]

theorem TableElement.wt_erase (fns : FloatFns) (r : TableElement) : r.erase.wt fns = r.wt fns := by
  cases r <;> simp only [TableElement.wt, TableElement.erase, TableConstraint.wt_erase, ColumnDef.wt_erase]

theorem TableOption.wt_erase (r : TableOption) : r.erase.wt = r.wt := by
  cases r <;> simp only [TableOption.wt, TableOption.erase, Ident.wt_erase]

theorem AlterColumnAction.wt_erase (fns : FloatFns) (r : AlterColumnAction) : r.erase.wt fns = r.wt fns := by
  cases r <;> simp only [AlterColumnAction.wt, AlterColumnAction.erase, Expr.wt_erase, DataType.wt_erase]

theorem AlterTableAction.wt_erase (fns : FloatFns) (r : AlterTableAction) : r.erase.wt fns = r.wt fns := by
  cases r <;> simp only [AlterTableAction.wt, AlterTableAction.erase, Ident.wt_erase, AlterColumnAction.wt_erase,
    ColumnDef.wt_erase, TableConstraint.wt_erase]

theorem Stmt.wt_erase (fns : FloatFns) : (s : Stmt) → s.erase.wt fns = s.wt fns
  | .explain s _ => by simp only [Stmt.erase, Stmt.wt, Stmt.wt_erase fns s]
  | .update _ _ _ sel | .delete _ _ sel => by
    cases sel <;> simp only [Stmt.erase, Stmt.wt, ObjectName.wt_erase, Option.map, Expr.wt_erase,
      map_wt_erase _ _ (Assignment.wt_erase fns)]
  | .createIndex _ _ _ i m _ _ sel => by
    cases i <;> cases m <;> cases sel <;> simp only [Stmt.erase, Stmt.wt, ObjectName.wt_erase, Option.map, Expr.wt_erase,
      idents'_erase, Ident.wt_erase]
  | .query .. | .insert .. | .copy .. | .createView .. | .createTable .. | .alterTable ..
  | .dropTable .. | .dropIndex .. => by
    simp only [Stmt.erase, Stmt.wt, QueryStmt.wt_erase, ObjectName.wt_erase, idents'_erase,
      InsertSource.wt_erase, map_wt_erase _ _ (Assignment.wt_erase fns), List.isEmpty_map,
      map_wt_erase _ _ (TableElement.wt_erase fns), map_wt_erase _ _ TableOption.wt_erase,
      AlterTableAction.wt_erase, map_wt_erase _ _ ObjectName.wt_erase]

end Verif
