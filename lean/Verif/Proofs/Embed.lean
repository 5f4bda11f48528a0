/-
Every node of the typed model is a well-typed tree, at every depth.
-/
import Verif.Model.Embed
import Verif.Proofs.Walk
set_option linter.unusedSimpArgs false

namespace Verif

/-- `Tree.WellTyped` as a computation. -/
def wtLocal (k : Kind) (all : Bool) (fs : List FieldVal) : Bool :=
  fitsAll k k.fields fs &&
  (k != .LimitExpr || (all == fs.any fun x => match x with | .nil .LimitValue => true | _ => false))

mutual
def Tree.wtB : Tree → Bool
  | .mk k _ all fs => wtLocal k all fs && Tree.wtFields fs
def Tree.wtFields : List FieldVal → Bool
  | [] => true
  | x :: xs => Tree.wtField x && Tree.wtFields xs
def Tree.wtField : FieldVal → Bool
  | .nil _ => true
  | .one _ t => t.wtB
  | .list _ ts => Tree.wtList ts
def Tree.wtList : List Tree → Bool
  | [] => true
  | t :: ts => t.wtB && Tree.wtList ts
end

theorem Tree.wtList_iff (ts : List Tree) : Tree.wtList ts = true ↔ ∀ t ∈ ts, t.wtB = true := by
  induction ts with
  | nil => simp [Tree.wtList]
  | cons t ts ih => simp [Tree.wtList, ih]

theorem Tree.wtFields_iff (fs : List FieldVal) :
    Tree.wtFields fs = true ↔ ∀ t ∈ fs.flatMap FieldVal.nodes, t.wtB = true := by
  induction fs with
  | nil => simp [Tree.wtFields]
  | cons x xs ih =>
    cases x with
    | nil => simpa [Tree.wtFields, Tree.wtField, FieldVal.nodes] using ih
    | one f t =>
      simp only [Tree.wtFields, Tree.wtField, FieldVal.nodes, Bool.and_eq_true, ih, List.flatMap_cons,
        List.mem_append, List.mem_singleton]
      constructor
      · rintro ⟨h1, h2⟩ u (rfl | hu)
        · exact h1
        · exact h2 u hu
      · intro h; exact ⟨h t (.inl rfl), fun u hu => h u (.inr hu)⟩
    | list f ts =>
      simp only [Tree.wtFields, Tree.wtField, FieldVal.nodes, Bool.and_eq_true, ih, List.flatMap_cons,
        List.mem_append, Tree.wtList_iff]
      constructor
      · rintro ⟨h1, h2⟩ u (hu | hu)
        · exact h1 u hu
        · exact h2 u hu
      · intro h; exact ⟨fun u hu => h u (.inl hu), fun u hu => h u (.inr hu)⟩

theorem wtLocal_wellTyped {k : Kind} {i : NodeRef} {all : Bool} {fs : List FieldVal} (h : wtLocal k all fs = true) :
    (Tree.mk k i all fs).WellTyped := by
  simp only [wtLocal, Bool.and_eq_true, Bool.or_eq_true] at h
  refine ⟨h.1, ?_⟩
  intro hk
  simp only [Tree.kind] at hk
  rcases h.2 with h2 | h2
  · simp [hk] at h2
  · simp only [beq_iff_eq] at h2
    simp only [Tree.all, Tree.fields]
    rw [h2, List.any_eq_true]
    constructor
    · rintro ⟨x, hx, hm⟩
      split at hm
      · exact hx
      · cases hm
    · intro hx; exact ⟨_, hx, rfl⟩

theorem wtB_all {t u : Tree} (h : t.wtB = true) (ho : Occurs t u) : u.WellTyped := by
  induction ho with
  | refl t =>
    cases t with
    | mk k i all fs =>
      simp only [Tree.wtB, Bool.and_eq_true] at h
      exact wtLocal_wellTyped h.1
  | child hc _ ih =>
    rename_i t c u _
    cases t with
    | mk k i all fs =>
      simp only [Tree.wtB, Bool.and_eq_true, Tree.wtFields_iff] at h
      exact ih (h.2 c hc)

/-! The nodes of the typed model -/

theorem accepts_node (k : Kind) : FTy.accepts (.iface .Node) k = true := rfl
theorem accepts_type (k : Kind) : FTy.accepts (.iface .Type) k = true := rfl
theorem accepts_spec (k : Kind) : FTy.accepts (.iface .ColumnConstraintSpec) k = true := rfl

@[simp] theorem Ident.tree_kind (x : Ident) : x.tree.kind = .Ident := rfl
@[simp] theorem ObjectName.tree_kind (x : ObjectName) : x.tree.kind = .ObjectName := rfl
@[simp] theorem Operator.tree_kind (x : Operator) : x.tree.kind = .Operator := rfl
@[simp] theorem LongValue.tree_kind (x : LongValue) : x.tree.kind = .LongValue := rfl
@[simp] theorem WindowFrameUnit.tree_kind (x : WindowFrameUnit) : x.tree.kind = .WindowFrameUnit := rfl
@[simp] theorem WindowFrame.tree_kind (x : WindowFrame) : x.tree.kind = .WindowFrame := rfl
@[simp] theorem JoinType.tree_kind (x : JoinType) : x.tree.kind = .JoinType := rfl
@[simp] theorem LimitExpr.tree_kind (x : LimitExpr) : x.tree.kind = .LimitExpr := rfl
@[simp] theorem WindowSpec.tree_kind (x : WindowSpec) : x.tree.kind = .WindowSpec := by cases x; rfl
@[simp] theorem OrderByExpr.tree_kind (x : OrderByExpr) : x.tree.kind = .OrderByExpr := by cases x; rfl
@[simp] theorem QueryStmt.tree_kind (x : QueryStmt) : x.tree.kind = .QueryStmt := by cases x; rfl
@[simp] theorem CTE.tree_kind (x : CTE) : x.tree.kind = .CTE := by cases x; rfl
@[simp] theorem SQLSelect.tree_kind (x : SQLSelect) : x.tree.kind = .SQLSelect := by cases x; rfl
@[simp] theorem RowValueExpr.tree_kind (x : RowValueExpr) : x.tree.kind = .RowValueExpr := rfl
@[simp] theorem Assignment.tree_kind (x : Assignment) : x.tree.kind = .Assignment := rfl
@[simp] theorem ReferenceKeyExpr.tree_kind (x : ReferenceKeyExpr) : x.tree.kind = .ReferenceKeyExpr := rfl
@[simp] theorem TableConstraint.tree_kind (x : TableConstraint) : x.tree.kind = .TableConstraint := rfl
@[simp] theorem ColumnConstraint.tree_kind (x : ColumnConstraint) : x.tree.kind = .ColumnConstraint := rfl
@[simp] theorem ColumnDef.tree_kind (x : ColumnDef) : x.tree.kind = .ColumnDef := rfl
@[simp] theorem AutoIncrement.tree_kind (x : AutoIncrement) : x.tree.kind = .AutoIncrement := rfl
@[simp] theorem Comment.tree_kind (x : Comment) : x.tree.kind = .Comment := rfl
@[simp] theorem CommentGroup.tree_kind (x : CommentGroup) : x.tree.kind = .CommentGroup := rfl

@[simp] theorem SetExpr.tree_acc (x : SetExpr) : FTy.accepts (.iface .SQLSetExpr) x.tree.kind = true := by
  cases x with
  | select s => rw [SetExpr.tree, SQLSelect.tree_kind]; rfl
  | _ => rfl
@[simp] theorem SetOp.tree_acc (x : SetOp) : FTy.accepts (.iface .SQLSetOperator) x.tree.kind = true := by
  cases x <;> rfl
@[simp] theorem SelectItem.tree_acc (x : SelectItem) :
    FTy.accepts (.iface .SQLSelectItem) x.tree.kind = true := by cases x <;> rfl
@[simp] theorem TableFactor.tree_acc (x : TableFactor) :
    FTy.accepts (.iface .TableFactor) x.tree.kind = true := by cases x <;> rfl
@[simp] theorem TableRef.tree_acc (x : TableRef) :
    FTy.accepts (.iface .TableReference) x.tree.kind = true := by
  cases x with
  | factor f => cases f <;> rfl
  | _ => rfl
@[simp] theorem JoinSpec.tree_acc (x : JoinSpec) : FTy.accepts (.iface .JoinSpec) x.tree.kind = true := by
  cases x <;> rfl
@[simp] theorem FrameBound.tree_acc (x : FrameBound) :
    FTy.accepts (.iface .SQLWindowFrameBound) x.tree.kind = true := by cases x <;> rfl
@[simp] theorem InsertSource.tree_acc (x : InsertSource) :
    FTy.accepts (.iface .InsertSource) x.tree.kind = true := by cases x <;> rfl
@[simp] theorem TableConstraintSpec.tree_acc (x : TableConstraintSpec) :
    FTy.accepts (.iface .TableConstraintSpec) x.tree.kind = true := by cases x <;> rfl
@[simp] theorem TableElement.tree_acc (x : TableElement) :
    FTy.accepts (.iface .TableElement) x.tree.kind = true := by cases x <;> rfl
@[simp] theorem TableOption.tree_acc (x : TableOption) :
    FTy.accepts (.iface .TableOption) x.tree.kind = true := by cases x <;> rfl
@[simp] theorem AutoIncrement.tree_acc (x : AutoIncrement) :
    FTy.accepts (.iface .MyDataTypeDecoration) x.tree.kind = true := rfl
@[simp] theorem AlterColumnAction.tree_acc (x : AlterColumnAction) :
    FTy.accepts (.iface .AlterColumnAction) x.tree.kind = true := by cases x <;> rfl
@[simp] theorem AlterTableAction.tree_acc (x : AlterTableAction) :
    FTy.accepts (.iface .AlterTableAction) x.tree.kind = true := by cases x <;> rfl
@[simp] theorem Stmt.tree_acc (x : Stmt) : FTy.accepts (.iface .Stmt) x.tree.kind = true := by
  cases x with
  | query q => rw [Stmt.tree, QueryStmt.tree_kind]; rfl
  | _ => rfl

@[simp] theorem accepts_ptr (k : Kind) : FTy.accepts (.ptr k) k = true := by simp [FTy.accepts]

theorem trees_eq_Expr (xs : List Expr) : Expr.trees xs = xs.map Expr.tree := by
  induction xs with
  | nil => rfl
  | cons x xs ih => simp [Expr.trees, ih]
theorem trees_eq_OrderBy (xs : List OrderByExpr) : OrderByExpr.trees xs = xs.map OrderByExpr.tree := by
  induction xs with
  | nil => rfl
  | cons x xs ih => simp [OrderByExpr.trees, ih]
theorem trees_eq_CTE (xs : List CTE) : CTE.trees xs = xs.map CTE.tree := by
  induction xs with
  | nil => rfl
  | cons x xs ih => simp [CTE.trees, ih]
theorem trees_eq_SelectItem (xs : List SelectItem) : SelectItem.trees xs = xs.map SelectItem.tree := by
  induction xs with
  | nil => rfl
  | cons x xs ih => simp [SelectItem.trees, ih]
theorem trees_eq_TableRef (xs : List TableRef) : TableRef.trees xs = xs.map TableRef.tree := by
  induction xs with
  | nil => rfl
  | cons x xs ih => simp [TableRef.trees, ih]

/-- The side condition on `LIMIT` does not concern other nodes. -/
theorem wtB_node {k : Kind} {p e : Option Pos} {fs : List FieldVal} (hk : (k != .LimitExpr) = true)
    (hf : fitsAll k k.fields fs = true) (hs : Tree.wtFields fs = true) : (Tree.node k p e fs).wtB = true := by
  simp [Tree.node, Tree.wtB, wtLocal, hk, hf, hs]

macro "wt_node" "[" ls:Lean.Parser.Tactic.simpLemma,* "]" : tactic =>
  `(tactic| (refine wtB_node rfl ?_ ?_ <;>
    simp [Kind.fields, fitsAll, FieldVal.fits, FieldVal.opt, optionalFields, Tree.wtFields, Tree.wtField,
      Tree.wtList_iff, accepts_node, accepts_type, accepts_spec, trees_eq_Expr, trees_eq_OrderBy, trees_eq_CTE,
      trees_eq_SelectItem, trees_eq_TableRef, Ident.trees, $ls,*]))

@[simp] theorem Ident.tree_wt (x : Ident) : x.tree.wtB = true := rfl
theorem ObjectName.tree_wt (x : ObjectName) : x.tree.wtB = true := by
  simp only [ObjectName.tree]; wt_node []
theorem DataType.tree_wt : (x : DataType) → x.tree.wtB = true
  | .array ty _ => by
    have := DataType.tree_wt ty
    simp only [DataType.tree]; wt_node [this]
  | .custom ty => by
    have := ObjectName.tree_wt ty
    simp only [DataType.tree]; wt_node [this]
  | .char .. | .varchar .. | .uuid .. | .clob .. | .binary .. | .varbinary .. | .blob .. | .decimal ..
  | .float .. | .smallInt .. | .int .. | .bigInt .. | .real .. | .double .. | .boolean .. | .date .. | .time ..
  | .timestamp .. | .regclass .. | .text .. | .bytea .. => rfl
@[simp] theorem Operator.tree_wt (x : Operator) : x.tree.wtB = true := rfl
@[simp] theorem LongValue.tree_wt (x : LongValue) : x.tree.wtB = true := rfl
@[simp] theorem WindowFrameUnit.tree_wt (x : WindowFrameUnit) : x.tree.wtB = true := rfl
@[simp] theorem JoinType.tree_wt (x : JoinType) : x.tree.wtB = true := rfl
@[simp] theorem FrameBound.tree_wt (x : FrameBound) : x.tree.wtB = true := by cases x <;> rfl
@[simp] theorem SetOp.tree_wt (x : SetOp) : x.tree.wtB = true := by cases x <;> rfl
theorem WindowFrame.tree_wt (x : WindowFrame) : x.tree.wtB = true := by
  simp only [WindowFrame.tree]
  cases x.endBound <;> wt_node []
theorem LimitExpr.tree_wt (x : LimitExpr) : x.tree.wtB = true := by
  simp only [LimitExpr.tree]
  cases x.count <;> cases x.offset <;>
    simp [Tree.wtB, wtLocal, Kind.fields, fitsAll, FieldVal.fits, FieldVal.opt, optionalFields, Tree.wtFields,
      Tree.wtField]
@[simp] theorem TimeKind.leaf_wt (k : TimeKind) (p e : Option Pos) : (Tree.leaf k.kind p e).wtB = true := by cases k <;> rfl

mutual
theorem Expr.tree_wt : (x : Expr) → x.tree.wtB = true
  | .ident i => rfl
  | .wildcard _ => rfl
  | .qualifiedWildcard is => by simp only [Expr.tree]; wt_node []
  | .compoundIdent is => by simp only [Expr.tree]; wt_node []
  | .isNull x => by
    have := Expr.tree_wt x
    simp only [Expr.tree]; wt_node [this]
  | .isNotNull x => by
    have := Expr.tree_wt x
    simp only [Expr.tree]; wt_node [this]
  | .inList e l _ _ => by
    have h1 := Expr.tree_wt e
    have h2 := Expr.trees_wt l
    simp only [Expr.tree]; wt_node [h1]; simpa [trees_eq_Expr] using h2
  | .inSubQuery e q _ _ => by
    have h1 := Expr.tree_wt e
    have h2 := QueryStmt.tree_wt q
    simp only [Expr.tree]; wt_node [h1, h2]
  | .between e _ l h => by
    have h1 := Expr.tree_wt e
    have h2 := Expr.tree_wt l
    have h3 := Expr.tree_wt h
    simp only [Expr.tree]; wt_node [h1, h2, h3]
  | .binary l o r => by
    have h1 := Expr.tree_wt l
    have h2 := Expr.tree_wt r
    simp only [Expr.tree]; wt_node [h1, h2]
  | .cast e d _ _ => by
    have h1 := Expr.tree_wt e
    have h2 := DataType.tree_wt d
    simp only [Expr.tree]; wt_node [h1, h2]
  | .nested e _ _ => by
    have h1 := Expr.tree_wt e
    simp only [Expr.tree]; wt_node [h1]
  | .unary _ o e => by
    have h1 := Expr.tree_wt e
    simp only [Expr.tree]; wt_node [h1]
  | .function n args _ none _ => by
    have h1 := Expr.trees_wt args
    have h2 := ObjectName.tree_wt n
    simp only [Expr.tree, WindowSpec.treeOpt]; wt_node [h2]; simpa [trees_eq_Expr] using h1
  | .function n args _ (some w) _ => by
    have h1 := Expr.trees_wt args
    have h2 := ObjectName.tree_wt n
    have h3 := WindowSpec.tree_wt w
    simp only [Expr.tree, WindowSpec.treeOpt]; wt_node [h2, h3]; simpa [trees_eq_Expr] using h1
  | .caseExpr _ _ operand conditions results elseResult => by
    have h1 := Expr.treeOpt_wt .Operand operand
    have h2 := Expr.trees_wt conditions
    have h3 := Expr.trees_wt results
    have h4 := Expr.treeOpt_wt .ElseResult elseResult
    simp only [trees_eq_Expr, List.mem_map, forall_exists_index, and_imp, forall_apply_eq_imp_iff₂] at h2 h3
    simp only [Expr.tree]
    cases operand <;> cases elseResult <;> simp only [Expr.treeOpt, Tree.wtField] at h1 h4 ⊢ <;>
      wt_node [h1, h4] <;> exact ⟨h2, h3⟩
  | .exists_ _ q _ _ _ => by
    have h2 := QueryStmt.tree_wt q
    simp only [Expr.tree]; wt_node [h2]
  | .subQuery _ _ q => by
    have h2 := QueryStmt.tree_wt q
    simp only [Expr.tree]; wt_node [h2]
  | .long v => rfl
  | .double .. => rfl
  | .singleQuoted .. => rfl
  | .national .. => rfl
  | .boolean .. => rfl
  | .null .. => rfl
  | .timeValue k _ _ _ => by simp [Expr.tree]
theorem Expr.treeOpt_wt (f : FName) : (x : Option Expr) → Tree.wtField (Expr.treeOpt f x) = true
  | none => rfl
  | some e => by have := Expr.tree_wt e; simpa [Expr.treeOpt, Tree.wtField] using this
theorem Expr.trees_wt : (xs : List Expr) → ∀ t ∈ Expr.trees xs, t.wtB = true
  | [] => by simp [Expr.trees]
  | e :: es => by
    have h1 := Expr.tree_wt e
    have h2 := Expr.trees_wt es
    simpa [Expr.trees, h1] using h2
theorem WindowSpec.tree_wt : (x : WindowSpec) → x.tree.wtB = true
  | .mk partitionBy orderBy frame _ _ => by
    have h1 := Expr.trees_wt partitionBy
    have h2 := OrderByExpr.trees_wt orderBy
    simp only [trees_eq_Expr, trees_eq_OrderBy, List.mem_map, forall_exists_index, and_imp,
      forall_apply_eq_imp_iff₂] at h1 h2
    simp only [WindowSpec.tree]
    cases frame <;> wt_node [WindowFrame.tree_wt] <;> exact ⟨h1, h2⟩
theorem OrderByExpr.tree_wt : (x : OrderByExpr) → x.tree.wtB = true
  | .mk e _ _ => by
    have h1 := Expr.tree_wt e
    simp only [OrderByExpr.tree]; wt_node [h1]
theorem OrderByExpr.trees_wt : (xs : List OrderByExpr) → ∀ t ∈ OrderByExpr.trees xs, t.wtB = true
  | [] => by simp [OrderByExpr.trees]
  | e :: es => by
    have h1 := OrderByExpr.tree_wt e
    have h2 := OrderByExpr.trees_wt es
    simpa [OrderByExpr.trees, h1] using h2
theorem QueryStmt.tree_wt : (x : QueryStmt) → x.tree.wtB = true
  | .mk _ ctes body orderBy limit => by
    have h1 := CTE.trees_wt ctes
    have h2 := SetExpr.tree_wt body
    have h3 := OrderByExpr.trees_wt orderBy
    simp only [trees_eq_CTE, trees_eq_OrderBy, List.mem_map, forall_exists_index, and_imp,
      forall_apply_eq_imp_iff₂] at h1 h3
    simp only [QueryStmt.tree]
    cases limit <;> wt_node [LimitExpr.tree_wt, h2] <;> exact ⟨h1, h3⟩
theorem CTE.tree_wt : (x : CTE) → x.tree.wtB = true
  | .mk a q _ => by
    have h2 := QueryStmt.tree_wt q
    simp only [CTE.tree]; wt_node [h2]
theorem CTE.trees_wt : (xs : List CTE) → ∀ t ∈ CTE.trees xs, t.wtB = true
  | [] => by simp [CTE.trees]
  | e :: es => by
    have h1 := CTE.tree_wt e
    have h2 := CTE.trees_wt es
    simpa [CTE.trees, h1] using h2
theorem SetExpr.tree_wt : (x : SetExpr) → x.tree.wtB = true
  | .selectExpr s => by
    have h := SQLSelect.tree_wt s
    simp only [SetExpr.tree]; wt_node [h]
  | .select s => SQLSelect.tree_wt s
  | .query _ _ q => by
    have h2 := QueryStmt.tree_wt q
    simp only [SetExpr.tree]; wt_node [h2]
  | .setOp o _ l r => by
    have h1 := SetExpr.tree_wt l
    have h2 := SetExpr.tree_wt r
    simp only [SetExpr.tree]; wt_node [h1, h2]
theorem SQLSelect.tree_wt : (x : SQLSelect) → x.tree.wtB = true
  | .mk _ projection from_ where_ groupBy having _ => by
    have h1 := SelectItem.trees_wt projection
    have h2 := TableRef.trees_wt from_
    have h3 := Expr.trees_wt groupBy
    have h4 := Expr.treeOpt_wt .WhereClause where_
    have h5 := Expr.treeOpt_wt .HavingClause having
    simp only [trees_eq_SelectItem, trees_eq_TableRef, trees_eq_Expr, List.mem_map, forall_exists_index, and_imp,
      forall_apply_eq_imp_iff₂] at h1 h2 h3
    simp only [SQLSelect.tree]
    cases where_ <;> cases having <;> simp only [Expr.treeOpt, Tree.wtField] at h4 h5 ⊢ <;>
      wt_node [h4, h5] <;> exact ⟨h1, h2, h3⟩
theorem SelectItem.tree_wt : (x : SelectItem) → x.tree.wtB = true
  | .unnamed e => by
    have h1 := Expr.tree_wt e
    simp only [SelectItem.tree]; wt_node [h1]
  | .alias e a => by
    have h1 := Expr.tree_wt e
    simp only [SelectItem.tree]; wt_node [h1]
  | .qualifiedWildcard p => by
    have h1 := ObjectName.tree_wt p
    simp only [SelectItem.tree]; wt_node [h1]
  | .wildcard _ _ => rfl
theorem SelectItem.trees_wt : (xs : List SelectItem) → ∀ t ∈ SelectItem.trees xs, t.wtB = true
  | [] => by simp [SelectItem.trees]
  | e :: es => by
    have h1 := SelectItem.tree_wt e
    have h2 := SelectItem.trees_wt es
    simpa [SelectItem.trees, h1] using h2
theorem TableFactor.tree_wt : (x : TableFactor) → x.tree.wtB = true
  | .table n a args _ hints _ => by
    have h1 := ObjectName.tree_wt n
    have h2 := Expr.trees_wt args
    have h3 := Expr.trees_wt hints
    simp only [trees_eq_Expr, List.mem_map, forall_exists_index, and_imp, forall_apply_eq_imp_iff₂] at h2 h3
    simp only [TableFactor.tree]
    cases a <;> wt_node [h1] <;> exact ⟨h2, h3⟩
  | .derived _ _ _ _ q a => by
    have h2 := QueryStmt.tree_wt q
    simp only [TableFactor.tree]
    cases a <;> wt_node [h2]
theorem TableRef.tree_wt : (x : TableRef) → x.tree.wtB = true
  | .factor f => TableFactor.tree_wt f
  | .cross r f => by
    have h1 := TableRef.tree_wt r
    have h2 := TableFactor.tree_wt f
    simp only [TableRef.tree]; wt_node [h1, h2]
  | .partitioned f cs _ => by
    have h2 := TableFactor.tree_wt f
    simp only [TableRef.tree]; wt_node [h2]
  | .qualified l t r s => by
    have h1 := TableRef.tree_wt l
    have h2 := TableRef.tree_wt r
    have h3 := JoinSpec.tree_wt s
    have h4 : (Tree.node .TableJoinElement l.pos l.end_ [.one .Ref l.tree]).wtB = true := by wt_node [h1]
    have h5 : (Tree.node .TableJoinElement r.pos r.end_ [.one .Ref r.tree]).wtB = true := by wt_node [h2]
    have h6 : ∀ p e t, FTy.accepts (.ptr .TableJoinElement) (Tree.node .TableJoinElement p e t).kind = true :=
      fun _ _ _ => rfl
    simp only [TableRef.tree]; wt_node [h3, h4, h5, h6]
  | .natural l t r => by
    have h1 := TableRef.tree_wt l
    have h2 := TableRef.tree_wt r
    have h4 : (Tree.node .TableJoinElement l.pos l.end_ [.one .Ref l.tree]).wtB = true := by wt_node [h1]
    have h5 : (Tree.node .TableJoinElement r.pos r.end_ [.one .Ref r.tree]).wtB = true := by wt_node [h2]
    have h6 : ∀ p e t, FTy.accepts (.ptr .TableJoinElement) (Tree.node .TableJoinElement p e t).kind = true :=
      fun _ _ _ => rfl
    simp only [TableRef.tree]; wt_node [h4, h5, h6]
theorem TableRef.trees_wt : (xs : List TableRef) → ∀ t ∈ TableRef.trees xs, t.wtB = true
  | [] => by simp [TableRef.trees]
  | e :: es => by
    have h1 := TableRef.tree_wt e
    have h2 := TableRef.trees_wt es
    simpa [TableRef.trees, h1] using h2
theorem JoinSpec.tree_wt : (x : JoinSpec) → x.tree.wtB = true
  | .namedColumns cs _ _ => by simp only [JoinSpec.tree]; wt_node []
  | .condition e _ => by
    have h1 := Expr.tree_wt e
    simp only [JoinSpec.tree]; wt_node [h1]
end

theorem RowValueExpr.tree_wt (x : RowValueExpr) : x.tree.wtB = true := by
  simp only [RowValueExpr.tree]; wt_node [Expr.tree_wt]
theorem InsertSource.tree_wt (x : InsertSource) : x.tree.wtB = true := by
  cases x <;> simp only [InsertSource.tree] <;> wt_node [QueryStmt.tree_wt, RowValueExpr.tree_wt]
theorem Assignment.tree_wt (x : Assignment) : x.tree.wtB = true := by
  simp only [Assignment.tree]; wt_node [Expr.tree_wt]
theorem ReferenceKeyExpr.tree_wt (x : ReferenceKeyExpr) : x.tree.wtB = true := by
  simp only [ReferenceKeyExpr.tree]; wt_node []
theorem TableConstraintSpec.tree_wt (x : TableConstraintSpec) : x.tree.wtB = true := by
  cases x <;> simp only [TableConstraintSpec.tree] <;> wt_node [Expr.tree_wt, ReferenceKeyExpr.tree_wt]
theorem TableConstraint.tree_wt (x : TableConstraint) : x.tree.wtB = true := by
  simp only [TableConstraint.tree]
  cases x.name <;> wt_node [TableConstraintSpec.tree_wt]
theorem ColumnSpec.tree_wt (x : ColumnSpec) : x.tree.wtB = true := by
  cases x with
  | notNull => rfl
  | unique => rfl
  | references => simp only [ColumnSpec.tree]; wt_node [ObjectName.tree_wt]
  | check => simp only [ColumnSpec.tree]; wt_node [Expr.tree_wt]
theorem ColumnConstraint.tree_wt (x : ColumnConstraint) : x.tree.wtB = true := by
  simp only [ColumnConstraint.tree]
  cases x.name <;> wt_node [ColumnSpec.tree_wt]
theorem AutoIncrement.tree_wt (x : AutoIncrement) : x.tree.wtB = true := rfl
theorem ColumnDef.tree_wt (x : ColumnDef) : x.tree.wtB = true := by
  simp only [ColumnDef.tree]
  cases x.default_ <;>
    wt_node [Expr.tree_wt, DataType.tree_wt, AutoIncrement.tree_wt, ColumnConstraint.tree_wt] <;>
    exact fun _ _ => rfl
theorem TableElement.tree_wt (x : TableElement) : x.tree.wtB = true := by
  cases x
  · exact TableConstraint.tree_wt _
  · exact ColumnDef.tree_wt _
theorem TableOption.tree_wt (x : TableOption) : x.tree.wtB = true := by
  cases x <;> simp only [TableOption.tree] <;> wt_node []
theorem AlterColumnAction.tree_wt (x : AlterColumnAction) : x.tree.wtB = true := by
  cases x with
  | setDefault => simp only [AlterColumnAction.tree]; wt_node [Expr.tree_wt]
  | pgAlterDataType => simp only [AlterColumnAction.tree]; wt_node [DataType.tree_wt]
  | _ => rfl
theorem AlterTableAction.tree_wt (x : AlterTableAction) : x.tree.wtB = true := by
  cases x <;> simp only [AlterTableAction.tree] <;>
    wt_node [ColumnDef.tree_wt, AlterColumnAction.tree_wt, TableConstraint.tree_wt]
theorem Stmt.tree_wt : (x : Stmt) → x.tree.wtB = true
  | .query q => QueryStmt.tree_wt q
  | .insert .. => by
    simp only [Stmt.tree]; wt_node [ObjectName.tree_wt, InsertSource.tree_wt, Assignment.tree_wt]
  | .copy .. => by simp only [Stmt.tree]; wt_node [ObjectName.tree_wt]
  | .update _ _ _ none => by simp only [Stmt.tree]; wt_node [ObjectName.tree_wt, Assignment.tree_wt]
  | .update _ _ _ (some e) => by
    simp only [Stmt.tree]; wt_node [ObjectName.tree_wt, Assignment.tree_wt, Expr.tree_wt]
  | .delete _ _ none => by simp only [Stmt.tree]; wt_node [ObjectName.tree_wt]
  | .delete _ _ (some e) => by simp only [Stmt.tree]; wt_node [ObjectName.tree_wt, Expr.tree_wt]
  | .createView .. => by simp only [Stmt.tree]; wt_node [ObjectName.tree_wt, QueryStmt.tree_wt]
  | .createTable .. => by
    simp only [Stmt.tree]; wt_node [ObjectName.tree_wt, TableElement.tree_wt, TableOption.tree_wt]
  | .alterTable .. => by simp only [Stmt.tree]; wt_node [ObjectName.tree_wt, AlterTableAction.tree_wt]
  | .dropTable .. => by simp only [Stmt.tree]; wt_node [ObjectName.tree_wt]
  | .createIndex _ _ _ i m _ _ s => by
    simp only [Stmt.tree]
    cases i <;> cases m <;> cases s <;> wt_node [ObjectName.tree_wt, Expr.tree_wt]
  | .dropIndex .. => by simp only [Stmt.tree]; wt_node []
  | .explain s _ => by
    have := Stmt.tree_wt s
    simp only [Stmt.tree]; wt_node [this]
theorem Comment.tree_wt (x : Comment) : x.tree.wtB = true := rfl
theorem CommentGroup.tree_wt (x : CommentGroup) : x.tree.wtB = true := by
  simp only [CommentGroup.tree]; wt_node [Comment.tree_wt]
theorem File.tree_wt (x : File) : x.tree.wtB = true := by
  simp only [File.tree]; wt_node [Stmt.tree_wt, CommentGroup.tree_wt]

end Verif
