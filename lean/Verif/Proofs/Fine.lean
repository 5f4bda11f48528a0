/-
`Walk`, `Pos` and `End` do not panic on structurally sound trees without traps.
-/
import Verif.Proofs.Embed
import Verif.Spec.CommentMap
import Verif.Spec.Shape
import Verif.Proofs.KernelRfl
set_option linter.unusedSimpArgs false

namespace Verif

/-- No trap can be reached; only required if `b`. -/
def Clear (b : Prop) (t : Tree) : Prop := b → ∀ u, Reached t u → u.trap = false

/-- `Walk` does not panic at any node that can be reached, and neither do `Pos` and `End` if `b`. -/
def Fine (b : Prop) (t : Tree) : Prop :=
  ∀ u, Reached t u → u.walkKids.isSome ∧ (b → u.pos?.isSome ∧ u.end?.isSome)

variable {b : Prop} {I : Str → Bool}

theorem Clear.kid {t c : Tree} {ks : List (Option Tree)} (h : Clear b t) (hk : t.walkKids = some ks)
    (hc : some c ∈ ks) : Clear b c :=
  fun hb u hu => h hb u (.child hk hc hu)

theorem fine_mk {t : Tree} {ks : List (Option Tree)} (hk : t.walkKids = some ks) (hp : b → t.pos?.isSome)
    (he : b → t.end?.isSome) (hc : ∀ c, some c ∈ ks → Fine b c) : Fine b t := by
  intro u hu
  cases hu with
  | refl => exact ⟨by rw [hk]; rfl, fun hb => ⟨hp hb, he hb⟩⟩
  | child hks hm hr =>
    rw [hk] at hks
    cases hks
    exact hc _ hm u hr

theorem fine_leaf {t : Tree} (hk : t.walkKids = some []) (hp : t.pos?.isSome) (he : t.end?.isSome) : Fine b t :=
  fine_mk hk (fun _ => hp) (fun _ => he) (by simp)

theorem Fine.pos {t : Tree} (h : Fine b t) (hb : b) : t.pos?.isSome := ((h t (.refl t)).2 hb).1
theorem Fine.end_ {t : Tree} (h : Fine b t) (hb : b) : t.end?.isSome := ((h t (.refl t)).2 hb).2
theorem Clear.self {t : Tree} (h : Clear b t) (hb : b) : t.trap = false := h hb t (.refl t)

/-! The positions of the typed nodes -/

@[simp] theorem Tree.node_pos (k : Kind) (p e : Option Pos) (fs : List FieldVal) : (Tree.node k p e fs).pos? = p := rfl
@[simp] theorem Tree.node_end (k : Kind) (p e : Option Pos) (fs : List FieldVal) : (Tree.node k p e fs).end? = e := rfl
@[simp] theorem Tree.leaf_pos (k : Kind) (p e : Option Pos) : (Tree.leaf k p e).pos? = p := rfl
@[simp] theorem Tree.leaf_end (k : Kind) (p e : Option Pos) : (Tree.leaf k p e).end? = e := rfl

theorem DataType.tree_pos (x : DataType) : x.tree.pos? = x.pos := by cases x <;> simp [DataType.tree]
theorem DataType.tree_end (x : DataType) : x.tree.end? = x.end_ := by cases x <;> simp [DataType.tree]
theorem Expr.tree_pos (x : Expr) : x.tree.pos? = x.pos := by cases x <;> simp [Expr.tree, Ident.tree, LongValue.tree, Expr.pos]
theorem Expr.tree_end (x : Expr) : x.tree.end? = x.end_ := by cases x <;> simp [Expr.tree, Ident.tree, LongValue.tree, Expr.end_]
theorem WindowSpec.tree_pos (x : WindowSpec) : x.tree.pos? = x.pos := by cases x; simp [WindowSpec.tree]
theorem WindowSpec.tree_end (x : WindowSpec) : x.tree.end? = x.end_ := by cases x; simp [WindowSpec.tree]
theorem OrderByExpr.tree_pos (x : OrderByExpr) : x.tree.pos? = x.pos := by cases x; simp [OrderByExpr.tree]
theorem OrderByExpr.tree_end (x : OrderByExpr) : x.tree.end? = x.end_ := by cases x; simp [OrderByExpr.tree]
theorem QueryStmt.tree_pos (x : QueryStmt) : x.tree.pos? = x.pos := by cases x; simp [QueryStmt.tree]
theorem QueryStmt.tree_end (x : QueryStmt) : x.tree.end? = x.end_ := by cases x; simp [QueryStmt.tree]
theorem SQLSelect.tree_pos (x : SQLSelect) : x.tree.pos? = x.pos := by cases x; simp [SQLSelect.tree]
theorem SQLSelect.tree_end (x : SQLSelect) : x.tree.end? = x.end_ := by cases x; simp [SQLSelect.tree]
theorem SetExpr.tree_pos (x : SetExpr) : x.tree.pos? = x.pos := by
  cases x <;> simp [SetExpr.tree, SetExpr.pos, SQLSelect.tree_pos]
theorem SetExpr.tree_end (x : SetExpr) : x.tree.end? = x.end_ := by
  cases x <;> simp [SetExpr.tree, SetExpr.end_, SQLSelect.tree_end]
theorem SelectItem.tree_pos (x : SelectItem) : x.tree.pos? = x.pos := by cases x <;> simp [SelectItem.tree]
theorem SelectItem.tree_end (x : SelectItem) : x.tree.end? = x.end_ := by cases x <;> simp [SelectItem.tree]
theorem TableFactor.tree_pos (x : TableFactor) : x.tree.pos? = x.pos := by cases x <;> simp [TableFactor.tree]
theorem TableFactor.tree_end (x : TableFactor) : x.tree.end? = x.end_ := by cases x <;> simp [TableFactor.tree]
theorem TableRef.tree_pos (x : TableRef) : x.tree.pos? = x.pos := by
  cases x <;> simp [TableRef.tree, TableRef.pos, TableFactor.tree_pos]
theorem TableRef.tree_end (x : TableRef) : x.tree.end? = x.end_ := by
  cases x <;> simp [TableRef.tree, TableRef.end_, TableFactor.tree_end]
theorem JoinSpec.tree_pos (x : JoinSpec) : x.tree.pos? = some x.pos := by cases x <;> simp [JoinSpec.tree]
theorem JoinSpec.tree_end (x : JoinSpec) : x.tree.end? = x.end_ := by cases x <;> simp [JoinSpec.tree]
theorem InsertSource.tree_pos (x : InsertSource) : x.tree.pos? = x.pos := by cases x <;> simp [InsertSource.tree]
theorem InsertSource.tree_end (x : InsertSource) : x.tree.end? = x.end_ := by cases x <;> simp [InsertSource.tree]
theorem TableElement.tree_pos (x : TableElement) : x.tree.pos? = some x.pos := by
  cases x <;> simp [TableElement.tree, ColumnDef.tree, TableConstraint.tree, TableElement.pos]
theorem TableElement.tree_end (x : TableElement) : x.tree.end? = x.end_ := by
  cases x <;> simp [TableElement.tree, ColumnDef.tree, TableConstraint.tree, TableElement.end_]
theorem AlterColumnAction.tree_end (x : AlterColumnAction) : x.tree.end? = x.end_ := by
  cases x <;> simp [AlterColumnAction.tree]
theorem AlterTableAction.tree_end (x : AlterTableAction) : x.tree.end? = x.end_ := by
  cases x <;> simp [AlterTableAction.tree]
theorem Stmt.tree_pos (x : Stmt) : x.tree.pos? = x.pos := by cases x <;> simp [Stmt.tree, Stmt.pos, QueryStmt.tree_pos]
theorem Stmt.tree_end (x : Stmt) : x.tree.end? = x.end_ := by cases x <;> simp [Stmt.tree, Stmt.end_, QueryStmt.tree_end]

/-! Nodes without subqueries -/

@[simp] theorem Ident.fine (x : Ident) : Fine b x.tree := fine_leaf rfl rfl rfl
@[simp] theorem Operator.fine (x : Operator) : Fine b x.tree := fine_leaf rfl rfl rfl
@[simp] theorem LongValue.fine (x : LongValue) : Fine b x.tree := fine_leaf rfl rfl rfl
@[simp] theorem WindowFrameUnit.fine (x : WindowFrameUnit) : Fine b x.tree := fine_leaf rfl rfl rfl
@[simp] theorem JoinType.fine (x : JoinType) : Fine b x.tree := fine_leaf rfl rfl rfl
@[simp] theorem FrameBound.fine (x : FrameBound) : Fine b x.tree := by cases x <;> exact fine_leaf rfl rfl rfl
@[simp] theorem SetOp.fine (x : SetOp) : Fine b x.tree := by cases x <;> exact fine_leaf rfl rfl rfl

theorem Ident.fines (is : List Ident) : ∀ t ∈ Ident.trees is, Fine b t := by simp [Ident.trees]

theorem identsPos_some {is : List Ident} (h : identsShape I is = true) :
    (identsPos is).isSome ∧ (identsEnd is).isSome := by
  cases is with
  | nil => simp [identsShape] at h
  | cons i is => simp [identsPos, identsEnd]

theorem ObjectName.fine {x : ObjectName} (h : x.shape I = true) : Fine b x.tree := by
  have h' := identsPos_some h
  exact fine_mk (ks := (Ident.trees x.idents).map some ++ []) (by kernel_rfl) (fun _ => h'.1) (fun _ => h'.2)
    (by simpa using Ident.fines _)

theorem DataType.fine : {x : DataType} → x.shape I = true → Fine b x.tree
  | .array ty _, h => by
    refine fine_leaf rfl ?_ rfl
    cases ty <;> simp [DataType.shape] at h
    rfl
  | .custom ty, h => by
    have h' := identsPos_some (I := I) (is := ty.idents) h
    exact fine_leaf rfl h'.1 h'.2
  | .char .., _ | .varchar .., _ | .uuid .., _ | .clob .., _ | .binary .., _ | .varbinary .., _ | .blob .., _
  | .decimal .., _ | .float .., _ | .smallInt .., _ | .int .., _ | .bigInt .., _ | .real .., _ | .double .., _
  | .boolean .., _ | .date .., _ | .time .., _ | .timestamp .., _ | .regclass .., _ | .text .., _ | .bytea .., _ =>
    fine_leaf rfl rfl rfl

theorem WindowFrame.fine : (x : WindowFrame) → Fine b x.tree
  | ⟨u, s, none⟩ => fine_mk (ks := [some u.tree, some s.tree]) (by kernel_rfl) (fun _ => rfl) (fun _ => rfl) (by simp)
  | ⟨u, s, some b⟩ => fine_mk (ks := [some u.tree, some s.tree, some b.tree]) (by kernel_rfl) (fun _ => rfl) (fun _ => rfl) (by simp)

theorem LimitExpr.fine : (x : LimitExpr) → Fine b x.tree
  | ⟨none, _, _, none⟩ => fine_leaf (by kernel_rfl) rfl rfl
  | ⟨none, _, _, some o⟩ => fine_mk (ks := [some o.tree]) (by kernel_rfl) (fun _ => rfl) (fun _ => rfl) (by simp)
  | ⟨some v, _, _, none⟩ => fine_mk (ks := [some v.tree]) (by kernel_rfl) (fun _ => rfl) (fun _ => rfl) (by simp)
  | ⟨some v, _, _, some o⟩ => fine_mk (ks := [some v.tree, some o.tree]) (by kernel_rfl) (fun _ => rfl) (fun _ => rfl) (by simp)

/-! Expressions and queries -/

/-- Goals about membership in lists of children. -/
macro "mem" : tactic => `(tactic| simp)


theorem Expr.pos_some {x : Expr} (h : Fine b x.tree) (hb : b) : x.pos.isSome := by simpa [Expr.tree_pos] using h.pos hb
theorem Expr.end_some {x : Expr} (h : Fine b x.tree) (hb : b) : x.end_.isSome := by simpa [Expr.tree_end] using h.end_ hb

mutual
theorem Expr.fine : (x : Expr) → x.shape I = true → Clear b x.tree → Fine b x.tree
  | .ident i, _, _ => Ident.fine i
  | .wildcard _, _, _ => fine_leaf rfl rfl rfl
  | .qualifiedWildcard is, h, _ => by
    have h' := identsPos_some h
    exact fine_mk (ks := (Ident.trees is).map some ++ []) (by kernel_rfl) (fun _ => h'.1) (fun _ => h'.2)
      (by simpa using Ident.fines _)
  | .compoundIdent is, h, _ => by
    simp only [Expr.shape, Bool.and_eq_true] at h
    have h' := identsPos_some h.1
    exact fine_mk (ks := (Ident.trees is).map some ++ []) (by kernel_rfl) (fun _ => h'.1) (fun _ => h'.2)
      (by simpa using Ident.fines _)
  | .isNull x, h, c => by
    simp only [Expr.shape, Bool.and_eq_true] at h
    have hk : (Expr.isNull x).tree.walkKids = some [some x.tree] := by kernel_rfl
    have f := Expr.fine x h.1 (c.kid hk (by mem))
    exact fine_mk hk (Expr.pos_some f :) (fun hb => by simpa [Expr.tree_end, Expr.end_] using Expr.end_some f hb) (by simpa using f)
  | .isNotNull x, h, c => by
    simp only [Expr.shape, Bool.and_eq_true] at h
    have hk : (Expr.isNotNull x).tree.walkKids = some [some x.tree] := by kernel_rfl
    have f := Expr.fine x h.1 (c.kid hk (by mem))
    exact fine_mk hk (Expr.pos_some f :) (fun hb => by simpa [Expr.tree_end, Expr.end_] using Expr.end_some f hb) (by simpa using f)
  | .inList x l neg rp, h, c => by
    simp only [Expr.shape, Bool.and_eq_true] at h
    have hk : (Expr.inList x l neg rp).tree.walkKids = some (some x.tree :: ((Expr.trees l).map some ++ [])) := by
      kernel_rfl
    have f1 := Expr.fine x h.1.1.1 (c.kid hk (by mem))
    have f2 := Expr.fines l h.2 fun t ht => c.kid hk (by simp [ht])
    exact fine_mk hk (Expr.pos_some f1 :) (fun _ => rfl) (by simpa using ⟨f1, f2⟩)
  | .inSubQuery x q neg rp, h, c => by
    simp only [Expr.shape, Bool.and_eq_true] at h
    have hk : (Expr.inSubQuery x q neg rp).tree.walkKids = some [some x.tree, some q.tree] := by kernel_rfl
    have f1 := Expr.fine x h.1.1.1 (c.kid hk (by mem))
    have f2 := QueryStmt.fine q h.1.2 (c.kid hk (by mem))
    exact fine_mk hk (Expr.pos_some f1 :) (fun _ => rfl) (by simpa using ⟨f1, f2⟩)
  | .between x neg low high, h, c => by
    simp only [Expr.shape, Bool.and_eq_true] at h
    have hk : (Expr.between x neg low high).tree.walkKids = some [some x.tree, some low.tree, some high.tree] := by
      kernel_rfl
    have f1 := Expr.fine x h.1.1.1.1.1.1 (c.kid hk (by mem))
    have f2 := Expr.fine low h.1.1.1.1.2 (c.kid hk (by mem))
    have f3 := Expr.fine high h.1.2 (c.kid hk (by mem))
    exact fine_mk hk (Expr.pos_some f1 :) (Expr.end_some f3 :) (by simpa using ⟨f1, f2, f3⟩)
  | .binary l op r, h, c => by
    simp only [Expr.shape, Bool.and_eq_true] at h
    have hk : (Expr.binary l op r).tree.walkKids = some [some l.tree, some op.tree, some r.tree] := by kernel_rfl
    have f1 := Expr.fine l h.1.1.1.1 (c.kid hk (by mem))
    have f2 := Expr.fine r h.1.1.1.2 (c.kid hk (by mem))
    exact fine_mk hk (Expr.pos_some f1 :) (Expr.end_some f2 :) (by simpa using ⟨f1, f2⟩)
  | .cast e ty p rp, h, c => by
    simp only [Expr.shape, Bool.and_eq_true] at h
    have hk : (Expr.cast e ty p rp).tree.walkKids = some [some e.tree, some ty.tree] := by kernel_rfl
    have f1 := Expr.fine e h.1 (c.kid hk (by mem))
    exact fine_mk hk (fun _ => rfl) (fun _ => rfl) (by simpa using ⟨f1, DataType.fine h.2⟩)
  | .nested e lp rp, h, c => by
    simp only [Expr.shape] at h
    have hk : (Expr.nested e lp rp).tree.walkKids = some [some e.tree] := by kernel_rfl
    exact fine_mk hk (fun _ => rfl) (fun _ => rfl) (by simpa using Expr.fine e h (c.kid hk (by mem)))
  | .unary f op e, h, c => by
    simp only [Expr.shape, Bool.and_eq_true] at h
    have hk : (Expr.unary f op e).tree.walkKids = some [some op.tree, some e.tree] := by kernel_rfl
    have f1 := Expr.fine e h.1 (c.kid hk (by mem))
    exact fine_mk hk (fun _ => rfl) (Expr.end_some f1 :) (by simpa using f1)
  | .function n args rp none orp, h, c => by
    simp only [Expr.shape, Bool.and_eq_true] at h
    have hk : (Expr.function n args rp none orp).tree.walkKids =
      some (some n.tree :: ((Expr.trees args).map some ++ [])) := by kernel_rfl
    have f1 := Expr.fines args h.1.2 fun t ht => c.kid hk (by simp [ht])
    exact fine_mk hk (fun _ => (identsPos_some h.1.1).1) (fun _ => rfl) (by simpa using ⟨ObjectName.fine h.1.1, f1⟩)
  | .function n args rp (some w) orp, h, c => by
    simp only [Expr.shape, Bool.and_eq_true] at h
    have hk : (Expr.function n args rp (some w) orp).tree.walkKids =
      some (some n.tree :: ((Expr.trees args).map some ++ [some w.tree])) := by kernel_rfl
    have f1 := Expr.fines args h.1.2 fun t ht => c.kid hk (by simp [ht])
    have f2 := WindowSpec.fine w h.2 (c.kid hk (by simp))
    refine fine_mk hk (fun _ => (identsPos_some h.1.1).1) (fun _ => rfl) ?_
    simp only [List.mem_cons, List.mem_append, List.mem_map, Option.some.injEq, List.not_mem_nil, or_false]
    rintro u (rfl | ⟨_, hu, rfl⟩ | rfl)
    · exact ObjectName.fine h.1.1
    · exact f1 _ hu
    · exact f2
  | .caseExpr p q none conds results e, h, c =>
    fine_mk (ks := [none]) (by kernel_rfl) (fun _ => rfl) (fun _ => rfl) (by simp)
  | .caseExpr p q (some o) conds results e, h, c => by
    simp only [Expr.shape, Bool.and_eq_true] at h
    have hk : (Expr.caseExpr p q (some o) conds results e).tree.walkKids = some [some o.tree] := by kernel_rfl
    exact fine_mk hk (fun _ => rfl) (fun _ => rfl) (by simpa using Expr.fine o h.1.1.1.1.1 (c.kid hk (by mem)))
  | .exists_ neg q n e rp, h, c => by
    simp only [Expr.shape] at h
    have hk : (Expr.exists_ neg q n e rp).tree.walkKids = some [some q.tree] := by kernel_rfl
    exact fine_mk hk (fun _ => rfl) (fun _ => rfl) (by simpa using QueryStmt.fine q h (c.kid hk (by mem)))
  | .subQuery rp lp q, h, c => by
    simp only [Expr.shape, Bool.and_eq_true] at h
    have hk : (Expr.subQuery rp lp q).tree.walkKids = some [some q.tree] := by kernel_rfl
    exact fine_mk hk (fun _ => rfl) (fun _ => rfl) (by simpa using QueryStmt.fine q h.1 (c.kid hk (by mem)))
  | .long v, _, _ => LongValue.fine v
  | .double .., _, _ => fine_leaf rfl rfl rfl
  | .singleQuoted .., _, _ => fine_leaf rfl rfl rfl
  | .national .., _, _ => fine_leaf rfl rfl rfl
  | .boolean .., _, _ => fine_leaf rfl rfl rfl
  | .null .., _, _ => fine_leaf rfl rfl rfl
  | .timeValue .., h, _ => by simp [Expr.shape] at h
theorem Expr.fines : (xs : List Expr) → Expr.shapes I xs = true → (∀ t ∈ Expr.trees xs, Clear b t) →
    ∀ t ∈ Expr.trees xs, Fine b t
  | [], _, _ => by simp [Expr.trees]
  | e :: es, h, c => by
    simp only [Expr.shapes, Bool.and_eq_true] at h
    simp only [Expr.trees, List.mem_cons, forall_eq_or_imp] at c ⊢
    exact ⟨Expr.fine e h.1 c.1, Expr.fines es h.2 c.2⟩
theorem WindowSpec.fine : (x : WindowSpec) → x.shape I = true → Clear b x.tree → Fine b x.tree
  | .mk ps os fr p o, h, c => by
    simp only [WindowSpec.shape, Bool.and_eq_true] at h
    have hk : (WindowSpec.mk ps os fr p o).tree.walkKids = some ((Expr.trees ps).map some ++
        ((OrderByExpr.trees os).map some ++ ((match fr with | some f => [some f.tree] | none => []) ++ []))) := by
      cases fr <;> kernel_rfl
    have f1 := Expr.fines ps h.1.1 fun t ht => c.kid hk (by simp [ht])
    have f2 := OrderByExpr.fines os h.1.2 fun t ht => c.kid hk (by simp [ht])
    have hne : b → ps ≠ [] ∨ os ≠ [] ∨ fr ≠ none := by
      intro hb
      have ht := c.self hb
      apply Classical.byContradiction
      intro hn
      have h1 : ps = [] := Classical.byContradiction fun hh => hn (.inl hh)
      have h2 : os = [] := Classical.byContradiction fun hh => hn (.inr (.inl hh))
      have h3 : fr = none := Classical.byContradiction fun hh => hn (.inr (.inr hh))
      subst h1 h2 h3
      exact absurd (show true = false from ht) (by decide)
    refine fine_mk hk (fun hb => ?_) (fun hb => ?_) ?_
    · have hne := hne hb
      rw [WindowSpec.tree_pos, WindowSpec.pos]
      by_cases h1 : ps = []
      · by_cases h2 : os = []
        · cases fr with
          | none => simp [h1, h2] at hne
          | some f => simp [h1, h2]
        · simp [h1, h2]
      · simp [h1]
    · have hne := hne hb
      rw [WindowSpec.tree_end, WindowSpec.end_.eq_def]; simp only
      cases fr with
      | some f => rfl
      | none =>
        cases ho : os.getLast? with
        | some o =>
          have := f2 o.tree (by rw [trees_eq_OrderBy]; exact List.mem_map_of_mem (List.mem_of_getLast? ho))
          simpa [OrderByExpr.tree_end] using this.end_ hb
        | none =>
          rw [List.getLast?_eq_none_iff] at ho
          cases hp : ps.getLast? with
          | none => rw [List.getLast?_eq_none_iff] at hp; simp [ho, hp] at hne
          | some e =>
            have := f1 e.tree (by rw [trees_eq_Expr]; exact List.mem_map_of_mem (List.mem_of_getLast? hp))
            simpa using Expr.end_some this hb
    · intro u hu
      simp only [List.mem_append, List.mem_map, Option.some.injEq, List.not_mem_nil, or_false] at hu
      rcases hu with ⟨_, hu, rfl⟩ | ⟨_, hu, rfl⟩ | hu
      · exact f1 _ hu
      · exact f2 _ hu
      · cases fr with
        | none => simp at hu
        | some f => simp at hu; subst hu; exact WindowFrame.fine f
theorem OrderByExpr.fine : (x : OrderByExpr) → x.shape I = true → Clear b x.tree → Fine b x.tree
  | .mk e p a, h, c => by
    simp only [OrderByExpr.shape] at h
    have hk : (OrderByExpr.mk e p a).tree.walkKids = some [some e.tree] := by kernel_rfl
    have f := Expr.fine e h (c.kid hk (by mem))
    refine fine_mk hk (Expr.pos_some f :) (fun hb => ?_) (by simpa using f)
    rw [OrderByExpr.tree_end, OrderByExpr.end_]
    split
    · rfl
    · exact Expr.end_some f hb
theorem OrderByExpr.fines : (xs : List OrderByExpr) → OrderByExpr.shapes I xs = true →
    (∀ t ∈ OrderByExpr.trees xs, Clear b t) → ∀ t ∈ OrderByExpr.trees xs, Fine b t
  | [], _, _ => by simp [OrderByExpr.trees]
  | e :: es, h, c => by
    simp only [OrderByExpr.shapes, Bool.and_eq_true] at h
    simp only [OrderByExpr.trees, List.mem_cons, forall_eq_or_imp] at c ⊢
    exact ⟨OrderByExpr.fine e h.1 c.1, OrderByExpr.fines es h.2 c.2⟩
theorem QueryStmt.fine : (x : QueryStmt) → x.shape I = true → Clear b x.tree → Fine b x.tree
  | .mk w ctes body os lim, h, c => by
    simp only [QueryStmt.shape, Bool.and_eq_true] at h
    have hk : (QueryStmt.mk w ctes body os lim).tree.walkKids = some ((CTE.trees ctes).map some ++
        (some body.tree :: ((OrderByExpr.trees os).map some ++
        ((match lim with | some f => [some f.tree] | none => []) ++ [])))) := by
      cases lim <;> kernel_rfl
    have f1 := CTE.fines ctes h.1.1.1 fun t ht => c.kid hk (by simp [ht])
    have f2 := SetExpr.fine body h.1.1.2 (c.kid hk (by simp))
    have f3 := OrderByExpr.fines os h.1.2 fun t ht => c.kid hk (by simp [ht])
    refine fine_mk hk (fun hb => ?_) (fun hb => ?_) ?_
    · rw [QueryStmt.tree_pos, QueryStmt.pos]
      split
      · rfl
      · simpa [SetExpr.tree_pos] using f2.pos hb
    · rw [QueryStmt.tree_end, QueryStmt.end_.eq_def]; simp only
      cases lim with
      | some f => rfl
      | none =>
        cases ho : os.getLast? with
        | some o =>
          have := f3 o.tree (by rw [trees_eq_OrderBy]; exact List.mem_map_of_mem (List.mem_of_getLast? ho))
          simpa [OrderByExpr.tree_end] using this.end_ hb
        | none => simpa [SetExpr.tree_end] using f2.end_ hb
    · intro u hu
      simp only [List.mem_append, List.mem_cons, List.mem_map, Option.some.injEq, List.not_mem_nil, or_false] at hu
      rcases hu with ⟨_, hu, rfl⟩ | rfl | ⟨_, hu, rfl⟩ | hu
      · exact f1 _ hu
      · exact f2
      · exact f3 _ hu
      · cases lim with
        | none => simp at hu
        | some f => simp at hu; subst hu; exact LimitExpr.fine f
theorem CTE.fine : (x : CTE) → x.shape I = true → Clear b x.tree → Fine b x.tree
  | .mk a q rp, h, c => by
    simp only [CTE.shape, Bool.and_eq_true] at h
    have hk : (CTE.mk a q rp).tree.walkKids = some [some q.tree, some a.tree] := by kernel_rfl
    exact fine_mk hk (fun _ => rfl) (fun _ => rfl) (by simpa using QueryStmt.fine q h.2 (c.kid hk (by mem)))
theorem CTE.fines : (xs : List CTE) → CTE.shapes I xs = true → (∀ t ∈ CTE.trees xs, Clear b t) →
    ∀ t ∈ CTE.trees xs, Fine b t
  | [], _, _ => by simp [CTE.trees]
  | e :: es, h, c => by
    simp only [CTE.shapes, Bool.and_eq_true] at h
    simp only [CTE.trees, List.mem_cons, forall_eq_or_imp] at c ⊢
    exact ⟨CTE.fine e h.1 c.1, CTE.fines es h.2 c.2⟩
theorem SetExpr.fine : (x : SetExpr) → x.shape I = true → Clear b x.tree → Fine b x.tree
  | .selectExpr _, h, _ => by simp [SetExpr.shape] at h
  | .select s, h, c => SQLSelect.fine s h c
  | .query lp rp q, h, c => by
    simp only [SetExpr.shape] at h
    have hk : (SetExpr.query lp rp q).tree.walkKids = some [some q.tree] := by kernel_rfl
    exact fine_mk hk (fun _ => rfl) (fun _ => rfl) (by simpa using QueryStmt.fine q h (c.kid hk (by mem)))
  | .setOp op a l r, h, c => by
    simp only [SetExpr.shape, Bool.and_eq_true] at h
    have hk : (SetExpr.setOp op a l r).tree.walkKids = some [some op.tree, some l.tree, some r.tree] := by kernel_rfl
    have f1 := SetExpr.fine l h.1.1.1 (c.kid hk (by mem))
    have f2 := SetExpr.fine r h.1.1.2 (c.kid hk (by mem))
    refine fine_mk hk (fun hb => ?_) (fun hb => ?_) (by simpa using ⟨f1, f2⟩)
    · simpa [SetExpr.tree_pos, SetExpr.pos] using f1.pos hb
    · simpa [SetExpr.tree_end, SetExpr.end_] using f2.end_ hb
theorem SQLSelect.fine : (x : SQLSelect) → x.shape I = true → Clear b x.tree → Fine b x.tree
  | .mk d proj frm wh gb hav p, h, c => by
    simp only [SQLSelect.shape, Bool.and_eq_true] at h
    have hk : (SQLSelect.mk d proj frm wh gb hav p).tree.walkKids = some ((SelectItem.trees proj).map some ++
        ((TableRef.trees frm).map some ++ ((match wh with | some f => [some f.tree] | none => []) ++
        ((Expr.trees gb).map some ++ ((match hav with | some f => [some f.tree] | none => []) ++ []))))) := by
      cases wh <;> cases hav <;> kernel_rfl
    have f1 := SelectItem.fines proj h.1.1.1.1.1.2 fun t ht => c.kid hk (by simp [ht])
    have f2 := TableRef.fines frm h.1.1.1.1.2 fun t ht => c.kid hk (by simp [ht])
    have f3 : ∀ e, wh = some e → Fine b e.tree := fun e he => by
      subst he
      exact Expr.fine e h.1.1.1.2 (c.kid hk (by simp))
    have f4 := Expr.fines gb h.1.1.2 fun t ht => c.kid hk (by simp [ht])
    have f5 : ∀ e, hav = some e → Fine b e.tree := fun e he => by
      subst he
      exact Expr.fine e h.1.2 (c.kid hk (by simp))
    refine fine_mk hk (fun _ => rfl) (fun hb => ?_) ?_
    · rw [SQLSelect.tree_end, SQLSelect.end_.eq_def]; simp only
      cases hav with
      | some e => exact Expr.end_some (f5 e rfl) hb
      | none =>
        cases hg : gb.getLast? with
        | some e =>
          have := f4 e.tree (by rw [trees_eq_Expr]; exact List.mem_map_of_mem (List.mem_of_getLast? hg))
          exact Expr.end_some this hb
        | none =>
          cases wh with
          | some e => exact Expr.end_some (f3 e rfl) hb
          | none =>
            cases hf : frm.getLast? with
            | some r =>
              have := f2 r.tree (by rw [trees_eq_TableRef]; exact List.mem_map_of_mem (List.mem_of_getLast? hf))
              simpa [TableRef.tree_end] using this.end_ hb
            | none =>
              cases hp : proj.getLast? with
              | none => rw [List.getLast?_eq_none_iff] at hp; simp [hp] at h
              | some i =>
                have := f1 i.tree (by rw [trees_eq_SelectItem]; exact List.mem_map_of_mem (List.mem_of_getLast? hp))
                simpa [SelectItem.tree_end] using this.end_ hb
    · intro u hu
      simp only [List.mem_append, List.mem_map, Option.some.injEq, List.not_mem_nil, or_false] at hu
      rcases hu with ⟨_, hu, rfl⟩ | ⟨_, hu, rfl⟩ | hu | ⟨_, hu, rfl⟩ | hu
      · exact f1 _ hu
      · exact f2 _ hu
      · cases wh with
        | none => simp at hu
        | some f => simp at hu; subst hu; exact f3 _ rfl
      · exact f4 _ hu
      · cases hav with
        | none => simp at hu
        | some f => simp at hu; subst hu; exact f5 _ rfl
theorem SelectItem.fine : (x : SelectItem) → x.shape I = true → Clear b x.tree → Fine b x.tree
  | .unnamed e, h, c => by
    simp only [SelectItem.shape, Bool.and_eq_true] at h
    have hk : (SelectItem.unnamed e).tree.walkKids = some [some e.tree] := by kernel_rfl
    have f := Expr.fine e h.1 (c.kid hk (by mem))
    exact fine_mk hk (Expr.pos_some f :) (Expr.end_some f :) (by simpa using f)
  | .alias e a, h, c => by
    simp only [SelectItem.shape, Bool.and_eq_true] at h
    have hk : (SelectItem.alias e a).tree.walkKids = some [some e.tree, some a.tree] := by kernel_rfl
    have f := Expr.fine e h.1.1 (c.kid hk (by mem))
    exact fine_mk hk (Expr.pos_some f :) (fun _ => rfl) (by simpa using f)
  | .qualifiedWildcard n, h, c => by
    simp only [SelectItem.shape] at h
    have h' := identsPos_some (is := n.idents) h
    exact fine_mk (ks := [some n.tree]) (by kernel_rfl) (fun _ => h'.1)
      (fun _ => by simpa [SelectItem.tree_end, SelectItem.end_] using h'.2) (by simpa using ObjectName.fine h)
  | .wildcard _ _, h, _ => by simp [SelectItem.shape] at h
theorem SelectItem.fines : (xs : List SelectItem) → SelectItem.shapes I xs = true →
    (∀ t ∈ SelectItem.trees xs, Clear b t) → ∀ t ∈ SelectItem.trees xs, Fine b t
  | [], _, _ => by simp [SelectItem.trees]
  | e :: es, h, c => by
    simp only [SelectItem.shapes, Bool.and_eq_true] at h
    simp only [SelectItem.trees, List.mem_cons, forall_eq_or_imp] at c ⊢
    exact ⟨SelectItem.fine e h.1 c.1, SelectItem.fines es h.2 c.2⟩
theorem TableFactor.fine : (x : TableFactor) → x.shape I = true → Clear b x.tree → Fine b x.tree
  | .table n a args arp hints hrp, h, c => by
    simp only [TableFactor.shape, Bool.and_eq_true] at h
    have hk : (TableFactor.table n a args arp hints hrp).tree.walkKids = some (some n.tree ::
        ((match a with | some i => [some i.tree] | none => []) ++
        ((Expr.trees args).map some ++ ((Expr.trees hints).map some ++ [])))) := by
      cases a <;> kernel_rfl
    have h' := identsPos_some (is := n.idents) h.1.1.1
    have f1 := Expr.fines args h.1.2 fun t ht => c.kid hk (by simp [ht])
    have f2 := Expr.fines hints h.2 fun t ht => c.kid hk (by simp [ht])
    refine fine_mk hk (fun _ => h'.1) (fun hb => ?_) ?_
    · rw [TableFactor.tree_end, TableFactor.end_.eq_def]; simp only
      split
      · rfl
      · cases a with
        | some i => rfl
        | none => simp only; split <;> simp [h'.2]
    · intro u hu
      simp only [List.mem_append, List.mem_cons, List.mem_map, Option.some.injEq, List.not_mem_nil, or_false] at hu
      rcases hu with rfl | hu | ⟨_, hu, rfl⟩ | ⟨_, hu, rfl⟩
      · exact ObjectName.fine h.1.1.1
      · cases a with
        | none => simp at hu
        | some f => simp at hu; subst hu; exact Ident.fine f
      · exact f1 _ hu
      · exact f2 _ hu
  | .derived l lpos lp rp q a, h, c => by
    simp only [TableFactor.shape, Bool.and_eq_true] at h
    have hk : (TableFactor.derived l lpos lp rp q a).tree.walkKids = some (some q.tree ::
        ((match a with | some i => [some i.tree] | none => []) ++ [])) := by
      cases a <;> kernel_rfl
    have f := QueryStmt.fine q h.1 (c.kid hk (by simp))
    refine fine_mk hk (fun _ => rfl) (fun _ => by cases a <;> rfl) ?_
    cases a <;> simpa using f
theorem TableRef.fine : (x : TableRef) → x.shape I = true → Clear b x.tree → Fine b x.tree
  | .factor f, h, c => TableFactor.fine f h c
  | .cross l f, h, c => by
    simp only [TableRef.shape, Bool.and_eq_true] at h
    have hk : (TableRef.cross l f).tree.walkKids = some [some f.tree, some l.tree] := by kernel_rfl
    have f1 := TableRef.fine l h.1.1 (c.kid hk (by mem))
    have f2 := TableFactor.fine f h.2 (c.kid hk (by mem))
    refine fine_mk hk (fun hb => ?_) (fun hb => ?_) (by simpa using ⟨f2, f1⟩)
    · simpa [TableRef.tree_pos, TableRef.pos] using f1.pos hb
    · simpa [TableRef.tree_end, TableRef.end_, TableFactor.tree_end] using f2.end_ hb
  | .partitioned _ _ _, h, _ => by simp [TableRef.shape] at h
  | .qualified l t r s, h, c => by
    simp only [TableRef.shape, Bool.and_eq_true] at h
    have hk : (TableRef.qualified l t r s).tree.walkKids = some [some (.node .TableJoinElement l.pos l.end_ [.one .Ref l.tree]),
      some t.tree, some (.node .TableJoinElement r.pos r.end_ [.one .Ref r.tree]), some s.tree] := by kernel_rfl
    have hl : (Tree.node .TableJoinElement l.pos l.end_ [.one .Ref l.tree]).walkKids = some [some l.tree] := by kernel_rfl
    have hr : (Tree.node .TableJoinElement r.pos r.end_ [.one .Ref r.tree]).walkKids = some [some r.tree] := by kernel_rfl
    have f1 := TableRef.fine l h.1.1.1 ((c.kid hk (by mem)).kid hl (by mem))
    have f2 := TableRef.fine r h.1.2 ((c.kid hk (by mem)).kid hr (by mem))
    have f3 := JoinSpec.fine s h.2 (c.kid hk (by mem))
    have g1 := fine_mk hl (fun hb => by simpa [TableRef.tree_pos] using f1.pos hb)
      (fun hb => by simpa [TableRef.tree_end] using f1.end_ hb) (by simpa using f1)
    have g2 := fine_mk hr (fun hb => by simpa [TableRef.tree_pos] using f2.pos hb)
      (fun hb => by simpa [TableRef.tree_end] using f2.end_ hb) (by simpa using f2)
    refine fine_mk hk (fun hb => ?_) (fun hb => ?_) (by simpa using ⟨g1, g2, f3⟩)
    · simpa [TableRef.tree_pos, TableRef.pos] using f1.pos hb
    · simpa [TableRef.tree_end, TableRef.end_, JoinSpec.tree_end] using f3.end_ hb
  | .natural l t r, h, c => by
    simp only [TableRef.shape, Bool.and_eq_true] at h
    have hk : (TableRef.natural l t r).tree.walkKids = some [some (.node .TableJoinElement l.pos l.end_ [.one .Ref l.tree]),
      some t.tree, some (.node .TableJoinElement r.pos r.end_ [.one .Ref r.tree])] := by kernel_rfl
    have hl : (Tree.node .TableJoinElement l.pos l.end_ [.one .Ref l.tree]).walkKids = some [some l.tree] := by kernel_rfl
    have hr : (Tree.node .TableJoinElement r.pos r.end_ [.one .Ref r.tree]).walkKids = some [some r.tree] := by kernel_rfl
    have f1 := TableRef.fine l h.1.1 ((c.kid hk (by mem)).kid hl (by mem))
    have f2 := TableRef.fine r h.2 ((c.kid hk (by mem)).kid hr (by mem))
    have g1 := fine_mk hl (fun hb => by simpa [TableRef.tree_pos] using f1.pos hb)
      (fun hb => by simpa [TableRef.tree_end] using f1.end_ hb) (by simpa using f1)
    have g2 := fine_mk hr (fun hb => by simpa [TableRef.tree_pos] using f2.pos hb)
      (fun hb => by simpa [TableRef.tree_end] using f2.end_ hb) (by simpa using f2)
    refine fine_mk hk (fun hb => ?_) (fun hb => ?_) (by simpa using ⟨g1, g2⟩)
    · simpa [TableRef.tree_pos, TableRef.pos] using f1.pos hb
    · simpa [TableRef.tree_end, TableRef.end_] using f2.end_ hb
theorem TableRef.fines : (xs : List TableRef) → TableRef.shapes I xs = true →
    (∀ t ∈ TableRef.trees xs, Clear b t) → ∀ t ∈ TableRef.trees xs, Fine b t
  | [], _, _ => by simp [TableRef.trees]
  | e :: es, h, c => by
    simp only [TableRef.shapes, Bool.and_eq_true] at h
    simp only [TableRef.trees, List.mem_cons, forall_eq_or_imp] at c ⊢
    exact ⟨TableRef.fine e h.1 c.1, TableRef.fines es h.2 c.2⟩
theorem JoinSpec.fine : (x : JoinSpec) → x.shape I = true → Clear b x.tree → Fine b x.tree
  | .namedColumns .., _, _ => fine_leaf rfl rfl rfl
  | .condition e p, h, c => by
    simp only [JoinSpec.shape] at h
    have hk : (JoinSpec.condition e p).tree.walkKids = some [some e.tree] := by kernel_rfl
    have f := Expr.fine e h (c.kid hk (by mem))
    exact fine_mk hk (fun _ => rfl) (Expr.end_some f :) (by simpa using f)
end

end Verif
