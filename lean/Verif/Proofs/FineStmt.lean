/-
`Walk`, `Pos` and `End` do not panic on structurally sound trees without traps: statements and files.
-/
import Verif.Proofs.Fine
set_option linter.unusedSimpArgs false

namespace Verif

variable {b : Prop} {I : Str → Bool}

/-- The children of an optional field. -/
def optKid (f : α → Tree) : Option α → List (Option Tree)
  | some x => [some (f x)]
  | none => []

theorem mem_optKid {f : α → Tree} {o : Option α} {t : Tree} : some t ∈ optKid f o ↔ ∃ x, o = some x ∧ t = f x := by
  cases o <;> simp [optKid]

theorem none_optKid {f : α → Tree} {o : Option α} : none ∉ optKid f o := by
  cases o <;> simp [optKid]

theorem mem_mapKids {f : α → Tree} {xs : List α} {t : Tree} :
    some t ∈ (xs.map f).map some ↔ ∃ x, x ∈ xs ∧ t = f x := by
  simp [eq_comm]

theorem Expr.shapes_iff (xs : List Expr) : Expr.shapes I xs = true ↔ ∀ x ∈ xs, x.shape I = true := by
  induction xs with
  | nil => simp [Expr.shapes]
  | cons x xs ih => simp [Expr.shapes, ih]

theorem RowValueExpr.fine (x : RowValueExpr) (h : x.shape I = true) (c : Clear b x.tree) : Fine b x.tree := by
  simp only [RowValueExpr.shape, Bool.and_eq_true, Expr.shapes_iff] at h
  have hk : x.tree.walkKids = some ((x.values.map Expr.tree).map some ++ []) := by kernel_rfl
  refine fine_mk hk (fun _ => rfl) (fun _ => rfl) ?_
  simp only [List.append_nil, mem_mapKids]
  rintro _ ⟨e, he, rfl⟩
  exact Expr.fine e (h.2 e he) (c.kid hk (by rw [List.append_nil, mem_mapKids]; exact ⟨e, he, rfl⟩))

theorem InsertSource.fine : (x : InsertSource) → x.shape I = true → Clear b x.tree → Fine b x.tree
  | .subQuery q, h, c => by
    have hk : (InsertSource.subQuery q).tree.walkKids = some [some q.tree] := by kernel_rfl
    have f := QueryStmt.fine q h (c.kid hk (by simp))
    refine fine_mk hk (fun hb => ?_) (fun hb => ?_) (by simpa using f)
    · simpa [InsertSource.tree_pos, InsertSource.pos, QueryStmt.tree_pos] using f.pos hb
    · simpa [InsertSource.tree_end, InsertSource.end_, QueryStmt.tree_end] using f.end_ hb
  | .constructor v rows, h, c => by
    simp only [InsertSource.shape, Bool.and_eq_true, List.all_eq_true] at h
    have hk : (InsertSource.constructor v rows).tree.walkKids = some ((rows.map RowValueExpr.tree).map some ++ []) := by
      kernel_rfl
    refine fine_mk hk (fun _ => rfl) (fun hb => ?_) ?_
    · rw [InsertSource.tree_end, InsertSource.end_]
      cases hr : rows.getLast? with
      | some r => rfl
      | none => rw [List.getLast?_eq_none_iff] at hr; simp [hr] at h
    · simp only [List.append_nil, mem_mapKids]
      rintro _ ⟨e, he, rfl⟩
      exact RowValueExpr.fine e (h.2 e he) (c.kid hk (by rw [List.append_nil, mem_mapKids]; exact ⟨e, he, rfl⟩))

theorem Assignment.fine (x : Assignment) (h : x.shape I = true) (c : Clear b x.tree) : Fine b x.tree := by
  simp only [Assignment.shape, Bool.and_eq_true] at h
  have hk : x.tree.walkKids = some [some x.id.tree, some x.value.tree] := by kernel_rfl
  have f := Expr.fine x.value h.2 (c.kid hk (by simp))
  exact fine_mk hk (fun _ => rfl) (Expr.end_some f :) (by simpa using f)

theorem ReferenceKeyExpr.fine (x : ReferenceKeyExpr) : Fine b x.tree :=
  fine_mk (ks := some x.tableName.tree :: ((Ident.trees x.columns).map some ++ [])) (by kernel_rfl) (fun _ => rfl) (fun _ => rfl)
    (by simpa using Ident.fines x.columns)

theorem TableConstraintSpec.fine : (x : TableConstraintSpec) → x.shape I = true → Clear b x.tree → Fine b x.tree
  | .unique _ _ _ _ cs, _, _ =>
    fine_mk (ks := (Ident.trees cs).map some ++ []) (by kernel_rfl) (fun _ => rfl) (fun _ => rfl) (by simpa using Ident.fines cs)
  | .referential _ cs k, _, _ => by
    refine fine_mk (ks := (Ident.trees cs).map some ++ [some k.tree]) (by kernel_rfl) (fun _ => rfl) (fun _ => rfl) ?_
    simp only [List.mem_append, List.mem_map, Option.some.injEq, List.mem_singleton]
    rintro u (⟨_, hu, rfl⟩ | rfl)
    · exact Ident.fines cs _ hu
    · exact ReferenceKeyExpr.fine k
  | .check p rp e, h, c => by
    have hk : (TableConstraintSpec.check p rp e).tree.walkKids = some [some e.tree] := by kernel_rfl
    exact fine_mk hk (fun _ => rfl) (fun _ => rfl) (by simpa using Expr.fine e h (c.kid hk (by simp)))

theorem TableConstraint.fine (x : TableConstraint) (h : x.shape I = true) (c : Clear b x.tree) : Fine b x.tree := by
  simp only [TableConstraint.shape, Bool.and_eq_true] at h
  have hk : x.tree.walkKids = some (optKid Ident.tree x.name ++ [some x.spec.tree]) := by
    obtain ⟨_, n, _⟩ := x; cases n <;> kernel_rfl
  have f := TableConstraintSpec.fine x.spec h.2 (c.kid hk (by simp))
  refine fine_mk hk (fun _ => rfl) (fun _ => rfl) ?_
  simp only [List.mem_append, mem_optKid, List.mem_singleton, Option.some.injEq]
  rintro u (⟨i, _, rfl⟩ | rfl)
  · exact Ident.fine i
  · exact f

theorem ColumnSpec.fine : (x : ColumnSpec) → x.shape I = true → Clear b x.tree → Fine b x.tree
  | .notNull .., _, _ => fine_leaf rfl rfl rfl
  | .unique .., _, _ => fine_leaf rfl rfl rfl
  | .references _ _ t cs, h, _ => by
    simp only [ColumnSpec.shape, Bool.and_eq_true] at h
    exact fine_mk (ks := some t.tree :: ((Ident.trees cs).map some ++ [])) (by kernel_rfl) (fun _ => rfl) (fun _ => rfl)
      (by simpa using ⟨ObjectName.fine h.1, Ident.fines cs⟩)
  | .check e p rp, h, c => by
    have hk : (ColumnSpec.check e p rp).tree.walkKids = some [some e.tree] := by kernel_rfl
    exact fine_mk hk (fun _ => rfl) (fun _ => rfl) (by simpa using Expr.fine e h (c.kid hk (by simp)))

theorem ColumnConstraint.fine (x : ColumnConstraint) (h : x.shape I = true) (c : Clear b x.tree) : Fine b x.tree := by
  simp only [ColumnConstraint.shape, Bool.and_eq_true] at h
  have hk : x.tree.walkKids = some (optKid Ident.tree x.name ++ [some x.spec.tree]) := by
    obtain ⟨n, _, _⟩ := x; cases n <;> kernel_rfl
  have f := ColumnSpec.fine x.spec h.2 (c.kid hk (by simp))
  refine fine_mk hk (fun _ => rfl) (fun _ => rfl) ?_
  simp only [List.mem_append, mem_optKid, List.mem_singleton, Option.some.injEq]
  rintro u (⟨i, _, rfl⟩ | rfl)
  · exact Ident.fine i
  · exact f

theorem ColumnDef.fine (x : ColumnDef) (h : x.shape I = true) (c : Clear b x.tree) : Fine b x.tree := by
  simp only [ColumnDef.shape, Bool.and_eq_true, List.all_eq_true] at h
  have hk : x.tree.walkKids = some (some x.name.tree :: some x.dataType.tree :: (optKid Expr.tree x.default_ ++
      ((x.constraints.map ColumnConstraint.tree).map some ++ []))) := by
    obtain ⟨_, _, d, _, _⟩ := x; cases d <;> kernel_rfl
  refine fine_mk hk (fun _ => rfl) (fun hb => ?_) ?_
  · show x.end_.isSome = true
    rw [ColumnDef.end_]
    cases hl : x.constraints.getLast? with
    | some r => rfl
    | none =>
      rw [List.getLast?_eq_none_iff] at hl
      have ht := (c.self hb)
      obtain ⟨_, _, d, _, _⟩ := x
      simp only at hl
      subst hl
      cases d <;> exact absurd (show true = false from ht) (by decide)
  · simp only [List.mem_cons, List.mem_append, mem_optKid, List.append_nil, mem_mapKids, Option.some.injEq]
    rintro u (rfl | rfl | ⟨e, he, rfl⟩ | ⟨e, he, rfl⟩)
    · exact Ident.fine _
    · exact DataType.fine h.1.1.2
    · have hs := h.2
      simp only [he, Bool.and_eq_true] at hs
      exact Expr.fine e hs.1 (c.kid hk (by simp [mem_optKid, he]))
    · exact ColumnConstraint.fine e (h.1.2 e he) (c.kid hk (by
        simp only [List.mem_cons, List.mem_append, mem_mapKids]; exact .inr (.inr (.inr (.inl ⟨e, he, rfl⟩)))))

theorem TableElement.fine : (x : TableElement) → x.shape I = true → Clear b x.tree → Fine b x.tree
  | .constraint t, h, c => TableConstraint.fine t h c
  | .column t, h, c => ColumnDef.fine t h c

theorem AlterColumnAction.fine : (x : AlterColumnAction) → x.shape I = true → Clear b x.tree → Fine b x.tree
  | .setDefault p e, h, c => by
    simp only [AlterColumnAction.shape, Bool.and_eq_true] at h
    have hk : (AlterColumnAction.setDefault p e).tree.walkKids = some [some e.tree] := by kernel_rfl
    have f := Expr.fine e h.1 (c.kid hk (by simp))
    exact fine_mk hk (fun _ => rfl) (Expr.end_some f :) (by simpa using f)
  | .dropDefault .., _, _ => fine_leaf rfl rfl rfl
  | .pgAlterDataType p d, h, c => by
    have hk : (AlterColumnAction.pgAlterDataType p d).tree.walkKids = some [some d.tree] := by kernel_rfl
    have f : Fine b d.tree := DataType.fine h
    exact fine_mk hk (fun _ => rfl) (fun hb => by
      simpa [AlterColumnAction.tree_end, AlterColumnAction.end_, DataType.tree_end] using f.end_ hb) (by simpa using f)
  | .pgSetNotNull .., _, _ => fine_leaf rfl rfl rfl
  | .pgDropNotNull .., _, _ => fine_leaf rfl rfl rfl

theorem AlterTableAction.fine : (x : AlterTableAction) → x.shape I = true → Clear b x.tree → Fine b x.tree
  | .addColumn p d, h, c => by
    have hk : (AlterTableAction.addColumn p d).tree.walkKids = some [some d.tree] := by kernel_rfl
    have f := ColumnDef.fine d h (c.kid hk (by simp))
    exact fine_mk hk (fun _ => rfl) f.end_ (by simpa using f)
  | .alterColumn n p a, h, c => by
    simp only [AlterTableAction.shape, Bool.and_eq_true] at h
    have hk : (AlterTableAction.alterColumn n p a).tree.walkKids = some [some n.tree, some a.tree] := by kernel_rfl
    have f := AlterColumnAction.fine a h.2 (c.kid hk (by simp))
    refine fine_mk hk (fun _ => rfl) (fun hb => ?_) (by simpa using f)
    simpa [AlterTableAction.tree_end, AlterTableAction.end_, AlterColumnAction.tree_end] using f.end_ hb
  | .removeColumn n .., _, _ => fine_mk (ks := [some n.tree]) (by kernel_rfl) (fun _ => rfl) (fun _ => rfl) (by simp)
  | .addConstraint p t, h, c => by
    have hk : (AlterTableAction.addConstraint p t).tree.walkKids = some [some t.tree] := by kernel_rfl
    have f := TableConstraint.fine t h (c.kid hk (by simp))
    exact fine_mk hk (fun _ => rfl) (fun _ => rfl) (by simpa using f)
  | .dropConstraint n .., _, _ => fine_mk (ks := [some n.tree]) (by kernel_rfl) (fun _ => rfl) (fun _ => rfl) (by simp)

theorem Stmt.fine : (x : Stmt) → x.shape I = true → Clear b x.tree → Fine b x.tree
  | .query q, h, c => by
    simp only [Stmt.shape, Bool.and_eq_true] at h
    exact QueryStmt.fine q h.1 c
  | .insert p n cols s as, h, c => by
    simp only [Stmt.shape, Bool.and_eq_true, List.all_eq_true] at h
    have hk : (Stmt.insert p n cols s as).tree.walkKids = some (some n.tree :: ((Ident.trees cols).map some ++
        (some s.tree :: ((as.map Assignment.tree).map some ++ [])))) := by kernel_rfl
    have f1 := InsertSource.fine s h.1.1.2 (c.kid hk (by simp))
    have f2 : ∀ a ∈ as, Fine b a.tree := fun a ha => Assignment.fine a (h.1.2 a ha) (c.kid hk (by
      simp only [List.mem_cons, List.mem_append, mem_mapKids]; exact .inr (.inr (.inr (.inl ⟨a, ha, rfl⟩)))))
    refine fine_mk hk (fun _ => rfl) (fun hb => ?_) ?_
    · rw [Stmt.tree_end, Stmt.end_.eq_def]
      simp only
      cases ha : as.getLast? with
      | some a => exact (f2 a (List.mem_of_getLast? ha)).end_ hb
      | none => simpa [InsertSource.tree_end] using f1.end_ hb
    · simp only [List.mem_cons, List.mem_append, List.append_nil, mem_mapKids, Option.some.injEq]
      rintro u (rfl | hu | rfl | ⟨e, he, rfl⟩)
      · exact ObjectName.fine h.1.1.1.1
      · simp at hu; exact Ident.fines cols u hu
      · exact f1
      · exact f2 e he
  | .copy _ _ _ _, h, _ => by simp [Stmt.shape] at h
  | .update p n as sel, h, c => by
    simp only [Stmt.shape, Bool.and_eq_true, List.all_eq_true] at h
    have hk : (Stmt.update p n as sel).tree.walkKids = some (some n.tree ::
        ((as.map Assignment.tree).map some ++ [sel.map Expr.tree])) := by cases sel <;> kernel_rfl
    have f1 : ∀ a ∈ as, Fine b a.tree := fun a ha => Assignment.fine a (h.1.2 a ha) (c.kid hk (by
        simp only [List.mem_cons, List.mem_append, mem_mapKids]; exact .inr (.inl ⟨a, ha, rfl⟩)))
    have f2 : ∀ e, sel = some e → Fine b e.tree := fun e he => by
      subst he
      exact Expr.fine e h.2 (c.kid hk (by simp))
    refine fine_mk hk (fun _ => rfl) (fun hb => ?_) ?_
    · rw [Stmt.tree_end, Stmt.end_.eq_def]
      simp only
      cases sel with
      | some e => exact Expr.end_some (f2 e rfl) hb
      | none =>
        cases ha : as.getLast? with
        | none => rw [List.getLast?_eq_none_iff] at ha; simp [ha] at h
        | some a => exact (f1 a (List.mem_of_getLast? ha)).end_ hb
    · simp only [List.mem_cons, List.mem_append, List.not_mem_nil, or_false, mem_mapKids, Option.some.injEq]
      rintro u (rfl | ⟨a, ha, rfl⟩ | hu)
      · exact ObjectName.fine h.1.1.1
      · exact f1 a ha
      · rw [eq_comm, Option.map_eq_some_iff] at hu
        obtain ⟨e, he, rfl⟩ := hu
        exact f2 e he
  | .delete p n none, h, c => by
    simp only [Stmt.shape, Bool.and_eq_true] at h
    have h' := identsPos_some (is := n.idents) h.1
    exact fine_mk (ks := [some n.tree]) (by kernel_rfl) (fun _ => rfl) (fun _ => h'.2) (by simpa using ObjectName.fine h.1)
  | .delete p n (some e), h, c => by
    simp only [Stmt.shape, Bool.and_eq_true] at h
    have hk : (Stmt.delete p n (some e)).tree.walkKids = some [some n.tree, some e.tree] := by kernel_rfl
    have f := Expr.fine e h.2 (c.kid hk (by simp))
    exact fine_mk hk (fun _ => rfl) (Expr.end_some f :) (by simpa using ⟨ObjectName.fine h.1, f⟩)
  | .createView p n q m, h, c => by
    simp only [Stmt.shape, Bool.and_eq_true] at h
    have hk : (Stmt.createView p n q m).tree.walkKids = some [some n.tree, some q.tree] := by kernel_rfl
    have f := QueryStmt.fine q h.1.2 (c.kid hk (by simp))
    refine fine_mk hk (fun _ => rfl) (fun hb => ?_) (by simpa using ⟨ObjectName.fine h.1.1, f⟩)
    simpa [Stmt.tree_end, Stmt.end_, QueryStmt.tree_end] using f.end_ hb
  | .createTable p n es m os, h, c => by
    simp only [Stmt.shape, Bool.and_eq_true, List.all_eq_true] at h
    have hk : (Stmt.createTable p n es m os).tree.walkKids = some (some n.tree ::
        ((es.map TableElement.tree).map some ++ [])) := by kernel_rfl
    have f : ∀ e ∈ es, Fine b e.tree := fun e he => TableElement.fine e (h.1.2 e he) (c.kid hk (by
      simp only [List.mem_cons, List.mem_append, mem_mapKids]; exact .inr (.inl ⟨e, he, rfl⟩)))
    refine fine_mk hk (fun _ => rfl) (fun hb => ?_) ?_
    · rw [Stmt.tree_end, Stmt.end_.eq_def]
      simp only
      cases he : es.getLast? with
      | some e => simpa [TableElement.tree_end] using (f e (List.mem_of_getLast? he)).end_ hb
      | none =>
        rw [List.getLast?_eq_none_iff] at he
        subst he
        exact absurd (show true = false from (c.self hb)) (by decide)
    · simp only [List.mem_cons, List.append_nil, mem_mapKids, Option.some.injEq]
      rintro u (rfl | ⟨e, he, rfl⟩)
      · exact ObjectName.fine h.1.1
      · exact f e he
  | .alterTable p n a, h, c => by
    simp only [Stmt.shape, Bool.and_eq_true] at h
    have hk : (Stmt.alterTable p n a).tree.walkKids = some [some n.tree, some a.tree] := by kernel_rfl
    have f := AlterTableAction.fine a h.2 (c.kid hk (by simp))
    refine fine_mk hk (fun _ => rfl) (fun hb => ?_) (by simpa using ⟨ObjectName.fine h.1, f⟩)
    simpa [Stmt.tree_end, Stmt.end_, AlterTableAction.tree_end] using f.end_ hb
  | .dropTable ns cas cp e d, h, _ => by
    simp only [Stmt.shape, Bool.and_eq_true, List.all_eq_true, beq_iff_eq] at h
    refine fine_mk (ks := (ns.map ObjectName.tree).map some ++ []) (by kernel_rfl) (fun _ => rfl) (fun hb => ?_) ?_
    · rw [Stmt.tree_end, Stmt.end_.eq_def]
      simp only
      split
      · rfl
      · cases hn : ns.getLast? with
        | none => rw [List.getLast?_eq_none_iff] at hn; simp [hn] at h
        | some n => exact (identsPos_some (h.2 n (List.mem_of_getLast? hn))).2
    · simp only [List.append_nil, mem_mapKids]
      rintro _ ⟨n, hn, rfl⟩
      exact ObjectName.fine (h.2 n hn)
  | .createIndex p n u i m cs rp s, h, c => by
    simp only [Stmt.shape, Bool.and_eq_true, List.all_eq_true] at h
    have hk : (Stmt.createIndex p n u i m cs rp s).tree.walkKids = some (some n.tree :: (optKid Ident.tree i ++
        (optKid Ident.tree m ++ ((Ident.trees cs).map some ++ (optKid Expr.tree s ++ []))))) := by
      cases i <;> cases m <;> cases s <;> kernel_rfl
    have f : ∀ e, s = some e → Fine b e.tree := fun e he => by
      subst he
      exact Expr.fine e h.2 (c.kid hk (by simp [mem_optKid]))
    refine fine_mk hk (fun _ => rfl) (fun hb => ?_) ?_
    · rw [Stmt.tree_end, Stmt.end_.eq_def]
      simp only
      cases s with
      | none => rfl
      | some e => exact Expr.end_some (f e rfl) hb
    · simp only [List.mem_cons, List.mem_append, mem_optKid, List.append_nil, Option.some.injEq]
      rintro u (rfl | ⟨i, _, rfl⟩ | ⟨i, _, rfl⟩ | hu | ⟨e, he, rfl⟩)
      · exact ObjectName.fine h.1.1.1.1
      · exact Ident.fine i
      · exact Ident.fine i
      · simp at hu; exact Ident.fines cs u hu
      · exact f e he
  | .dropIndex _ is, h, _ => by
    have h' := identsPos_some h
    exact fine_mk (ks := (Ident.trees is).map some ++ []) (by kernel_rfl) (fun _ => rfl) (fun _ => h'.2)
      (by simpa using Ident.fines _)
  | .explain s p, h, c => by
    have hk : (Stmt.explain s p).tree.walkKids = some [some s.tree] := by kernel_rfl
    have f := Stmt.fine s h (c.kid hk (by simp))
    refine fine_mk hk (fun _ => rfl) (fun hb => ?_) (by simpa using f)
    simpa [Stmt.tree_end, Stmt.end_] using f.end_ hb

theorem File.fine (x : File) (h : ∀ s ∈ x.stmts, s.shape I = true) (hg : ∀ g ∈ x.comments, g.list ≠ [])
    (c : Clear b x.tree) : Fine b x.tree := by
  have hk : x.tree.walkKids = some ((x.stmts.map Stmt.tree).map some ++ []) := by kernel_rfl
  have f : ∀ s ∈ x.stmts, Fine b s.tree := fun s hs => Stmt.fine s (h s hs) (c.kid hk (by
    rw [List.append_nil, mem_mapKids]; exact ⟨s, hs, rfl⟩))
  obtain ⟨ss, gs⟩ := x
  have hne : b → ss ≠ [] := by
    rintro hb rfl
    exact absurd (show true = false from (c.self hb)) (by decide)
  refine fine_mk hk (fun hb => ?_) (fun hb => ?_) ?_
  · show (File.pos ⟨ss, gs⟩).isSome = true
    cases ss with
    | nil => exact absurd rfl (hne hb)
    | cons s ss =>
      have hp : (Stmt.pos s).isSome := by simpa [Stmt.tree_pos] using (f s (by simp)).pos hb
      obtain ⟨p, hp⟩ := Option.isSome_iff_exists.1 hp
      simp only [File.pos, List.head?_cons, Option.bind_some, hp]
      cases gs with
      | nil => rfl
      | cons g gs =>
        have := hg g (by simp)
        simp only [List.head?_cons, CommentGroup.pos?, Option.isSome_map]
        cases hl : g.list with
        | nil => exact absurd hl this
        | cons a l => rfl
  · show (File.end_ ⟨ss, gs⟩).isSome = true
    simp only [File.end_]
    cases hs : ss.getLast? with
    | none => rw [List.getLast?_eq_none_iff] at hs; exact absurd hs (hne hb)
    | some s =>
      have hp : (Stmt.end_ s).isSome := by simpa [Stmt.tree_end] using (f s (List.mem_of_getLast? hs)).end_ hb
      obtain ⟨p, hp⟩ := Option.isSome_iff_exists.1 hp
      simp only [Option.bind_some, hp]
      cases hl : gs.getLast? with
      | none => rfl
      | some g =>
        have := hg g (List.mem_of_getLast? hl)
        simp only [CommentGroup.end?, Option.isSome_map]
        cases hl : g.list.getLast? with
        | none => rw [List.getLast?_eq_none_iff] at hl; exact absurd hl this
        | some a => rfl
  · simp only [List.append_nil, mem_mapKids]
    rintro _ ⟨s, hs, rfl⟩
    exact f s hs

/-! Addresses do not matter -/

theorem Tree.anonList_eq (ts : List Tree) : Tree.anonList ts = ts.map Tree.anon := by
  induction ts with
  | nil => rfl
  | cons t ts ih => simp [Tree.anonList, ih]

theorem Tree.anonFields_eq (fs : List FieldVal) : Tree.anonFields fs = fs.map FieldVal.anon := by
  induction fs with
  | nil => rfl
  | cons t ts ih => simp [Tree.anonFields, ih]

@[simp] theorem FieldVal.anon_name (x : FieldVal) : x.anon.name = x.name := by cases x <;> rfl

theorem WStep.kids_anon (all : Bool) (fs : List FieldVal) (st : WStep) :
    WStep.kids all (Tree.anonFields fs) st = (WStep.kids all fs st).map (Option.map Tree.anon) := by
  have hf : ∀ f : FName, (Tree.anonFields fs).find? (fun x => x.name == f) =
      (fs.find? fun x => x.name == f).map FieldVal.anon := by
    intro f
    rw [Tree.anonFields_eq, List.find?_map]
    congr 1
    simp [Function.comp_def]
  cases st with
  | one f | opt f | list f =>
    simp only [WStep.kids, hf]
    generalize fs.find? (fun x => x.name == f) = o
    rcases o with _ | (_ | _ | _) <;> simp [FieldVal.anon, Tree.anonList_eq]
  | unlessAll f =>
    simp only [WStep.kids, hf]
    generalize fs.find? (fun x => x.name == f) = o
    cases all <;> rcases o with _ | (_ | _ | _) <;> simp [FieldVal.anon, Tree.anonList_eq]

theorem Tree.walkKids_anon (t : Tree) :
    t.anon.walkKids = t.walkKids.map fun ks => ks.map (Option.map Tree.anon) := by
  cases t with
  | mk k r a fs =>
    simp only [Tree.anon, Tree.walkKids, Tree.kind, Tree.fields, Tree.all]
    cases k.walk with
    | none => rfl
    | some steps =>
      rw [show WStep.kids a (Tree.anonFields fs) = fun st => (WStep.kids a fs st).map (Option.map Tree.anon) from
        funext (WStep.kids_anon a fs)]
      simp only [Option.map_some, List.map_flatMap]

theorem Reached.anon {t u : Tree} (h : Reached t u) : Reached t.anon u.anon := by
  induction h with
  | refl t => exact .refl _
  | child hk hm _ ih =>
    exact .child (by rw [Tree.walkKids_anon, hk]; rfl) (List.mem_map.2 ⟨_, hm, rfl⟩) ih

theorem Fine.of_anon {t : Tree} (h : Fine b t.anon) : Fine b t := by
  intro u hu
  obtain ⟨h1, h2⟩ := h _ hu.anon
  refine ⟨?_, ?_⟩
  · rw [Tree.walkKids_anon] at h1; simpa using h1
  · cases u; exact h2

end Verif
