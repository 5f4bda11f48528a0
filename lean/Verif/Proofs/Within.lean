import Verif.Spec.Within
/-
Every node inside a tree has its own part of the sentence for the tree.
-/
set_option linter.unusedVariables false
namespace Verif
open Spec

/-- Each sentence of `b` contains one of `a`. -/
def Has (a b : Lang) : Prop := ∀ ts, b ts → ∃ pre part post, ts = pre ++ part ++ post ∧ a part

namespace Has
variable {a b c d : Lang} {p p' : Pos}

theorem refl : Has a a := fun ts h => ⟨[], ts, [], by simp, h⟩

theorem trans (h1 : Has a b) (h2 : Has b c) : Has a c := fun ts h => by
  obtain ⟨x, y, z, rfl, hb⟩ := h2 ts h
  obtain ⟨x', y', z', rfl, ha⟩ := h1 y hb
  exact ⟨x ++ x', y', z' ++ z, by simp, ha⟩

theorem of_imp (h : ∀ ts, b ts → a ts) : Has a b := fun ts hb => ⟨[], ts, [], by simp, h ts hb⟩

theorem word {bad : List KW} {i : Ident} : Has (Spec.word [] i) (Spec.word bad i) := of_imp fun ts h => by
  obtain ⟨t, w, h1, h2, h3, h4, h5, -⟩ := h
  exact ⟨t, w, h1, h2, h3, h4, h5, by simp⟩

theorem left (h : Has a b) : Has a (b ⬝ c) := h.trans fun ts hb => by
  obtain ⟨x, y, rfl, h1, h2⟩ := hb
  exact ⟨[], x, y, by simp, h1⟩

theorem right (h : Has a c) : Has a (b ⬝ c) := h.trans fun ts hb => by
  obtain ⟨x, y, rfl, h1, h2⟩ := hb
  exact ⟨x, y, [], by simp, h2⟩

theorem both (h1 : Has a b) (h2 : Has a c) : Has a (b ⊹ c) := fun ts h => h.elim (h1 ts) (h2 ts)

theorem never : Has a never := fun ts h => h.elim

theorem starts (h : Has a b) : Has a (p ▹ b) := h.trans (of_imp fun ts h => h.1)
theorem ends (h : Has a b) : Has a (b ◃ p) := h.trans (of_imp fun ts h => h.1)
theorem spans (h : Has a b) : Has a (Spec.spans p p' b) := h.ends.starts
theorem parens (h : Has a b) : Has a (Spec.parens b) := h.left.right
theorem parensTo (h : Has a b) : Has a (Spec.parensTo p b) := h.left.right
theorem subquery {w : Bool} (h : Has a b) : Has a (subqueryLang w p b) := h.left.right.right

theorem sepBy {s : Sym} : ∀ {as : List Lang}, a ∈ as → Has a (Spec.sepBy s as)
  | [b], h => by
    obtain rfl := List.mem_singleton.1 h
    exact refl
  | b :: c :: as, h => by
    rcases List.mem_cons.1 h with rfl | h
    · exact refl.left
    · exact (sepBy (as := c :: as) h).right.right

theorem concat : ∀ {as : List Lang}, a ∈ as → Has a (Spec.concat as)
  | b :: as, h => by
    rcases List.mem_cons.1 h with rfl | h
    · exact refl.left
    · exact (concat h).right

theorem clauseOr {other : Lang} {wrap : Lang → Lang} {as : List Lang} (h : a ∈ as) (hw : Has (Spec.sepBy .Comma as) (wrap (Spec.sepBy .Comma as))) :
    Has a (Spec.clauseOr other wrap as) := by
  cases as with
  | nil => cases h
  | cons b bs => exact (sepBy h).trans hw

theorem clause {wrap : Lang → Lang} {as : List Lang} (h : a ∈ as) (hw : Has (Spec.sepBy .Comma as) (wrap (Spec.sepBy .Comma as))) :
    Has a (Spec.clause wrap as) := clauseOr h hw

theorem idents {s : Sym} {i : Ident} {is : List Ident} (h : i ∈ is) : Has (Spec.word [] i) (Spec.idents s is) :=
  sepBy (List.mem_map_of_mem h)

theorem columns {i : Ident} {is : List Ident} (h : i ∈ is) : Has (Spec.word [] i) (columnsLang is) :=
  clause (List.mem_map_of_mem h) refl.parens

theorem objectName {i : Ident} {o : ObjectName} (h : i ∈ o.idents) : Has (Spec.word [] i) (Spec.objectName o) := idents h

theorem exprName {i : Ident} : ∀ {is : List Ident}, i ∈ is → Has (Spec.word [] i) (Spec.exprName is)
  | [j], h => by
    obtain rfl := List.mem_singleton.1 h
    exact word
  | j :: k :: is, h => by
    rcases List.mem_cons.1 h with rfl | h
    · exact word.left
    · exact (idents h).right.right

theorem typeName {i : Ident} : ∀ {is : List Ident}, i ∈ is → Has (Spec.word [] i) (Spec.typeName is)
  | [j], h => by
    obtain rfl := List.mem_singleton.1 h
    exact word
  | j :: k :: is, h => by
    rcases List.mem_cons.1 h with rfl | h
    · exact word.left
    · exact (idents h).right.right

theorem alias {bad : List KW} {i : Ident} : Has (Spec.word [] i) (aliasLang bad i) := both refl.right word

theorem whensL : ∀ {as bs : List Lang}, a ∈ as → Has a (whens as bs)
  | c :: cs, [], h => fun ts h => h.elim
  | c :: cs, d :: ds, h => by
    rcases List.mem_cons.1 h with rfl | h
    · exact refl.left.right
    · exact (whensL h).right.right.right.right

theorem whensR : ∀ {as bs : List Lang}, a ∈ bs → Has a (whens as bs)
  | [], d :: ds, h => fun ts h => h.elim
  | c :: cs, d :: ds, h => by
    rcases List.mem_cons.1 h with rfl | h
    · exact refl.left.right.right.right
    · exact (whensR h).right.right.right.right

theorem referenced {q : Quirks} {i : Ident} {is : List Ident} (h : i ∈ is) : Has (Spec.word [] i) (referencedLang q is) := by
  cases is with
  | nil => cases h
  | cons j is => exact idents h

end Has

section
variable {fns : FloatFns} {q : Quirks}

theorem Expr.mem_langs {x : Expr} : ∀ {xs}, x ∈ xs → x.lang fns q ∈ Expr.langs fns q xs
  | y :: ys, h => by
    rw [Expr.langs]
    rcases List.mem_cons.1 h with rfl | h
    · exact List.mem_cons_self
    · exact List.mem_cons_of_mem _ (Expr.mem_langs h)
theorem OrderByExpr.mem_langs {x : OrderByExpr} : ∀ {xs}, x ∈ xs → x.lang fns q ∈ OrderByExpr.langs fns q xs
  | y :: ys, h => by
    rw [OrderByExpr.langs]
    rcases List.mem_cons.1 h with rfl | h
    · exact List.mem_cons_self
    · exact List.mem_cons_of_mem _ (OrderByExpr.mem_langs h)
theorem CTE.mem_langs {x : CTE} : ∀ {xs}, x ∈ xs → x.lang fns q ∈ CTE.langs fns q xs
  | y :: ys, h => by
    rw [CTE.langs]
    rcases List.mem_cons.1 h with rfl | h
    · exact List.mem_cons_self
    · exact List.mem_cons_of_mem _ (CTE.mem_langs h)
theorem SelectItem.mem_langs {x : SelectItem} : ∀ {xs}, x ∈ xs → x.lang fns q ∈ SelectItem.langs fns q xs
  | y :: ys, h => by
    rw [SelectItem.langs]
    rcases List.mem_cons.1 h with rfl | h
    · exact List.mem_cons_self
    · exact List.mem_cons_of_mem _ (SelectItem.mem_langs h)
theorem TableRef.mem_langs {x : TableRef} : ∀ {xs}, x ∈ xs → x.lang fns q ∈ TableRef.langs fns q xs
  | y :: ys, h => by
    rw [TableRef.langs]
    rcases List.mem_cons.1 h with rfl | h
    · exact List.mem_cons_self
    · exact List.mem_cons_of_mem _ (TableRef.mem_langs h)

theorem Has.id_ {a b : Lang} (h : Has a b) : Has a (id b) := h
theorem Has.optional {a : Lang} {wrap : Lang → Lang} (h : Has a (wrap a)) : Has a (Spec.optional wrap (some a)) := h
theorem Has.langO {x : Expr} {wrap : Lang → Lang} (h : Has (x.lang fns q) (wrap (x.lang fns q))) :
    Has (x.lang fns q) (Spec.optional wrap (Expr.langO fns q (some x))) := by rw [Expr.langO]; exact h
theorem Has.where_ {x : Expr} : Has (x.lang fns q) (whereLang fns q (some x)) := Has.langO Has.refl.right
theorem Has.tableAlias {i : Ident} : Has (Spec.word [] i) (tableAliasLang q (some i)) := Has.alias
theorem Has.optWord {i : Ident} {bad : List KW} {wrap : Lang → Lang}
    (h : Has (Spec.word bad i) (wrap (Spec.word bad i))) :
    Has (Spec.word [] i) (Spec.optional wrap ((some i).map (Spec.word bad))) := Has.word.trans h

/-- Membership in a list of languages. -/
macro "has_mem" : tactic => `(tactic| with_reducible first
  | exact Expr.mem_langs (by assumption) | exact SelectItem.mem_langs (by assumption)
  | exact TableRef.mem_langs (by assumption) | exact CTE.mem_langs (by assumption)
  | exact OrderByExpr.mem_langs (by assumption) | exact List.mem_map_of_mem (by assumption))

/-- Search for the part. -/
syntax "has" : tactic
macro_rules | `(tactic| has) => `(tactic| first
  | (with_reducible exact Has.refl)
  | (with_reducible exact Has.never)
  | (with_reducible exact Has.word)
  | (with_reducible exact Has.alias)
  | (with_reducible exact Has.tableAlias)
  | (with_reducible exact Has.where_)
  | (with_reducible exact Has.idents (by assumption))
  | (with_reducible exact Has.columns (by assumption))
  | (with_reducible exact Has.objectName (by assumption))
  | (with_reducible exact Has.exprName (by assumption))
  | (with_reducible exact Has.typeName (by assumption))
  | (with_reducible exact Has.referenced (by assumption))
  | (with_reducible exact Has.sepBy (by has_mem))
  | (with_reducible exact Has.concat (by has_mem))
  | (with_reducible exact Has.whensL (by has_mem))
  | (with_reducible exact Has.whensR (by has_mem))
  | (with_reducible refine Has.clause (by has_mem) ?_; has)
  | (with_reducible refine Has.clauseOr (by has_mem) ?_; has)
  | (with_reducible apply Has.langO; has)
  | (with_reducible apply Has.optWord; has)
  | (with_reducible apply Has.id_; has)
  | (with_reducible apply Has.starts; has)
  | (with_reducible apply Has.ends; has)
  | (with_reducible apply Has.parens; has)
  | (with_reducible apply Has.parensTo; has)
  | (with_reducible apply Has.subquery; has)
  | (with_reducible apply Has.both <;> has)
  | (with_reducible apply Has.left; has)
  | (with_reducible apply Has.right; has))

theorem has_default {items : List ColumnItem} {x : Expr} {cs : List ColumnConstraint} {ds : List AutoIncrement}
    (h : ColumnItems items (some x) cs ds) : Has (x.lang fns q) (concat (items.map (ColumnItem.lang fns q))) := by
  have h1 := List.mem_of_getLast? h.default_.symm
  rw [List.mem_filterMap] at h1
  obtain ⟨i, h1, h2⟩ := h1
  cases i with
  | default_ y =>
    cases h2
    exact (Has.refl.right : Has _ (ColumnItem.lang fns q (.default_ x))).trans (Has.concat (List.mem_map_of_mem h1))
  | constraints cs => cases h2
  | autoIncrement a => cases h2

theorem has_constraint {items : List ColumnItem} {d : Option Expr} {c : ColumnConstraint} {cs : List ColumnConstraint}
    {ds : List AutoIncrement} (h : ColumnItems items d cs ds) (hc : c ∈ cs) :
    Has (c.lang fns q) (concat (items.map (ColumnItem.lang fns q))) := by
  have h0 := h.constraints
  cases h1 : (items.filterMap ColumnItem.constraints?).getLast? with
  | none => rw [h1] at h0; rw [h0] at hc; cases hc
  | some cs' =>
    rw [h1] at h0
    obtain rfl : cs = cs' := h0
    have h1 := List.mem_of_getLast? h1
    rw [List.mem_filterMap] at h1
    obtain ⟨i, h1, h2⟩ := h1
    cases i with
    | default_ y => cases h2
    | constraints cs =>
      cases h2
      exact (by unfold ColumnItem.lang; has : Has _ (ColumnItem.lang fns q (.constraints cs))).trans
        (Has.concat (List.mem_map_of_mem h1))
    | autoIncrement a => cases h2

theorem Has.items {a : Lang} {P : List ColumnItem → Prop}
    (h : ∀ items, P items → Has a (Spec.concat (items.map (ColumnItem.lang fns q)))) :
    Has a fun ts => ∃ items, Spec.concat (items.map (ColumnItem.lang fns q)) ts ∧ P items := fun ts ht => by
  obtain ⟨items, h1, h2⟩ := ht
  exact h items h2 ts h1

theorem child_expr {n : Piece} {x : Expr} (h : Child n (.expr x)) : Has (n.lang fns q) (Piece.lang fns q (.expr x)) := by
  cases h with
  | @functionName _ _ _ _ over =>
    simp only [Piece.lang]
    cases over <;> rw [Expr.lang] <;> has
  | @functionArgs _ _ _ _ over =>
    simp only [Piece.lang]
    cases over <;> rw [Expr.lang] <;> has
  | _ =>
    simp only [Piece.lang]
    conv =>
      arg 2
      rw [Expr.lang]
    has

theorem child_dataType {n : Piece} {x : DataType} (h : Child n (.dataType x)) : Has (n.lang fns q) (Piece.lang fns q (.dataType x)) := by
  cases h
  all_goals
    simp only [Piece.lang]
    conv =>
      arg 2
      rw [DataType.lang]
    has

theorem child_window {n : Piece} {x : WindowSpec} (h : Child n (.window x)) : Has (n.lang fns q) (Piece.lang fns q (.window x)) := by
  cases h
  all_goals
    simp only [Piece.lang]
    conv =>
      arg 2
      rw [WindowSpec.lang]
    has

theorem child_orderBy {n : Piece} {x : OrderByExpr} (h : Child n (.orderBy x)) : Has (n.lang fns q) (Piece.lang fns q (.orderBy x)) := by
  cases h
  all_goals
    simp only [Piece.lang]
    conv =>
      arg 2
      rw [OrderByExpr.lang]
    has

theorem child_query {n : Piece} {x : QueryStmt} (h : Child n (.query x)) : Has (n.lang fns q) (Piece.lang fns q (.query x)) := by
  cases h
  all_goals
    simp only [Piece.lang]
    conv =>
      arg 2
      rw [QueryStmt.lang]
    has

theorem child_cte {n : Piece} {x : CTE} (h : Child n (.cte x)) : Has (n.lang fns q) (Piece.lang fns q (.cte x)) := by
  cases h
  all_goals
    simp only [Piece.lang]
    conv =>
      arg 2
      rw [CTE.lang]
    has

theorem child_body {n : Piece} {x : SetExpr} (h : Child n (.body x)) : Has (n.lang fns q) (Piece.lang fns q (.body x)) := by
  cases h
  all_goals
    simp only [Piece.lang]
    conv =>
      arg 2
      rw [SetExpr.lang]
    has

theorem child_select {n : Piece} {x : SQLSelect} (h : Child n (.select x)) : Has (n.lang fns q) (Piece.lang fns q (.select x)) := by
  cases h
  all_goals
    simp only [Piece.lang]
    conv =>
      arg 2
      rw [SQLSelect.lang]
    has

theorem child_item {n : Piece} {x : SelectItem} (h : Child n (.item x)) : Has (n.lang fns q) (Piece.lang fns q (.item x)) := by
  cases h
  all_goals
    simp only [Piece.lang]
    conv =>
      arg 2
      rw [SelectItem.lang]
    has

theorem child_factor {n : Piece} {x : TableFactor} (h : Child n (.factor x)) :
    Has (n.lang fns q) (Piece.lang fns q (.factor x)) := by
  have key : ∀ {n : Piece} {name : ObjectName} {alias : Option Ident} {args hints : List Expr} {arp hrp : Pos},
      Has (n.lang fns q) (objectName name) ∨ Has (n.lang fns q) (tableAliasLang q alias) ∨
        (∃ x ∈ args, n = .expr x) ∨ Has (n.lang fns q) (clause (kwd .WITH ⬝ parens ·) (Expr.langs fns q hints)) →
      Has (n.lang fns q) ((TableFactor.table name alias args arp hints hrp).lang fns q) := by
    intro n name alias args hints arp hrp h
    cases args with
    | nil =>
      rw [TableFactor.lang]
      rcases h with h | h | ⟨x, hx, rfl⟩ | h
      · exact h.left
      · exact h.left.right.right
      · cases hx
      · exact h.left.right.right.right
    | cons y ys =>
      rw [TableFactor.lang]
      · rcases h with h | h | ⟨x, hx, rfl⟩ | h
        · exact h.left
        · exact h.left.right.right.right
        · exact Has.right (Has.right (Has.left (Has.sepBy (Expr.mem_langs hx))))
        · exact h.left.right.right.right.right
      · exact fun h => by cases h
  cases h with
  | tableName h => exact key (.inl (Has.objectName h))
  | tableAlias => exact key (.inr (.inl Has.tableAlias))
  | tableArgs h => exact key (.inr (.inr (.inl ⟨_, h, rfl⟩)))
  | tableHints h => exact key (.inr (.inr (.inr (Has.clause (Expr.mem_langs h) Has.refl.parens.right))))
  | derivedQuery => simp only [Piece.lang]; rw [TableFactor.lang]; has
  | derivedAlias => simp only [Piece.lang]; rw [TableFactor.lang]; has

theorem child_tableRef {n : Piece} {x : TableRef} (h : Child n (.tableRef x)) : Has (n.lang fns q) (Piece.lang fns q (.tableRef x)) := by
  cases h
  all_goals
    simp only [Piece.lang]
    conv =>
      arg 2
      rw [TableRef.lang]
    has

theorem child_join {n : Piece} {x : JoinSpec} (h : Child n (.join x)) : Has (n.lang fns q) (Piece.lang fns q (.join x)) := by
  cases h
  all_goals
    simp only [Piece.lang]
    conv =>
      arg 2
      rw [JoinSpec.lang]
    has

theorem child_assignment {n : Piece} {x : Assignment} (h : Child n (.assignment x)) : Has (n.lang fns q) (Piece.lang fns q (.assignment x)) := by
  cases h
  all_goals
    simp only [Piece.lang]
    conv =>
      arg 2
      rw [Assignment.lang]
    has

theorem child_row {n : Piece} {x : RowValueExpr} (h : Child n (.row x)) : Has (n.lang fns q) (Piece.lang fns q (.row x)) := by
  cases h
  all_goals
    simp only [Piece.lang]
    conv =>
      arg 2
      rw [RowValueExpr.lang]
    has

theorem child_source {n : Piece} {x : InsertSource} (h : Child n (.source x)) : Has (n.lang fns q) (Piece.lang fns q (.source x)) := by
  cases h
  all_goals
    simp only [Piece.lang]
    conv =>
      arg 2
      rw [InsertSource.lang]
    has

theorem child_constraintSpec {n : Piece} {x : TableConstraintSpec} (h : Child n (.constraintSpec x)) : Has (n.lang fns q) (Piece.lang fns q (.constraintSpec x)) := by
  cases h with
  | @specUnique _ _ isPrimary =>
    simp only [Piece.lang]
    cases isPrimary <;> rw [TableConstraintSpec.lang] <;> has
  | _ =>
    simp only [Piece.lang]
    conv =>
      arg 2
      rw [TableConstraintSpec.lang]
    has

theorem child_constraint {n : Piece} {x : TableConstraint} (h : Child n (.constraint x)) : Has (n.lang fns q) (Piece.lang fns q (.constraint x)) := by
  cases h with
  | constraintName hn =>
    simp only [Piece.lang, TableConstraint.lang, hn, nameLang]
    has
  | _ =>
    simp only [Piece.lang]
    conv =>
      arg 2
      rw [TableConstraint.lang]
    has

theorem child_columnSpec {n : Piece} {x : ColumnSpec} (h : Child n (.columnSpec x)) : Has (n.lang fns q) (Piece.lang fns q (.columnSpec x)) := by
  cases h
  all_goals
    simp only [Piece.lang]
    conv =>
      arg 2
      rw [ColumnSpec.lang]
    has

theorem child_columnConstraint {n : Piece} {x : ColumnConstraint} (h : Child n (.columnConstraint x)) : Has (n.lang fns q) (Piece.lang fns q (.columnConstraint x)) := by
  cases h with
  | columnConstraintName hn =>
    simp only [Piece.lang, ColumnConstraint.lang, hn, columnNameLang]
    has
  | _ =>
    simp only [Piece.lang]
    conv =>
      arg 2
      rw [ColumnConstraint.lang]
    has

theorem child_column {n : Piece} {x : ColumnDef} (h : Child n (.column x)) : Has (n.lang fns q) (Piece.lang fns q (.column x)) := by
  cases h with
  | columnDefault hd =>
    simp only [Piece.lang, ColumnDef.lang, hd]
    exact Has.right (Has.right (Has.items fun _ h => has_default h.1))
  | columnConstraints hk =>
    simp only [Piece.lang, ColumnDef.lang]
    exact Has.right (Has.right (Has.items fun _ h => has_constraint h.1 hk))
  | _ =>
    simp only [Piece.lang]
    conv =>
      arg 2
      rw [ColumnDef.lang]
    has

theorem child_element {n : Piece} {x : TableElement} (h : Child n (.element x)) : Has (n.lang fns q) (Piece.lang fns q (.element x)) := by
  cases h
  all_goals
    simp only [Piece.lang]
    conv =>
      arg 2
      rw [TableElement.lang]
    has

theorem child_option {n : Piece} {x : TableOption} (h : Child n (.option x)) : Has (n.lang fns q) (Piece.lang fns q (.option x)) := by
  cases h
  all_goals
    simp only [Piece.lang]
    conv =>
      arg 2
      rw [TableOption.lang]
    has

theorem child_alterColumn {n : Piece} {x : AlterColumnAction} (h : Child n (.alterColumn x)) : Has (n.lang fns q) (Piece.lang fns q (.alterColumn x)) := by
  cases h
  all_goals
    simp only [Piece.lang]
    conv =>
      arg 2
      rw [AlterColumnAction.lang]
    has

theorem child_alter {n : Piece} {x : AlterTableAction} (h : Child n (.alter x)) : Has (n.lang fns q) (Piece.lang fns q (.alter x)) := by
  cases h
  all_goals
    simp only [Piece.lang]
    conv =>
      arg 2
      rw [AlterTableAction.lang]
    has

theorem child_stmt {n : Piece} {x : Stmt} (h : Child n (.stmt x)) : Has (n.lang fns q) (Piece.lang fns q (.stmt x)) := by
  cases h with
  | @viewName _ _ _ _ m =>
    simp only [Piece.lang]
    cases m <;> rw [Stmt.lang] <;> has
  | @viewQuery _ _ _ m =>
    simp only [Piece.lang]
    cases m <;> rw [Stmt.lang] <;> has
  | dropTable hn hi =>
    simp only [Piece.lang]
    rw [Stmt.lang]
    exact Has.right (Has.right (Has.right (Has.left ((Has.objectName hi).trans (Has.sepBy (List.mem_map_of_mem hn))))))
  | _ =>
    simp only [Piece.lang]
    conv =>
      arg 2
      rw [Stmt.lang]
    has

/-- One step. -/
theorem child_has {c n : Piece} (h : Child c n) : Has (c.lang fns q) (n.lang fns q) := by
  cases n with
  | ident i => cases h
  | expr x => exact child_expr h
  | dataType x => exact child_dataType h
  | window x => exact child_window h
  | orderBy x => exact child_orderBy h
  | query x => exact child_query h
  | cte x => exact child_cte h
  | body x => exact child_body h
  | select x => exact child_select h
  | item x => exact child_item h
  | factor x => exact child_factor h
  | tableRef x => exact child_tableRef h
  | join x => exact child_join h
  | assignment x => exact child_assignment h
  | row x => exact child_row h
  | source x => exact child_source h
  | constraintSpec x => exact child_constraintSpec h
  | constraint x => exact child_constraint h
  | columnSpec x => exact child_columnSpec h
  | columnConstraint x => exact child_columnConstraint h
  | column x => exact child_column h
  | element x => exact child_element h
  | option x => exact child_option h
  | alterColumn x => exact child_alterColumn h
  | alter x => exact child_alter h
  | stmt x => exact child_stmt h

/-- Any number of steps. -/
theorem within_has {c n : Piece} (h : Within c n) : Has (c.lang fns q) (n.lang fns q) := by
  induction h with
  | refl => exact Has.refl
  | step h1 _ ih => exact (child_has h1).trans ih

end
end Verif
