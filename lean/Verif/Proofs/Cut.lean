import Verif.Spec.Cut
/-
A sentence of the grammar with the quirk of CROSS JOIN becomes one without, when what is dropped is cut out.
-/
set_option linter.unusedVariables false
namespace Verif
open Spec

theorem cut_refl : ∀ ts : List Token, Cut ts ts
  | [] => .nil
  | t :: ts => .keep t (cut_refl ts)

theorem Spec.Cut.append {a a' b b' : List Token} (h : Cut a a') (h' : Cut b b') : Cut (a ++ b) (a' ++ b') := by
  induction h with
  | nil => exact h'
  | keep t _ ih => exact .keep t ih
  | drop bl c h1 h2 _ ih => rw [List.append_assoc]; exact .drop bl c h1 h2 ih

theorem Spec.Cut.sublist {ts us : List Token} (h : Cut ts us) : us.Sublist ts := by
  induction h with
  | nil => exact .refl _
  | keep t _ ih => exact ih.cons_cons t
  | drop bl c _ _ _ ih => exact ih.trans (List.sublist_append_right _ _)

/-- Without the quirk of CROSS JOIN. -/
abbrev Spec.Quirks.noCross (q : Quirks) : Quirks := ⟨false, q.as, q.odd⟩

def Thin (L L' : Lang) : Prop := ∀ ts, L ts → ∃ us, Cut ts us ∧ L' us

def Thins : List Lang → List Lang → Prop
  | [], [] => True
  | a :: as, b :: bs => Thin a b ∧ Thins as bs
  | _, _ => False

def ThinO : Option Lang → Option Lang → Prop
  | none, none => True
  | some a, some b => Thin a b
  | _, _ => False

namespace Thin
variable {a b c a' b' : Lang} {p p' : Pos}

theorem refl (a : Lang) : Thin a a := fun ts h => ⟨ts, cut_refl ts, h⟩

theorem cat (ha : Thin a a') (hb : Thin b b') : Thin (a ⬝ b) (a' ⬝ b') := fun ts h => by
  obtain ⟨us, vs, rfl, h1, h2⟩ := h
  obtain ⟨us', i1, i2⟩ := ha us h1
  obtain ⟨vs', i3, i4⟩ := hb vs h2
  exact ⟨us' ++ vs', i1.append i3, us', vs', rfl, i2, i4⟩

theorem alt (ha : Thin a a') (hb : Thin b b') : Thin (a ⊹ b) (a' ⊹ b') := fun ts h => by
  rcases h with h | h
  · obtain ⟨us, h1, h2⟩ := ha ts h
    exact ⟨us, h1, .inl h2⟩
  · obtain ⟨us, h1, h2⟩ := hb ts h
    exact ⟨us, h1, .inr h2⟩

theorem opt (ha : Thin a a') : Thin (Spec.opt a) (Spec.opt a') := (refl _).alt ha
theorem flag {f : Bool} (ha : Thin a a') : Thin (Spec.flag f a) (Spec.flag f a') := by
  cases f <;> first | exact ha | exact refl _

theorem sepBy {k : Sym} : ∀ {as bs : List Lang}, Thins as bs → Thin (Spec.sepBy k as) (Spec.sepBy k bs)
  | [], [], _ => refl _
  | [], _ :: _, h => h.elim
  | _ :: _, [], h => h.elim
  | [a], [b], h => h.1
  | [a], _ :: _ :: _, h => h.2.elim
  | _ :: _ :: _, [_], h => h.2.elim
  | a :: b :: as, a' :: b' :: bs, h => h.1.cat ((refl _).cat (sepBy (as := b :: as) (bs := b' :: bs) h.2))

theorem concat : ∀ {as bs : List Lang}, Thins as bs → Thin (Spec.concat as) (Spec.concat bs)
  | [], [], _ => refl _
  | [], _ :: _, h => h.elim
  | _ :: _, [], h => h.elim
  | a :: as, b :: bs, h => h.1.cat (concat h.2)

theorem clauseOr {wrap wrap' : Lang → Lang} {as bs : List Lang} (hb : Thin b b') (hw : ∀ a a', Thin a a' → Thin (wrap a) (wrap' a'))
    (h : Thins as bs) : Thin (Spec.clauseOr b wrap as) (Spec.clauseOr b' wrap' bs) := by
  cases as with
  | nil =>
    cases bs with
    | nil => exact hb
    | cons _ _ => exact h.elim
  | cons a as =>
    cases bs with
    | nil => exact h.elim
    | cons _ _ => exact hw _ _ (sepBy h)

theorem clause {wrap wrap' : Lang → Lang} {as bs : List Lang} (hw : ∀ a a', Thin a a' → Thin (wrap a) (wrap' a'))
    (h : Thins as bs) : Thin (Spec.clause wrap as) (Spec.clause wrap' bs) := clauseOr (refl _) hw h

theorem optional {wrap wrap' : Lang → Lang} {o o' : Option Lang} (hw : ∀ a a', Thin a a' → Thin (wrap a) (wrap' a'))
    (h : ThinO o o') : Thin (Spec.optional wrap o) (Spec.optional wrap' o') := by
  cases o <;> cases o' <;> first | exact refl _ | exact h.elim | exact hw _ _ h

theorem parens (ha : Thin a a') : Thin (Spec.parens a) (Spec.parens a') := (refl _).cat (ha.cat (refl _))
theorem parensTo (ha : Thin a a') : Thin (Spec.parensTo p a) (Spec.parensTo p a') := (refl _).cat (ha.cat (refl _))

theorem whens : ∀ {cs cs' rs rs' : List Lang}, Thins cs cs' → Thins rs rs' → Thin (Spec.whens cs rs) (Spec.whens cs' rs')
  | [], [], [], [], _, _ => refl _
  | [], _ :: _, _, _, h, _ => h.elim
  | _ :: _, [], _, _, h, _ => h.elim
  | _, _, [], _ :: _, _, h => h.elim
  | _, _, _ :: _, [], _, h => h.elim
  | [], [], _ :: _, _ :: _, _, _ => refl _
  | _ :: _, _ :: _, [], [], _, _ => fun ts h => h.elim
  | c :: cs, _ :: _, r :: rs, _ :: _, h1, h2 =>
    (refl _).cat (h1.1.cat ((refl _).cat (h2.1.cat (whens h1.2 h2.2))))

theorem subquery {w : Bool} (ha : Thin a a') : Thin (subqueryLang w p a) (subqueryLang w p a') :=
  (refl _).cat ((refl _).cat (ha.cat (refl _)))

theorem startsSym {k : Sym} (hb : Thin b b') : Thin (p ▹ (Spec.sym k ⬝ b)) (p ▹ (Spec.sym k ⬝ b')) := fun ts h => by
  obtain ⟨⟨_, vs, rfl, ⟨t, s, rfl, h1⟩, h2⟩, t', us, e, h3⟩ := h
  obtain ⟨vs', i1, i2⟩ := hb vs h2
  cases e
  exact ⟨t :: vs', .keep t i1, ⟨[t], vs', rfl, ⟨t, s, rfl, h1⟩, i2⟩, t, vs', rfl, h3⟩

theorem startsSubquery {w : Bool} (ha : Thin a a') : Thin (p ▹ subqueryLang w p' a) (p ▹ subqueryLang w p' a') :=
  startsSym ((refl _).cat (ha.cat (refl _)))

theorem nil : Thins [] [] := trivial
theorem cons {as bs : List Lang} (h : Thin a b) (hs : Thins as bs) : Thins (a :: as) (b :: bs) := ⟨h, hs⟩
theorem none : ThinO none none := trivial
theorem some (h : Thin a b) : ThinO (some a) (some b) := h

theorem map {α : Type} {f g : α → Lang} : ∀ {l : List α}, (∀ x, Thin (f x) (g x)) → Thins (l.map f) (l.map g)
  | [], _ => trivial
  | _ :: _, h => ⟨h _, map h⟩

theorem mapO {α : Type} {f g : α → Lang} {l : Option α} (h : ∀ x, Thin (f x) (g x)) : ThinO (l.map f) (l.map g) := by
  cases l with
  | none => trivial
  | some x => exact h x

/-- The rule for CROSS JOIN. -/
theorem cross {f : Bool} (ha : Thin a a') (hb : Thin b b') :
    Thin (a ⬝ Spec.lost f Spec.anything ⬝ Spec.kwd .CROSS ⬝ b) (a' ⬝ Spec.lost false Spec.anything ⬝ Spec.kwd .CROSS ⬝ b') := by
  intro ts h
  obtain ⟨us, _, rfl, h1, bl, _, rfl, h2, _, vs, rfl, ⟨c, w, rfl, h3⟩, h4⟩ := h
  obtain ⟨us', i1, i2⟩ := ha us h1
  obtain ⟨vs', i3, i4⟩ := hb vs h4
  refine ⟨us' ++ ([] ++ ([c] ++ vs')), i1.append ?_, us', _, rfl, i2, [], _, rfl, rfl, [c], vs', rfl, ⟨c, w, rfl, h3⟩, i4⟩
  have h5 : bl = [] ∨ Spec.anything bl := by
    cases f with
    | false => exact .inl h2
    | true => exact h2
  rcases h5 with rfl | h5
  · exact .keep c i3
  · exact .drop bl c h5 ⟨c, w, rfl, h3⟩ (.keep c i3)

theorem tableAlias {q : Quirks} {i : Option Ident} : Thin (tableAliasLang q i) (tableAliasLang q.noCross i) := by
  cases i <;> exact refl _

theorem referenced {q : Quirks} {is : List Ident} : Thin (referencedLang q is) (referencedLang q.noCross is) := by
  cases is <;> exact refl _

theorem ex {α : Type} {f g : α → Lang} (h : ∀ x, Thin (f x) (g x)) : Thin (fun ts => ∃ x, f x ts) (fun ts => ∃ x, g x ts) :=
  fun ts ⟨x, hx⟩ => by
    obtain ⟨us, h1, h2⟩ := h x ts hx
    exact ⟨us, h1, x, h2⟩

theorem and {L L' : Lang} {p : Prop} (h : Thin L L') : Thin (fun ts => L ts ∧ p) (fun ts => L' ts ∧ p) := fun ts hx => by
  obtain ⟨us, h1, h2⟩ := h ts hx.1
  exact ⟨us, h1, h2, hx.2⟩

end Thin

open Lean.Parser.Tactic in
/-- Go through the combinators of a language, with the given facts about its parts. -/
macro "thin" "[" ts:term,* "]" : tactic => `(tactic| (repeat' (with_reducible first
  | assumption
  | exact Thin.refl _
  $[| exact $ts]*
  | exact Thin.none | exact Thin.tableAlias | exact Thin.referenced
  | apply Thin.parens | apply Thin.parensTo | apply Thin.subquery | apply Thin.startsSubquery | apply Thin.startsSym | apply Thin.cross
  | apply Thin.opt | apply Thin.flag
  | apply Thin.clauseOr | apply Thin.clause | apply Thin.optional | apply Thin.sepBy | apply Thin.concat
  | apply Thin.whens | apply Thin.mapO | apply Thin.map | apply Thin.some | apply Thin.nil | apply Thin.cons
  | apply Thin.cat | apply Thin.alt
  | (intro a a' ha; try dsimp only [id]))))

variable (fns : FloatFns) (q : Quirks)

mutual

theorem Expr.thin : (x : Expr) → Thin (x.lang fns q) (x.lang fns q.noCross)
  | .ident i => by rw [Expr.lang, Expr.lang]; thin []
  | .wildcard p => by rw [Expr.lang, Expr.lang]; thin []
  | .qualifiedWildcard is => by rw [Expr.lang, Expr.lang]; thin []
  | .compoundIdent is => by rw [Expr.lang, Expr.lang]; thin []
  | .isNull x => by rw [Expr.lang, Expr.lang]; thin [x.thin]
  | .isNotNull x => by rw [Expr.lang, Expr.lang]; thin [x.thin]
  | .inList x l neg rp => by rw [Expr.lang, Expr.lang]; thin [x.thin, Expr.thins l]
  | .inSubQuery x s neg rp => by rw [Expr.lang, Expr.lang]; thin [x.thin, s.thin]
  | .between x neg low high => by rw [Expr.lang, Expr.lang]; thin [x.thin, low.thin, high.thin]
  | .binary l op r => by rw [Expr.lang, Expr.lang]; thin [l.thin, r.thin]
  | .cast x ty c rp => by rw [Expr.lang, Expr.lang]; thin [x.thin, ty.thin]
  | .nested x lp rp => by rw [Expr.lang, Expr.lang]; thin [x.thin]
  | .unary p op x => by rw [Expr.lang, Expr.lang]; thin [x.thin]
  | .function name args rp none orp => by rw [Expr.lang, Expr.lang]; thin [Expr.thins args]
  | .function name args rp (some w) orp => by rw [Expr.lang, Expr.lang]; thin [Expr.thins args, w.thin]
  | .caseExpr c e operand conditions results elseResult => by
    rw [Expr.lang, Expr.lang]; thin [Expr.thinO operand, Expr.thins conditions, Expr.thins results, Expr.thinO elseResult]
  | .exists_ neg s n e rp => by rw [Expr.lang, Expr.lang]; thin [s.thin]
  | .subQuery rp lp s => by rw [Expr.lang, Expr.lang]; thin [s.thin]
  | .long v => by rw [Expr.lang, Expr.lang]; thin []
  | .double f t v => by rw [Expr.lang, Expr.lang]; thin []
  | .singleQuoted f t s => by rw [Expr.lang, Expr.lang]; thin []
  | .national f t s => by rw [Expr.lang, Expr.lang]; thin []
  | .boolean f t b => by rw [Expr.lang, Expr.lang]; thin []
  | .null f t => by rw [Expr.lang, Expr.lang]; thin []
  | .timeValue _ _ _ _ => by rw [Expr.lang, Expr.lang]; thin []

theorem Expr.thins : (xs : List Expr) → Thins (Expr.langs fns q xs) (Expr.langs fns q.noCross xs)
  | [] => by rw [Expr.langs, Expr.langs]; thin []
  | x :: xs => by rw [Expr.langs, Expr.langs]; thin [x.thin, Expr.thins xs]

theorem Expr.thinO : (x : Option Expr) → ThinO (Expr.langO fns q x) (Expr.langO fns q.noCross x)
  | none => by rw [Expr.langO, Expr.langO]; thin []
  | some x => by rw [Expr.langO, Expr.langO]; thin [x.thin]

theorem WindowSpec.thin : (x : WindowSpec) → Thin (x.lang fns q) (x.lang fns q.noCross)
  | .mk partitionBy orderBy frame p o => by
    rw [WindowSpec.lang, WindowSpec.lang]; thin [Expr.thins partitionBy, OrderByExpr.thins orderBy]

theorem OrderByExpr.thin : (x : OrderByExpr) → Thin (x.lang fns q) (x.lang fns q.noCross)
  | .mk x p asc => by rw [OrderByExpr.lang, OrderByExpr.lang]; thin [x.thin]

theorem OrderByExpr.thins : (xs : List OrderByExpr) → Thins (OrderByExpr.langs fns q xs) (OrderByExpr.langs fns q.noCross xs)
  | [] => by rw [OrderByExpr.langs, OrderByExpr.langs]; thin []
  | x :: xs => by rw [OrderByExpr.langs, OrderByExpr.langs]; thin [x.thin, OrderByExpr.thins xs]

theorem QueryStmt.thin : (x : QueryStmt) → Thin (x.lang fns q) (x.lang fns q.noCross)
  | .mk w ctes body orderBy limit => by
    rw [QueryStmt.lang, QueryStmt.lang]; thin [CTE.thins ctes, body.thin, OrderByExpr.thins orderBy]

theorem CTE.thin : (x : CTE) → Thin (x.lang fns q) (x.lang fns q.noCross)
  | .mk alias s rp => by rw [CTE.lang, CTE.lang]; thin [s.thin]

theorem CTE.thins : (xs : List CTE) → Thins (CTE.langs fns q xs) (CTE.langs fns q.noCross xs)
  | [] => by rw [CTE.langs, CTE.langs]; thin []
  | x :: xs => by rw [CTE.langs, CTE.langs]; thin [x.thin, CTE.thins xs]

theorem SetExpr.thin : (x : SetExpr) → Thin (x.lang fns q) (x.lang fns q.noCross)
  | .selectExpr _ => by rw [SetExpr.lang, SetExpr.lang]; thin []
  | .select s => by rw [SetExpr.lang, SetExpr.lang]; thin [s.thin]
  | .query lp rp s => by rw [SetExpr.lang, SetExpr.lang]; thin [s.thin]
  | .setOp op all l r => by rw [SetExpr.lang, SetExpr.lang]; thin [l.thin, r.thin]

theorem SQLSelect.thin : (x : SQLSelect) → Thin (x.lang fns q) (x.lang fns q.noCross)
  | .mk distinct projection from_ where_ groupBy having p => by
    rw [SQLSelect.lang, SQLSelect.lang]
    thin [SelectItem.thins projection, TableRef.thins from_, Expr.thinO where_, Expr.thins groupBy, Expr.thinO having]

theorem SelectItem.thin : (x : SelectItem) → Thin (x.lang fns q) (x.lang fns q.noCross)
  | .unnamed x => by rw [SelectItem.lang, SelectItem.lang]; thin [x.thin]
  | .alias x a => by rw [SelectItem.lang, SelectItem.lang]; thin [x.thin]
  | .qualifiedWildcard p => by rw [SelectItem.lang, SelectItem.lang]; thin []
  | .wildcard _ _ => by rw [SelectItem.lang, SelectItem.lang]; thin []

theorem SelectItem.thins : (xs : List SelectItem) → Thins (SelectItem.langs fns q xs) (SelectItem.langs fns q.noCross xs)
  | [] => by rw [SelectItem.langs, SelectItem.langs]; thin []
  | x :: xs => by rw [SelectItem.langs, SelectItem.langs]; thin [x.thin, SelectItem.thins xs]

theorem TableFactor.thin : (x : TableFactor) → Thin (x.lang fns q) (x.lang fns q.noCross)
  | .table name alias [] arp hints hrp => by
    rw [TableFactor.lang, TableFactor.lang]; thin [Expr.thins hints]
  | .table name alias (x :: xs) arp hints hrp => by
    rw [TableFactor.lang, TableFactor.lang]
    · thin [Expr.thins hints, Expr.thins (x :: xs)]
    · simp
    · simp
  | .derived lateral p lp rp s alias => by rw [TableFactor.lang, TableFactor.lang]; thin [s.thin]

theorem TableRef.thin : (x : TableRef) → Thin (x.lang fns q) (x.lang fns q.noCross)
  | .factor f => by rw [TableRef.lang, TableRef.lang]; thin [f.thin]
  | .cross r f => by rw [TableRef.lang, TableRef.lang]; thin [r.thin, f.thin]
  | .partitioned _ _ _ => by rw [TableRef.lang, TableRef.lang]; thin []
  | .qualified l ty r spec => by rw [TableRef.lang, TableRef.lang]; thin [l.thin, r.thin, spec.thin]
  | .natural l ty r => by rw [TableRef.lang, TableRef.lang]; thin [l.thin, r.thin]

theorem TableRef.thins : (xs : List TableRef) → Thins (TableRef.langs fns q xs) (TableRef.langs fns q.noCross xs)
  | [] => by rw [TableRef.langs, TableRef.langs]; thin []
  | x :: xs => by rw [TableRef.langs, TableRef.langs]; thin [x.thin, TableRef.thins xs]

theorem JoinSpec.thin : (x : JoinSpec) → Thin (x.lang fns q) (x.lang fns q.noCross)
  | .namedColumns is u rp => by rw [JoinSpec.lang, JoinSpec.lang]; thin []
  | .condition x p => by rw [JoinSpec.lang, JoinSpec.lang]; thin [x.thin]

end

theorem Thin.where_ {x : Option Expr} : Thin (whereLang fns q x) (whereLang fns q.noCross x) := by unfold whereLang; thin [Expr.thinO fns q x]

theorem Assignment.thin (a : Assignment) : Thin (a.lang fns q) (a.lang fns q.noCross) := by
  unfold Assignment.lang; thin [a.value.thin fns q]

theorem RowValueExpr.thin (r : RowValueExpr) : Thin (r.lang fns q) (r.lang fns q.noCross) := by
  unfold RowValueExpr.lang; thin [Expr.thins fns q r.values]

theorem InsertSource.thin (s : InsertSource) : Thin (s.lang fns q) (s.lang fns q.noCross) := by
  cases s with
  | subQuery s => exact s.thin fns q
  | constructor v rows => unfold InsertSource.lang; thin [RowValueExpr.thin fns q]

theorem TableConstraintSpec.thin (s : TableConstraintSpec) : Thin (s.lang fns q) (s.lang fns q.noCross) := by
  unfold TableConstraintSpec.lang
  split <;> thin [Expr.thin fns q _]

theorem TableConstraint.thin (c : TableConstraint) : Thin (c.lang fns q) (c.lang fns q.noCross) := by
  refine Thin.cat ?_ (c.spec.thin fns q)
  cases c.name <;> (unfold nameLang; thin [])

theorem ColumnSpec.thin (s : ColumnSpec) : Thin (s.lang fns q) (s.lang fns q.noCross) := by
  unfold ColumnSpec.lang
  split <;> thin [Expr.thin fns q _]

theorem ColumnConstraint.thin (c : ColumnConstraint) : Thin (c.lang fns q) (c.lang fns q.noCross) := by
  unfold ColumnConstraint.lang
  thin [ColumnSpec.thin fns q _]

theorem ColumnItem.thin (x : ColumnItem) : Thin (x.lang fns q) (x.lang fns q.noCross) := by
  cases x with
  | default_ x => unfold ColumnItem.lang; thin [x.thin fns q]
  | constraints cs =>
    unfold ColumnItem.lang
    thin [ColumnConstraint.thin fns q]
  | autoIncrement a => unfold ColumnItem.lang; thin []

theorem ColumnDef.thin (c : ColumnDef) : Thin (c.lang fns q) (c.lang fns q.noCross) := by
  unfold ColumnDef.lang
  thin [DataType.thin _, Thin.ex fun items => Thin.and (Thin.concat (Thin.map (ColumnItem.thin fns q)))]

theorem TableElement.thin (x : TableElement) : Thin (x.lang fns q) (x.lang fns q.noCross) := by
  cases x with
  | constraint c => exact c.thin fns q
  | column c => exact c.thin fns q

theorem AlterColumnAction.thin (x : AlterColumnAction) : Thin (x.lang fns q) (x.lang fns q.noCross) := by
  cases x <;> (unfold AlterColumnAction.lang; thin [Expr.thin fns q _, DataType.thin _])

theorem AlterTableAction.thin (x : AlterTableAction) : Thin (x.lang fns q) (x.lang fns q.noCross) := by
  cases x <;> (unfold AlterTableAction.lang; thin [ColumnDef.thin fns q _, AlterColumnAction.thin fns q _,
    TableConstraint.thin fns q _])

theorem Stmt.thin : (s : Stmt) → Thin (s.lang fns q) (s.lang fns q.noCross)
  | .query s => s.thin fns q
  | .insert p name is source assigns => by
    rw [Stmt.lang, Stmt.lang]; thin [source.thin fns q, Assignment.thin fns q]
  | .update p name assigns cond => by
    rw [Stmt.lang, Stmt.lang]; thin [Thin.where_ fns q, Assignment.thin fns q]
  | .delete p name cond => by rw [Stmt.lang, Stmt.lang]; thin [Thin.where_ fns q]
  | .createView p name s false => by rw [Stmt.lang, Stmt.lang]; thin [s.thin fns q]
  | .createView _ _ _ true => by rw [Stmt.lang, Stmt.lang]; thin []
  | .createTable p name elements notExists options => by
    rw [Stmt.lang, Stmt.lang]; thin [TableElement.thin fns q]
  | .alterTable p name action => by rw [Stmt.lang, Stmt.lang]; thin [action.thin fns q]
  | .dropTable names cascade cp ifExists p => by rw [Stmt.lang, Stmt.lang]; thin []
  | .createIndex p name unique indexName methodName is rp cond => by
    rw [Stmt.lang, Stmt.lang]
    thin [Thin.where_ fns q]
  | .dropIndex p is => by rw [Stmt.lang, Stmt.lang]; thin []
  | .explain s p => by rw [Stmt.lang, Stmt.lang]; thin [Stmt.thin s]
  | .copy _ _ _ _ => by rw [Stmt.lang, Stmt.lang]; thin []

end Verif
