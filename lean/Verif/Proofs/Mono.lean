import Verif.Proofs.Zipper
/-
A larger recursion budget does not change results: programs are ordered by `P.Le` (`oof` below everything),
every function of Model/Parser.lean is monotone in the record of recursive entry points, and so
`Parsers.at n` grows with `n`.
-/
set_option linter.unusedVariables false
namespace Verif
open Lean.Order

inductive P.Le : P α → P α → Prop
  | oof (p) : P.Le .oof p
  | ret (a) : P.Le (.ret a) (.ret a)
  | err : P.Le .err .err
  | panic : P.Le .panic .panic
  | next {k k' : Option Token → P α} : (∀ t, P.Le (k t) (k' t)) → P.Le (.next k) (.next k')
  | peek {k k' : Option Token → P α} : (∀ t, P.Le (k t) (k' t)) → P.Le (.peek k) (.peek k')
  | prev {k k' : P α} : P.Le k k' → P.Le (.prev k) (.prev k')
  | kws {ks} {k k' : Option (List Token) → P α} : (∀ t, P.Le (k t) (k' t)) → P.Le (.kws ks k) (.kws ks k')

theorem P.Le.refl : ∀ (p : P α), P.Le p p
  | .oof => .oof _
  | .ret a => .ret a
  | .err => .err
  | .panic => .panic
  | .next k => .next fun t => P.Le.refl (k t)
  | .peek k => .peek fun t => P.Le.refl (k t)
  | .prev k => .prev (P.Le.refl k)
  | .kws ks k => .kws fun t => P.Le.refl (k t)

theorem P.Le.trans : ∀ {p q r : P α}, P.Le p q → P.Le q r → P.Le p r := by
  intro p q r h
  induction h generalizing r with
  | oof => intro _; exact .oof _
  | ret a => exact id
  | err => exact id
  | panic => exact id
  | next _ ih => intro h; cases h with | next h' => exact .next fun t => ih t (h' t)
  | peek _ ih => intro h; cases h with | peek h' => exact .peek fun t => ih t (h' t)
  | prev _ ih => intro h; cases h with | prev h' => exact .prev (ih h')
  | kws _ ih => intro h; cases h with | kws h' => exact .kws fun t => ih t (h' t)

theorem P.Le.antisymm : ∀ {p q : P α}, P.Le p q → P.Le q p → p = q := by
  intro p q h
  induction h with
  | oof => intro h; cases h; rfl
  | ret a => intro _; rfl
  | err => intro _; rfl
  | panic => intro _; rfl
  | next _ ih => intro h; cases h with | next h' => congr 1; funext t; exact ih t (h' t)
  | peek _ ih => intro h; cases h with | peek h' => congr 1; funext t; exact ih t (h' t)
  | prev _ ih => intro h; cases h with | prev h' => congr 1; exact ih h'
  | kws _ ih => intro h; cases h with | kws h' => congr 1; funext t; exact ih t (h' t)

theorem P.Le.bind {p p' : P α} {f f' : α → P β} (h : P.Le p p') (hf : ∀ a, P.Le (f a) (f' a)) :
    P.Le (p.bind f) (p'.bind f') := by
  induction h with
  | oof => exact .oof _
  | ret a => exact hf a
  | err => exact .err
  | panic => exact .panic
  | next _ ih => exact .next fun t => ih t
  | peek _ ih => exact .peek fun t => ih t
  | prev _ ih => exact .prev ih
  | kws _ ih => exact .kws fun t => ih t

instance : PartialOrder (P α) where
  rel := P.Le
  rel_refl := P.Le.refl _
  rel_trans := P.Le.trans
  rel_antisymm := P.Le.antisymm

@[partial_fixpoint_monotone]
theorem mono_bind {γ : Type} [PartialOrder γ] (f : γ → P α) (g : γ → α → P β)
   (hf : monotone f) (hg : monotone g) : monotone (fun x => f x >>= g x) := by
  intro x y h
  exact P.Le.bind (hf x y h) (fun a => hg x y h a)

structure Parsers.Le (r r' : Parsers) : Prop where
  subexpr a : P.Le (r.subexpr a) (r'.subexpr a)
  subexprLoop a b : P.Le (r.subexprLoop a b) (r'.subexprLoop a b)
  prefix_ : P.Le (r.prefix_) (r'.prefix_)
  idParts : P.Le (r.idParts) (r'.idParts)
  exprList : P.Le (r.exprList) (r'.exprList)
  listOfIds a : P.Le (r.listOfIds a) (r'.listOfIds a)
  listOfIdsSep a : P.Le (r.listOfIdsSep a) (r'.listOfIdsSep a)
  orderByList : P.Le (r.orderByList) (r'.orderByList)
  caseLoop : P.Le (r.caseLoop) (r'.caseLoop)
  query : P.Le (r.query) (r'.query)
  queryBody a : P.Le (r.queryBody a) (r'.queryBody a)
  bodyLoop a b : P.Le (r.bodyLoop a b) (r'.bodyLoop a b)
  cteList : P.Le (r.cteList) (r'.cteList)
  selectList : P.Le (r.selectList) (r'.selectList)
  tableRef : P.Le (r.tableRef) (r'.tableRef)
  tableRefLoop a b : P.Le (r.tableRefLoop a b) (r'.tableRefLoop a b)
  fromRest : P.Le (r.fromRest) (r'.fromRest)
  defaultLoop a : P.Le (r.defaultLoop a) (r'.defaultLoop a)
  columnLoop a b c : P.Le (r.columnLoop a b c) (r'.columnLoop a b c)
  columnConstraints : P.Le (r.columnConstraints) (r'.columnConstraints)
  elements : P.Le (r.elements) (r'.elements)
  tableOptions : P.Le (r.tableOptions) (r'.tableOptions)
  assignments : P.Le (r.assignments) (r'.assignments)
  rows : P.Le (r.rows) (r'.rows)
  statement : P.Le (r.statement) (r'.statement)

theorem Parsers.Le.refl (r : Parsers) : Parsers.Le r r := by
  constructor <;> intros <;> exact P.Le.refl _

theorem Parsers.Le.trans {p q r : Parsers} (h : Parsers.Le p q) (h' : Parsers.Le q r) : Parsers.Le p r where
  subexpr a := (h.subexpr a).trans (h'.subexpr a)
  subexprLoop a b := (h.subexprLoop a b).trans (h'.subexprLoop a b)
  prefix_ := (h.prefix_).trans (h'.prefix_)
  idParts := (h.idParts).trans (h'.idParts)
  exprList := (h.exprList).trans (h'.exprList)
  listOfIds a := (h.listOfIds a).trans (h'.listOfIds a)
  listOfIdsSep a := (h.listOfIdsSep a).trans (h'.listOfIdsSep a)
  orderByList := (h.orderByList).trans (h'.orderByList)
  caseLoop := (h.caseLoop).trans (h'.caseLoop)
  query := (h.query).trans (h'.query)
  queryBody a := (h.queryBody a).trans (h'.queryBody a)
  bodyLoop a b := (h.bodyLoop a b).trans (h'.bodyLoop a b)
  cteList := (h.cteList).trans (h'.cteList)
  selectList := (h.selectList).trans (h'.selectList)
  tableRef := (h.tableRef).trans (h'.tableRef)
  tableRefLoop a b := (h.tableRefLoop a b).trans (h'.tableRefLoop a b)
  fromRest := (h.fromRest).trans (h'.fromRest)
  defaultLoop a := (h.defaultLoop a).trans (h'.defaultLoop a)
  columnLoop a b c := (h.columnLoop a b c).trans (h'.columnLoop a b c)
  columnConstraints := (h.columnConstraints).trans (h'.columnConstraints)
  elements := (h.elements).trans (h'.elements)
  tableOptions := (h.tableOptions).trans (h'.tableOptions)
  assignments := (h.assignments).trans (h'.assignments)
  rows := (h.rows).trans (h'.rows)
  statement := (h.statement).trans (h'.statement)

theorem Parsers.Le.antisymm {p q : Parsers} (h : Parsers.Le p q) (h' : Parsers.Le q p) : p = q := by
  cases p; cases q
  congr
  · funext a; exact (h.subexpr a).antisymm (h'.subexpr a)
  · funext a b; exact (h.subexprLoop a b).antisymm (h'.subexprLoop a b)
  · exact h.prefix_.antisymm h'.prefix_
  · exact h.idParts.antisymm h'.idParts
  · exact h.exprList.antisymm h'.exprList
  · funext a; exact (h.listOfIds a).antisymm (h'.listOfIds a)
  · funext a; exact (h.listOfIdsSep a).antisymm (h'.listOfIdsSep a)
  · exact h.orderByList.antisymm h'.orderByList
  · exact h.caseLoop.antisymm h'.caseLoop
  · exact h.query.antisymm h'.query
  · funext a; exact (h.queryBody a).antisymm (h'.queryBody a)
  · funext a b; exact (h.bodyLoop a b).antisymm (h'.bodyLoop a b)
  · exact h.cteList.antisymm h'.cteList
  · exact h.selectList.antisymm h'.selectList
  · exact h.tableRef.antisymm h'.tableRef
  · funext a b; exact (h.tableRefLoop a b).antisymm (h'.tableRefLoop a b)
  · exact h.fromRest.antisymm h'.fromRest
  · funext a; exact (h.defaultLoop a).antisymm (h'.defaultLoop a)
  · funext a b c; exact (h.columnLoop a b c).antisymm (h'.columnLoop a b c)
  · exact h.columnConstraints.antisymm h'.columnConstraints
  · exact h.elements.antisymm h'.elements
  · exact h.tableOptions.antisymm h'.tableOptions
  · exact h.assignments.antisymm h'.assignments
  · exact h.rows.antisymm h'.rows
  · exact h.statement.antisymm h'.statement

instance : PartialOrder Parsers where
  rel := Parsers.Le
  rel_refl := Parsers.Le.refl _
  rel_trans := Parsers.Le.trans
  rel_antisymm := Parsers.Le.antisymm

section
variable {γ : Type} [PartialOrder γ] {r : γ → Parsers}

@[partial_fixpoint_monotone] theorem mono_subexpr (h : monotone r) (a) :
    monotone fun x => (r x).subexpr a := fun x y hh => (h x y hh).subexpr a
@[partial_fixpoint_monotone] theorem mono_subexprLoop (h : monotone r) (a) (b) :
    monotone fun x => (r x).subexprLoop a b := fun x y hh => (h x y hh).subexprLoop a b
@[partial_fixpoint_monotone] theorem mono_prefix_ (h : monotone r) :
    monotone fun x => (r x).prefix_ := fun x y hh => (h x y hh).prefix_
@[partial_fixpoint_monotone] theorem mono_idParts (h : monotone r) :
    monotone fun x => (r x).idParts := fun x y hh => (h x y hh).idParts
@[partial_fixpoint_monotone] theorem mono_exprList (h : monotone r) :
    monotone fun x => (r x).exprList := fun x y hh => (h x y hh).exprList
@[partial_fixpoint_monotone] theorem mono_listOfIds (h : monotone r) (a) :
    monotone fun x => (r x).listOfIds a := fun x y hh => (h x y hh).listOfIds a
@[partial_fixpoint_monotone] theorem mono_listOfIdsSep (h : monotone r) (a) :
    monotone fun x => (r x).listOfIdsSep a := fun x y hh => (h x y hh).listOfIdsSep a
@[partial_fixpoint_monotone] theorem mono_orderByList (h : monotone r) :
    monotone fun x => (r x).orderByList := fun x y hh => (h x y hh).orderByList
@[partial_fixpoint_monotone] theorem mono_caseLoop (h : monotone r) :
    monotone fun x => (r x).caseLoop := fun x y hh => (h x y hh).caseLoop
@[partial_fixpoint_monotone] theorem mono_query (h : monotone r) :
    monotone fun x => (r x).query := fun x y hh => (h x y hh).query
@[partial_fixpoint_monotone] theorem mono_queryBody (h : monotone r) (a) :
    monotone fun x => (r x).queryBody a := fun x y hh => (h x y hh).queryBody a
@[partial_fixpoint_monotone] theorem mono_bodyLoop (h : monotone r) (a) (b) :
    monotone fun x => (r x).bodyLoop a b := fun x y hh => (h x y hh).bodyLoop a b
@[partial_fixpoint_monotone] theorem mono_cteList (h : monotone r) :
    monotone fun x => (r x).cteList := fun x y hh => (h x y hh).cteList
@[partial_fixpoint_monotone] theorem mono_selectList (h : monotone r) :
    monotone fun x => (r x).selectList := fun x y hh => (h x y hh).selectList
@[partial_fixpoint_monotone] theorem mono_tableRef (h : monotone r) :
    monotone fun x => (r x).tableRef := fun x y hh => (h x y hh).tableRef
@[partial_fixpoint_monotone] theorem mono_tableRefLoop (h : monotone r) (a) (b) :
    monotone fun x => (r x).tableRefLoop a b := fun x y hh => (h x y hh).tableRefLoop a b
@[partial_fixpoint_monotone] theorem mono_fromRest (h : monotone r) :
    monotone fun x => (r x).fromRest := fun x y hh => (h x y hh).fromRest
@[partial_fixpoint_monotone] theorem mono_defaultLoop (h : monotone r) (a) :
    monotone fun x => (r x).defaultLoop a := fun x y hh => (h x y hh).defaultLoop a
@[partial_fixpoint_monotone] theorem mono_columnLoop (h : monotone r) (a) (b) (c) :
    monotone fun x => (r x).columnLoop a b c := fun x y hh => (h x y hh).columnLoop a b c
@[partial_fixpoint_monotone] theorem mono_columnConstraints (h : monotone r) :
    monotone fun x => (r x).columnConstraints := fun x y hh => (h x y hh).columnConstraints
@[partial_fixpoint_monotone] theorem mono_elements (h : monotone r) :
    monotone fun x => (r x).elements := fun x y hh => (h x y hh).elements
@[partial_fixpoint_monotone] theorem mono_tableOptions (h : monotone r) :
    monotone fun x => (r x).tableOptions := fun x y hh => (h x y hh).tableOptions
@[partial_fixpoint_monotone] theorem mono_assignments (h : monotone r) :
    monotone fun x => (r x).assignments := fun x y hh => (h x y hh).assignments
@[partial_fixpoint_monotone] theorem mono_rows (h : monotone r) :
    monotone fun x => (r x).rows := fun x y hh => (h x y hh).rows
@[partial_fixpoint_monotone] theorem mono_statement (h : monotone r) :
    monotone fun x => (r x).statement := fun x y hh => (h x y hh).statement

macro "mono" : tactic => `(tactic| repeat' (first | assumption | monotonicity))

@[partial_fixpoint_monotone] theorem mono_parseListOfIds (h : monotone r) (sep) :
    monotone fun x => parseListOfIds (r x) sep := by
  unfold parseListOfIds; mono
@[partial_fixpoint_monotone] theorem mono_parseColumnNames (h : monotone r) :
    monotone fun x => parseColumnNames (r x) := by
  unfold parseColumnNames; mono
@[partial_fixpoint_monotone] theorem mono_parseObjectName (h : monotone r) :
    monotone fun x => parseObjectName (r x) := by
  unfold parseObjectName; mono
@[partial_fixpoint_monotone] theorem mono_parseDataType (h : monotone r) :
    monotone fun x => parseDataType (r x) := by
  unfold parseDataType; mono
@[partial_fixpoint_monotone] theorem mono_parseExpr (h : monotone r) :
    monotone fun x => parseExpr (r x) := by
  unfold parseExpr; mono
@[partial_fixpoint_monotone] theorem mono_parseIn (h : monotone r) (e) (n) :
    monotone fun x => parseIn (r x) e n := by
  unfold parseIn; mono
@[partial_fixpoint_monotone] theorem mono_parseBetween (h : monotone r) (e) (n) :
    monotone fun x => parseBetween (r x) e n := by
  unfold parseBetween; mono
@[partial_fixpoint_monotone] theorem mono_parseNotInBetween (h : monotone r) (e) :
    monotone fun x => parseNotInBetween (r x) e := by
  unfold parseNotInBetween; mono
@[partial_fixpoint_monotone] theorem mono_parseInfix (h : monotone r) (e) (p) :
    monotone fun x => parseInfix (r x) e p := by
  unfold parseInfix; mono
@[partial_fixpoint_monotone] theorem mono_parseOptionalArgs (h : monotone r) :
    monotone fun x => parseOptionalArgs (r x) := by
  unfold parseOptionalArgs; mono
@[partial_fixpoint_monotone] theorem mono_parseOver (h : monotone r) :
    monotone fun x => parseOver (r x) := by
  unfold parseOver; mono
@[partial_fixpoint_monotone] theorem mono_parseFunction (h : monotone r) (n) :
    monotone fun x => parseFunction (r x) n := by
  unfold parseFunction; mono
@[partial_fixpoint_monotone] theorem mono_parseCaseExpression (h : monotone r) :
    monotone fun x => parseCaseExpression (r x) := by
  unfold parseCaseExpression; mono
@[partial_fixpoint_monotone] theorem mono_parseCastExpression (h : monotone r) :
    monotone fun x => parseCastExpression (r x) := by
  unfold parseCastExpression; mono
@[partial_fixpoint_monotone] theorem mono_parseExistsExpression (h : monotone r) (t) :
    monotone fun x => parseExistsExpression (r x) t := by
  unfold parseExistsExpression; mono
@[partial_fixpoint_monotone] theorem mono_parseName (h : monotone r) (t) (w) :
    monotone fun x => parseName (r x) t w := by
  unfold parseName; mono
@[partial_fixpoint_monotone] theorem mono_parseParen (h : monotone r) (t) :
    monotone fun x => parseParen (r x) t := by
  unfold parseParen; mono
@[partial_fixpoint_monotone] theorem mono_parseNot (h : monotone r) (t) :
    monotone fun x => parseNot (r x) t := by
  unfold parseNot; mono
@[partial_fixpoint_monotone] theorem mono_parseFromClause (h : monotone r) :
    monotone fun x => parseFromClause (r x) := by
  unfold parseFromClause; mono
@[partial_fixpoint_monotone] theorem mono_parseSelect (h : monotone r) (p) :
    monotone fun x => parseSelect (r x) p := by
  unfold parseSelect; mono
@[partial_fixpoint_monotone] theorem mono_parseTableFactor (h : monotone r) :
    monotone fun x => parseTableFactor (r x) := by
  unfold parseTableFactor; mono
@[partial_fixpoint_monotone] theorem mono_parseJoinSpec (h : monotone r) :
    monotone fun x => parseJoinSpec (r x) := by
  unfold parseJoinSpec; mono
@[partial_fixpoint_monotone] theorem mono_parseQualifiedJoin (h : monotone r) :
    monotone fun x => parseQualifiedJoin (r x) := by
  unfold parseQualifiedJoin; mono
@[partial_fixpoint_monotone] theorem mono_parseTableReferenceRight (h : monotone r) :
    monotone fun x => parseTableReferenceRight (r x) := by
  unfold parseTableReferenceRight; mono
@[partial_fixpoint_monotone] theorem mono_parseDefaultExpr (h : monotone r) :
    monotone fun x => parseDefaultExpr (r x) := by
  unfold parseDefaultExpr; mono
@[partial_fixpoint_monotone] theorem mono_parseColumnSpec (h : monotone r) (t) :
    monotone fun x => parseColumnSpec (r x) t := by
  unfold parseColumnSpec; mono
@[partial_fixpoint_monotone] theorem mono_columnLoopF_parseSpecs (h : monotone r) (d) (s) :
    monotone fun x => columnLoopF.parseSpecs (r x) d s := by
  unfold columnLoopF.parseSpecs; mono
@[partial_fixpoint_monotone] theorem mono_parseColumnDef (h : monotone r) :
    monotone fun x => parseColumnDef (r x) := by
  unfold parseColumnDef; mono
@[partial_fixpoint_monotone] theorem mono_parseTableConstraintSpec (h : monotone r) (t) :
    monotone fun x => parseTableConstraintSpec (r x) t := by
  unfold parseTableConstraintSpec; mono
@[partial_fixpoint_monotone] theorem mono_parseTableConstraints (h : monotone r) :
    monotone fun x => parseTableConstraints (r x) := by
  unfold parseTableConstraints; mono
@[partial_fixpoint_monotone] theorem mono_parseElement_parseC (h : monotone r) :
    monotone fun x => parseElement.parseC (r x) := by
  unfold parseElement.parseC; mono
@[partial_fixpoint_monotone] theorem mono_parseElement (h : monotone r) (w) :
    monotone fun x => parseElement (r x) w := by
  unfold parseElement; mono
@[partial_fixpoint_monotone] theorem mono_parseElements (h : monotone r) :
    monotone fun x => parseElements (r x) := by
  unfold parseElements; mono
@[partial_fixpoint_monotone] theorem mono_parseCreateTable (h : monotone r) (t) :
    monotone fun x => parseCreateTable (r x) t := by
  unfold parseCreateTable; mono
@[partial_fixpoint_monotone] theorem mono_parseCreateView (h : monotone r) (t) :
    monotone fun x => parseCreateView (r x) t := by
  unfold parseCreateView; mono
@[partial_fixpoint_monotone] theorem mono_parseCreateIndex (h : monotone r) (u) :
    monotone fun x => parseCreateIndex (r x) u := by
  unfold parseCreateIndex; mono
@[partial_fixpoint_monotone] theorem mono_parseCreate (h : monotone r) :
    monotone fun x => parseCreate (r x) := by
  unfold parseCreate; mono
@[partial_fixpoint_monotone] theorem mono_parseDelete (h : monotone r) :
    monotone fun x => parseDelete (r x) := by
  unfold parseDelete; mono
@[partial_fixpoint_monotone] theorem mono_parseUpdate (h : monotone r) :
    monotone fun x => parseUpdate (r x) := by
  unfold parseUpdate; mono
@[partial_fixpoint_monotone] theorem mono_parseInsert (h : monotone r) :
    monotone fun x => parseInsert (r x) := by
  unfold parseInsert; mono
@[partial_fixpoint_monotone] theorem mono_parseAlterColumn (h : monotone r) (t) :
    monotone fun x => parseAlterColumn (r x) t := by
  unfold parseAlterColumn; mono
@[partial_fixpoint_monotone] theorem mono_parseAlterAction (h : monotone r) :
    monotone fun x => parseAlterAction (r x) := by
  unfold parseAlterAction; mono
@[partial_fixpoint_monotone] theorem mono_parseAlter (h : monotone r) :
    monotone fun x => parseAlter (r x) := by
  unfold parseAlter; mono
@[partial_fixpoint_monotone] theorem mono_parseDrop (h : monotone r) :
    monotone fun x => parseDrop (r x) := by
  unfold parseDrop; mono
@[partial_fixpoint_monotone] theorem mono_statementF_parseQueryStmt (h : monotone r) :
    monotone fun x => statementF.parseQueryStmt (r x) := by
  unfold statementF.parseQueryStmt; mono
end

theorem step_le (fns : FloatFns) {r r' : Parsers} (h : Parsers.Le r r') :
    Parsers.Le (Parsers.step fns r) (Parsers.step fns r') where
  subexpr a := by
    have hm : monotone (fun r : Parsers => subexprF r a) := by unfold subexprF; mono
    exact hm _ _ h
  subexprLoop a b := by
    have hm : monotone (fun r : Parsers => subexprLoopF r a b) := by unfold subexprLoopF; mono
    exact hm _ _ h
  prefix_ := by
    have hm : monotone (fun r : Parsers => prefixF fns r) := by unfold prefixF; mono
    exact hm _ _ h
  idParts := by
    have hm : monotone (fun r : Parsers => idPartsF r) := by unfold idPartsF; mono
    exact hm _ _ h
  exprList := by
    have hm : monotone (fun r : Parsers => exprListF r) := by unfold exprListF; mono
    exact hm _ _ h
  listOfIds a := by
    have hm : monotone (fun r : Parsers => listOfIdsF r a) := by unfold listOfIdsF; mono
    exact hm _ _ h
  listOfIdsSep a := by
    have hm : monotone (fun r : Parsers => listOfIdsSepF r a) := by unfold listOfIdsSepF; mono
    exact hm _ _ h
  orderByList := by
    have hm : monotone (fun r : Parsers => orderByListF r) := by unfold orderByListF; mono
    exact hm _ _ h
  caseLoop := by
    have hm : monotone (fun r : Parsers => caseLoopF r) := by unfold caseLoopF; mono
    exact hm _ _ h
  query := by
    have hm : monotone (fun r : Parsers => queryF r) := by unfold queryF; mono
    exact hm _ _ h
  queryBody a := by
    have hm : monotone (fun r : Parsers => queryBodyF r a) := by unfold queryBodyF; mono
    exact hm _ _ h
  bodyLoop a b := by
    have hm : monotone (fun r : Parsers => bodyLoopF r a b) := by unfold bodyLoopF; mono
    exact hm _ _ h
  cteList := by
    have hm : monotone (fun r : Parsers => cteListF r) := by unfold cteListF; mono
    exact hm _ _ h
  selectList := by
    have hm : monotone (fun r : Parsers => selectListF r) := by unfold selectListF; mono
    exact hm _ _ h
  tableRef := by
    have hm : monotone (fun r : Parsers => tableRefF r) := by unfold tableRefF; mono
    exact hm _ _ h
  tableRefLoop a b := by
    have hm : monotone (fun r : Parsers => tableRefLoopF r a b) := by unfold tableRefLoopF; mono
    exact hm _ _ h
  fromRest := by
    have hm : monotone (fun r : Parsers => fromRestF r) := by unfold fromRestF; mono
    exact hm _ _ h
  defaultLoop a := by
    have hm : monotone (fun r : Parsers => defaultLoopF r a) := by unfold defaultLoopF; mono
    exact hm _ _ h
  columnLoop a b c := by
    have hm : monotone (fun r : Parsers => columnLoopF r a b c) := by unfold columnLoopF; mono
    exact hm _ _ h
  columnConstraints := by
    have hm : monotone (fun r : Parsers => columnConstraintsF r) := by unfold columnConstraintsF; mono
    exact hm _ _ h
  elements := by
    have hm : monotone (fun r : Parsers => elementsF r) := by unfold elementsF; mono
    exact hm _ _ h
  tableOptions := by
    have hm : monotone (fun r : Parsers => tableOptionsF r) := by unfold tableOptionsF; mono
    exact hm _ _ h
  assignments := by
    have hm : monotone (fun r : Parsers => assignmentsF r) := by unfold assignmentsF; mono
    exact hm _ _ h
  rows := by
    have hm : monotone (fun r : Parsers => rowsF r) := by unfold rowsF; mono
    exact hm _ _ h
  statement := by
    have hm : monotone (fun r : Parsers => statementF r) := by unfold statementF; mono
    exact hm _ _ h

theorem bot_le (r : Parsers) : Parsers.Le Parsers.bot r := by
  constructor <;> intros <;> exact .oof _

theorem at_le_succ (fns : FloatFns) : ∀ n, Parsers.Le (Parsers.at fns n) (Parsers.at fns (n + 1))
  | 0 => bot_le _
  | n + 1 => step_le fns (at_le_succ fns n)

/-- More budget only turns `oof` into something else. -/
theorem at_mono (fns : FloatFns) {m n : Nat} (h : m ≤ n) : Parsers.Le (Parsers.at fns m) (Parsers.at fns n) := by
  induction h with
  | refl => exact Parsers.Le.refl _
  | step _ ih => exact ih.trans (at_le_succ fns _)

theorem runZ_le {p q : P α} (h : P.Le p q) : ∀ (b a : List Token), p.runZ b a ≠ .oof → q.runZ b a = p.runZ b a := by
  induction h with
  | oof => intro b a h; exact absurd rfl h
  | ret a => intro b a h; rfl
  | err => intro b a h; rfl
  | panic => intro b a h; rfl
  | next _ ih =>
    intro b a h
    cases a with
    | nil => exact ih none b [] h
    | cons t a => exact ih (some t) (t :: b) a h
  | peek _ ih => intro b a h; exact ih _ b a h
  | prev _ ih =>
    intro b a h
    cases b with
    | nil => rfl
    | cons t b => exact ih b (t :: a) h
  | kws _ ih =>
    intro b a h
    simp only [P.runZ] at h ⊢
    split
    · rename_i he; rw [he] at h; exact ih _ _ _ h
    · rename_i he; rw [he] at h; exact ih _ _ _ h

theorem run_le {p q : P α} (h : P.Le p q) (mode : Bool) : ∀ (s : PState), p.run mode s ≠ .oof → q.run mode s = p.run mode s := by
  induction h with
  | oof => intro s h; exact absurd rfl h
  | ret a => intro s h; rfl
  | err => intro s h; rfl
  | panic => intro s h; rfl
  | next _ ih => intro s h; exact ih _ _ h
  | peek _ ih => intro s h; exact ih _ _ h
  | prev _ ih =>
    intro s h
    simp only [P.run] at h ⊢
    split
    · rfl
    · rename_i he; rw [he] at h; exact ih _ h
  | kws _ ih => intro s h; exact ih _ _ h

end Verif
