import Lean.Elab.Tactic
import Verif.Proofs.Wp
import Verif.Proofs.Keyword
/-
Termination: started at index `i` of `T`, no parser function needs more than `3 * (T.length - i) + 3` levels
of calls.
-/
set_option linter.unusedVariables false
set_option linter.unusedSimpArgs false
namespace Verif

/-- The keyword of every word is its upper-cased value, as the tokenizer sets it. -/
def KwOK (T : List Token) : Prop := ∀ t ∈ T, ∀ w, t.tok = .word w → w.keyword = upper w.value

/-- A word at which a column constraint starts. -/
def startsConstraint (t : Token) : Bool :=
  match t.kw? with
  | some .CONSTRAINT | some .NOT | some .UNIQUE | some .PRIMARY | some .REFERENCES | some .CHECK => true
  | _ => false

/-- What the recursive entry points promise with budget `n`: no exhaustion if `n` is large enough for the
remaining tokens, and progress. -/
structure Term (T : List Token) (r : Parsers) (n : Nat) : Prop where
  subexpr : ∀ p i, i ≤ T.length → 3 * (T.length - i) + 2 ≤ n →
    wp T (r.subexpr p) i (fun _ j => i + 1 ≤ j ∧ j ≤ T.length)
  subexprLoop : ∀ p e i, i ≤ T.length → 3 * (T.length - i) + 1 ≤ n →
    wp T (r.subexprLoop p e) i (fun _ j => i ≤ j ∧ j ≤ T.length)
  prefix_ : ∀ i, i ≤ T.length → 3 * (T.length - i) + 1 ≤ n →
    wp T (r.prefix_) i (fun _ j => i + 1 ≤ j ∧ j ≤ T.length)
  idParts : ∀ i, i ≤ T.length → 3 * (T.length - i) + 1 ≤ n →
    wp T (r.idParts) i (fun _ j => i ≤ j ∧ j ≤ T.length)
  exprList : ∀ i, i ≤ T.length → 3 * (T.length - i) + 3 ≤ n →
    wp T (r.exprList) i (fun _ j => i + 1 ≤ j ∧ j ≤ T.length)
  listOfIds : ∀ s i, i ≤ T.length → 3 * (T.length - i) + 1 ≤ n →
    wp T (r.listOfIds s) i (fun x j => i ≤ j ∧ j ≤ T.length ∧ (x.isSome = true → i + 1 ≤ j))
  listOfIdsSep : ∀ s i, i ≤ T.length → 3 * (T.length - i) + 1 ≤ n →
    wp T (r.listOfIdsSep s) i (fun _ j => i ≤ j ∧ j ≤ T.length)
  orderByList : ∀ i, i ≤ T.length → 3 * (T.length - i) + 3 ≤ n →
    wp T (r.orderByList) i (fun _ j => i + 1 ≤ j ∧ j ≤ T.length)
  caseLoop : ∀ i, i ≤ T.length → 3 * (T.length - i) + 3 ≤ n →
    wp T (r.caseLoop) i (fun _ j => i + 1 ≤ j ∧ j ≤ T.length)
  query : ∀ i, i ≤ T.length → 3 * (T.length - i) + 2 ≤ n →
    wp T (r.query) i (fun _ j => i + 1 ≤ j ∧ j ≤ T.length)
  queryBody : ∀ p i, i ≤ T.length → 3 * (T.length - i) + 1 ≤ n →
    wp T (r.queryBody p) i (fun _ j => i + 1 ≤ j ∧ j ≤ T.length)
  bodyLoop : ∀ p e i, i ≤ T.length → 3 * (T.length - i) + 1 ≤ n →
    wp T (r.bodyLoop p e) i (fun _ j => i ≤ j ∧ j ≤ T.length)
  cteList : ∀ i, i ≤ T.length → 3 * (T.length - i) + 1 ≤ n →
    wp T (r.cteList) i (fun _ j => i + 1 ≤ j ∧ j ≤ T.length)
  selectList : ∀ i, i ≤ T.length → 3 * (T.length - i) + 3 ≤ n →
    wp T (r.selectList) i (fun _ j => i + 1 ≤ j ∧ j ≤ T.length)
  tableRef : ∀ i, i ≤ T.length → 3 * (T.length - i) + 2 ≤ n →
    wp T (r.tableRef) i (fun _ j => i + 1 ≤ j ∧ j ≤ T.length)
  tableRefLoop : ∀ l e i, i ≤ T.length → 3 * (T.length - i) + 1 ≤ n →
    wp T (r.tableRefLoop l e) i (fun _ j => i ≤ j ∧ j ≤ T.length)
  fromRest : ∀ i, i ≤ T.length → 3 * (T.length - i) + 1 ≤ n →
    wp T (r.fromRest) i (fun _ j => i ≤ j ∧ j ≤ T.length)
  defaultLoop : ∀ e i, i ≤ T.length → 3 * (T.length - i) + 1 ≤ n →
    wp T (r.defaultLoop e) i (fun _ j => i ≤ j ∧ j ≤ T.length)
  columnLoop : ∀ d s a i, i ≤ T.length → 3 * (T.length - i) + 2 ≤ n →
    wp T (r.columnLoop d s a) i (fun _ j => i ≤ j ∧ j ≤ T.length)
  columnConstraints : ∀ i, i ≤ T.length → 3 * (T.length - i) + 1 ≤ n →
    wp T (r.columnConstraints) i (fun x j => i ≤ j ∧ j ≤ T.length ∧ ((∃ t, T[i]? = some t ∧ startsConstraint t = true) → i + 1 ≤ j))
  elements : ∀ i, i ≤ T.length → 3 * (T.length - i) + 1 ≤ n →
    wp T (r.elements) i (fun _ j => i + 1 ≤ j ∧ j ≤ T.length)
  tableOptions : ∀ i, i ≤ T.length → 3 * (T.length - i) + 1 ≤ n →
    wp T (r.tableOptions) i (fun _ j => i ≤ j ∧ j ≤ T.length)
  assignments : ∀ i, i ≤ T.length → 3 * (T.length - i) + 1 ≤ n →
    wp T (r.assignments) i (fun _ j => i + 1 ≤ j ∧ j ≤ T.length)
  rows : ∀ i, i ≤ T.length → 3 * (T.length - i) + 1 ≤ n →
    wp T (r.rows) i (fun _ j => i + 1 ≤ j ∧ j ≤ T.length)
  statement : ∀ i, i ≤ T.length → 3 * (T.length - i) + 3 ≤ n →
    wp T (r.statement) i (fun _ j => i + 1 ≤ j ∧ j ≤ T.length)

section
variable {T : List Token} {r : Parsers} {n i : Nat}

open Lean Elab Tactic Meta in
/-- One step of symbolic execution: apply the rule for the head of the program. -/
elab "wp_step" : tactic => do
  let g ← getMainGoal
  g.withContext do
  let tgt ← instantiateMVars (← g.getType)
  let tgt := tgt.consumeMData
  unless tgt.isAppOf ``Verif.wp do throwError "not wp"
  let args := tgt.getAppArgs
  let p := args[args.size - 3]!.consumeMData
  let .const c _ := p.getAppFn | throwError "no head"
  let direct (n : Name) : TacticM Unit := do
    let gs ← g.apply (← mkConstWithFreshMVarLevels n)
    replaceMainGoal gs
  let viaMono (n : Name) : TacticM Unit := do
    let [h, hq] ← g.apply (← mkConstWithFreshMVarLevels ``Verif.wp_mono) (cfg := { newGoals := .nonDependentOnly })
      | do
        throwError "wp_mono"
    let gs ← h.apply (← mkConstWithFreshMVarLevels n)
    let mut rest : List MVarId := []
    for x in gs do
      if ← x.isAssigned then continue
      let ty ← instantiateMVars (← x.getType)
      if ty.isAppOf `Verif.Term then
        x.withContext x.assumption
      else rest := rest ++ [x]
    replaceMainGoal (rest ++ [hq])
  if c == ``Bind.bind then
    let m := p.getAppArgs[4]!
    if m.consumeMData.isAppOf ``Bind.bind then direct ``Verif.wp_cut else direct ``Verif.wp_bind
  else if c == ``Pure.pure then direct ``Verif.wp_ret
  else if c == ``Verif.P.err then direct ``Verif.wp_err
  else if c == ``Verif.P.panic then direct ``Verif.wp_panic
  else match c with
    | .str (.str .anonymous "Verif") s =>
      let env ← getEnv
      let w := (`Verif).str ("wp_" ++ s)
      let t := (`Verif).str ("term_" ++ s)
      if env.contains w then direct w
      else if env.contains t then viaMono t
      else throwError "no rule for {c}"
    | .str (.str (.str .anonymous "Verif") "Parsers") s => viaMono (`Verif.Term |>.str s)
    | .str (.str (.str .anonymous "Verif") f) s => viaMono ((`Verif).str ("term_" ++ f ++ "_" ++ s))
    | _ => throwError "no rule for {c}"

macro "wp_clean" : tactic => `(tactic|
  simp only [↓reduceIte, Bool.true_or, Bool.or_true, Bool.false_or, Bool.or_false, Bool.false_eq_true,
    Option.isSome_some, Option.isSome_none, Option.isSome_map, false_implies, true_implies, and_true, true_and])

macro "wp_loop" : tactic => `(tactic| repeat' (first
  | intro _
  | wp_step
  | omega
  | dsimp only
  | wp_clean
  | split))

theorem term_parseIdentifier (hi : i ≤ T.length) : wp T (parseIdentifier) i (fun _ j => i + 1 ≤ j ∧ j ≤ T.length) := by
  unfold parseIdentifier
  wp_loop

theorem term_parseLiteralInt (hi : i ≤ T.length) : wp T (parseLiteralInt) i (fun _ j => i + 1 ≤ j ∧ j ≤ T.length) := by
  unfold parseLiteralInt
  wp_loop

theorem term_parseOptionalPrecision (hi : i ≤ T.length) : wp T (parseOptionalPrecision) i (fun _ j => i ≤ j ∧ j ≤ T.length) := by
  unfold parseOptionalPrecision
  wp_loop

theorem term_parseOptionalPrecisionScale (hi : i ≤ T.length) : wp T (parseOptionalPrecisionScale) i (fun _ j => i ≤ j ∧ j ≤ T.length) := by
  unfold parseOptionalPrecisionScale
  wp_loop

theorem term_parseMyUnsigned (hi : i ≤ T.length) : wp T (parseMyUnsigned) i (fun _ j => i ≤ j ∧ j ≤ T.length) := by
  unfold parseMyUnsigned
  wp_loop

theorem term_parseOptionalAlias (r) (hi : i ≤ T.length) : wp T (parseOptionalAlias r) i (fun _ j => i ≤ j ∧ j ≤ T.length) := by
  unfold parseOptionalAlias
  wp_loop

theorem term_parseValue (fns) (hi : i ≤ T.length) : wp T (parseValue fns) i (fun _ j => i + 1 ≤ j ∧ j ≤ T.length) := by
  unfold parseValue
  wp_loop

theorem term_getNextPrecedence (hi : i ≤ T.length) : wp T (getNextPrecedence) i (fun _ j => i = j) := by
  unfold getNextPrecedence
  wp_loop

theorem term_infixOp (t) (hi : i ≤ T.length) : wp T (infixOp t) i (fun _ j => i ≤ j ∧ j ≤ T.length) := by
  unfold infixOp
  wp_loop

theorem term_parseWindowFrameBound (hi : i ≤ T.length) : wp T (parseWindowFrameBound) i (fun _ j => i ≤ j ∧ j ≤ T.length) := by
  unfold parseWindowFrameBound
  wp_loop

theorem term_parseWindowFrame (hi : i ≤ T.length) : wp T (parseWindowFrame) i (fun _ j => i ≤ j ∧ j ≤ T.length) := by
  unfold parseWindowFrame
  wp_loop

theorem term_parseLimit (hi : i ≤ T.length) : wp T (parseLimit) i (fun _ j => i ≤ j ∧ j ≤ T.length) := by
  unfold parseLimit
  wp_loop

theorem term_parseJoinType (hi : i ≤ T.length) : wp T (parseJoinType) i (fun _ j => i ≤ j ∧ j ≤ T.length) := by
  unfold parseJoinType
  wp_loop

theorem term_parseOptionName (hi : i ≤ T.length) : wp T (parseOptionName) i (fun _ j => i ≤ j ∧ j ≤ T.length) := by
  unfold parseOptionName
  wp_loop

theorem term_parseTableOption (hi : i ≤ T.length) : wp T (parseTableOption) i (fun _ j => i + 1 ≤ j ∧ j ≤ T.length) := by
  unfold parseTableOption
  wp_loop

theorem term_parseCascade (hi : i ≤ T.length) : wp T (parseCascade) i (fun _ j => i ≤ j ∧ j ≤ T.length) := by
  unfold parseCascade
  wp_loop

theorem term_parseDataType_parseChar (t) (hi : i ≤ T.length) : wp T (parseDataType.parseChar t) i (fun _ j => i ≤ j ∧ j ≤ T.length) := by
  unfold parseDataType.parseChar
  wp_loop

theorem term_parseDataType_parseTimeZone (hi : i ≤ T.length) : wp T (parseDataType.parseTimeZone) i (fun _ j => i ≤ j ∧ j ≤ T.length) := by
  unfold parseDataType.parseTimeZone
  wp_loop

theorem term_parseListOfIds (H : Term T r n) (s) (hi : i ≤ T.length) (hn : 3 * (T.length - i) + 1 ≤ n) :
    wp T (parseListOfIds r s) i (fun _ j => i + 1 ≤ j ∧ j ≤ T.length) := by
  unfold parseListOfIds
  refine wp_bind (wp_mono (H.listOfIds s i hi (by omega)) ?_)
  rintro x j ⟨h1, h2, h3⟩
  cases x with
  | none => exact wp_err
  | some l => exact wp_ret ⟨h3 rfl, h2⟩

theorem term_parseColumnNames (H : Term T r n) (hi : i ≤ T.length) (hn : 3 * (T.length - i) + 1 ≤ n) :
    wp T (parseColumnNames r) i (fun _ j => i + 1 ≤ j ∧ j ≤ T.length) := by
  unfold parseColumnNames
  wp_loop

theorem term_parseObjectName (H : Term T r n) (hi : i ≤ T.length) (hn : 3 * (T.length - i) + 1 ≤ n) :
    wp T (parseObjectName r) i (fun _ j => i + 1 ≤ j ∧ j ≤ T.length) := by
  unfold parseObjectName
  wp_loop

theorem term_parseDataType (H : Term T r n) (hi : i ≤ T.length) (hn : 3 * (T.length - i) + 1 ≤ n) :
    wp T (parseDataType r) i (fun _ j => i + 1 ≤ j ∧ j ≤ T.length) := by
  unfold parseDataType
  wp_loop

theorem term_parseExpr (H : Term T r n) (hi : i ≤ T.length) (hn : 3 * (T.length - i) + 2 ≤ n) :
    wp T (parseExpr r) i (fun _ j => i + 1 ≤ j ∧ j ≤ T.length) := by
  unfold parseExpr
  wp_loop

theorem term_parseIn (H : Term T r n) (e) (g) (hi : i ≤ T.length) (hn : 3 * (T.length - i) ≤ n) :
    wp T (parseIn r e g) i (fun _ j => i + 1 ≤ j ∧ j ≤ T.length) := by
  unfold parseIn
  wp_loop

theorem term_parseBetween (H : Term T r n) (e) (g) (hi : i ≤ T.length) (hn : 3 * (T.length - i) + 1 ≤ n) :
    wp T (parseBetween r e g) i (fun _ j => i + 1 ≤ j ∧ j ≤ T.length) := by
  unfold parseBetween
  wp_loop

theorem term_parseNotInBetween (H : Term T r n) (e) (hi : i ≤ T.length) (hn : 3 * (T.length - i) + 1 ≤ n) :
    wp T (parseNotInBetween r e) i (fun _ j => i ≤ j ∧ j ≤ T.length) := by
  unfold parseNotInBetween
  wp_loop

theorem term_parseInfix (H : Term T r n) (e) (p) (hi : i ≤ T.length) (hn : 3 * (T.length - i) ≤ n) :
    wp T (parseInfix r e p) i (fun _ j => i + 1 ≤ j ∧ j ≤ T.length) := by
  unfold parseInfix
  wp_loop

theorem term_parseOptionalArgs (H : Term T r n) (hi : i ≤ T.length) (hn : 3 * (T.length - i) + 3 ≤ n) :
    wp T (parseOptionalArgs r) i (fun _ j => i ≤ j ∧ j ≤ T.length) := by
  unfold parseOptionalArgs
  wp_loop

theorem term_parseOver (H : Term T r n) (hi : i ≤ T.length) (hn : 3 * (T.length - i) ≤ n) :
    wp T (parseOver r) i (fun _ j => i + 1 ≤ j ∧ j ≤ T.length) := by
  unfold parseOver
  wp_loop

theorem term_parseFunction (H : Term T r n) (m) (hi : i ≤ T.length) (hn : 3 * (T.length - i) ≤ n) :
    wp T (parseFunction r m) i (fun _ j => i + 1 ≤ j ∧ j ≤ T.length) := by
  unfold parseFunction
  wp_loop

theorem term_parseCaseExpression (H : Term T r n) (hi : i ≤ T.length) (hn : 3 * (T.length - i) ≤ n) :
    wp T (parseCaseExpression r) i (fun _ j => i + 1 ≤ j ∧ j ≤ T.length) := by
  unfold parseCaseExpression
  wp_loop

theorem term_parseCastExpression (H : Term T r n) (hi : i ≤ T.length) (hn : 3 * (T.length - i) ≤ n) :
    wp T (parseCastExpression r) i (fun _ j => i + 1 ≤ j ∧ j ≤ T.length) := by
  unfold parseCastExpression
  wp_loop

theorem term_parseExistsExpression (H : Term T r n) (t) (hi : i ≤ T.length) (hn : 3 * (T.length - i) ≤ n) :
    wp T (parseExistsExpression r t) i (fun _ j => i + 1 ≤ j ∧ j ≤ T.length) := by
  unfold parseExistsExpression
  wp_loop

theorem term_parseName (H : Term T r n) (t) (w) (hi : i ≤ T.length) (hn : 3 * (T.length - i) + 1 ≤ n) :
    wp T (parseName r t w) i (fun _ j => i ≤ j ∧ j ≤ T.length) := by
  unfold parseName
  wp_loop

theorem term_parseParen (H : Term T r n) (t) (hi : i ≤ T.length) (hn : 3 * (T.length - i) + 2 ≤ n) :
    wp T (parseParen r t) i (fun _ j => i ≤ j ∧ j ≤ T.length) := by
  unfold parseParen
  wp_loop

theorem term_parseNot (H : Term T r n) (t) (hi : i ≤ T.length) (hn : 3 * (T.length - i) + 2 ≤ n) :
    wp T (parseNot r t) i (fun _ j => i ≤ j ∧ j ≤ T.length) := by
  unfold parseNot
  wp_loop

theorem term_parseFromClause (H : Term T r n) (hi : i ≤ T.length) (hn : 3 * (T.length - i) + 2 ≤ n) :
    wp T (parseFromClause r) i (fun _ j => i + 1 ≤ j ∧ j ≤ T.length) := by
  unfold parseFromClause
  wp_loop

theorem term_parseSelect (H : Term T r n) (p) (hi : i ≤ T.length) (hn : 3 * (T.length - i) + 3 ≤ n) :
    wp T (parseSelect r p) i (fun _ j => i + 1 ≤ j ∧ j ≤ T.length) := by
  unfold parseSelect
  wp_loop

theorem term_parseTableFactor (H : Term T r n) (hi : i ≤ T.length) (hn : 3 * (T.length - i) + 1 ≤ n) :
    wp T (parseTableFactor r) i (fun _ j => i + 1 ≤ j ∧ j ≤ T.length) := by
  unfold parseTableFactor
  wp_loop

theorem term_parseJoinSpec (H : Term T r n) (hi : i ≤ T.length) (hn : 3 * (T.length - i) ≤ n) :
    wp T (parseJoinSpec r) i (fun _ j => i + 1 ≤ j ∧ j ≤ T.length) := by
  unfold parseJoinSpec
  wp_loop

theorem term_parseQualifiedJoin (H : Term T r n) (hi : i ≤ T.length) (hn : 3 * (T.length - i) + 2 ≤ n) :
    wp T (parseQualifiedJoin r) i (fun _ j => i ≤ j ∧ j ≤ T.length) := by
  unfold parseQualifiedJoin
  wp_loop

theorem term_parseTableReferenceRight (H : Term T r n) (hi : i ≤ T.length) (hn : 3 * (T.length - i) ≤ n) :
    wp T (parseTableReferenceRight r) i (fun x j => i ≤ j ∧ j ≤ T.length ∧ (x.isSome = true → i + 1 ≤ j)) := by
  unfold parseTableReferenceRight
  wp_loop

theorem term_parseDefaultExpr (H : Term T r n) (hi : i ≤ T.length) (hn : 3 * (T.length - i) + 1 ≤ n) :
    wp T (parseDefaultExpr r) i (fun _ j => i + 1 ≤ j ∧ j ≤ T.length) := by
  unfold parseDefaultExpr
  wp_loop

theorem term_parseColumnSpec (H : Term T r n) (t) (hi : i ≤ T.length) (hn : 3 * (T.length - i) ≤ n) :
    wp T (parseColumnSpec r t) i (fun x j => i ≤ j ∧ j ≤ T.length ∧ (x.isSome = true → i + 1 ≤ j)) := by
  unfold parseColumnSpec
  wp_loop

theorem term_parseColumnDef (H : Term T r n) (hi : i ≤ T.length) (hn : 3 * (T.length - i) ≤ n) :
    wp T (parseColumnDef r) i (fun _ j => i + 1 ≤ j ∧ j ≤ T.length) := by
  unfold parseColumnDef
  wp_loop

theorem term_parseTableConstraintSpec (H : Term T r n) (t) (hi : i ≤ T.length) (hn : 3 * (T.length - i) ≤ n) :
    wp T (parseTableConstraintSpec r t) i (fun _ j => i + 1 ≤ j ∧ j ≤ T.length) := by
  unfold parseTableConstraintSpec
  wp_loop

theorem term_parseTableConstraints (H : Term T r n) (hi : i ≤ T.length) (hn : 3 * (T.length - i) ≤ n) :
    wp T (parseTableConstraints r) i (fun _ j => i + 1 ≤ j ∧ j ≤ T.length) := by
  unfold parseTableConstraints
  wp_loop

theorem term_parseElement_parseC (H : Term T r n) (hi : i ≤ T.length) (hn : 3 * (T.length - i) ≤ n) :
    wp T (parseElement.parseC r) i (fun _ j => i + 1 ≤ j ∧ j ≤ T.length) := by
  unfold parseElement.parseC
  wp_loop

theorem term_parseElement (H : Term T r n) (w) (hi : i ≤ T.length) (h1 : 1 ≤ i) (hn : 3 * (T.length - (i - 1)) ≤ n) :
    wp T (parseElement r w) i (fun _ j => i ≤ j ∧ j ≤ T.length) := by
  unfold parseElement
  wp_loop

theorem term_parseElements (H : Term T r n) (hi : i ≤ T.length) (hn : 3 * (T.length - i) ≤ n) :
    wp T (parseElements r) i (fun _ j => i ≤ j ∧ j ≤ T.length) := by
  unfold parseElements
  wp_loop

theorem term_parseCreateTable (H : Term T r n) (t) (hi : i ≤ T.length) (hn : 3 * (T.length - i) + 1 ≤ n) :
    wp T (parseCreateTable r t) i (fun _ j => i ≤ j ∧ j ≤ T.length) := by
  unfold parseCreateTable
  wp_loop

theorem term_parseCreateView (H : Term T r n) (t) (hi : i ≤ T.length) (hn : 3 * (T.length - i) + 1 ≤ n) :
    wp T (parseCreateView r t) i (fun _ j => i ≤ j ∧ j ≤ T.length) := by
  unfold parseCreateView
  wp_loop

theorem term_parseCreateIndex (H : Term T r n) (u) (hi : i ≤ T.length) (hn : 3 * (T.length - i) + 1 ≤ n) :
    wp T (parseCreateIndex r u) i (fun _ j => i ≤ j ∧ j ≤ T.length) := by
  unfold parseCreateIndex
  wp_loop

theorem term_parseCreate (H : Term T r n) (hi : i ≤ T.length) (hn : 3 * (T.length - i) ≤ n) :
    wp T (parseCreate r) i (fun _ j => i + 1 ≤ j ∧ j ≤ T.length) := by
  unfold parseCreate
  wp_loop

theorem term_parseDelete (H : Term T r n) (hi : i ≤ T.length) (hn : 3 * (T.length - i) ≤ n) :
    wp T (parseDelete r) i (fun _ j => i + 1 ≤ j ∧ j ≤ T.length) := by
  unfold parseDelete
  wp_loop

theorem term_parseUpdate (H : Term T r n) (hi : i ≤ T.length) (hn : 3 * (T.length - i) ≤ n) :
    wp T (parseUpdate r) i (fun _ j => i + 1 ≤ j ∧ j ≤ T.length) := by
  unfold parseUpdate
  wp_loop

theorem term_parseInsert (H : Term T r n) (hi : i ≤ T.length) (hn : 3 * (T.length - i) ≤ n) :
    wp T (parseInsert r) i (fun _ j => i + 1 ≤ j ∧ j ≤ T.length) := by
  unfold parseInsert
  wp_loop

theorem term_parseAlterColumn (H : Term T r n) (t) (hi : i ≤ T.length) (hn : 3 * (T.length - i) ≤ n) :
    wp T (parseAlterColumn r t) i (fun _ j => i ≤ j ∧ j ≤ T.length) := by
  unfold parseAlterColumn
  wp_loop

theorem term_parseAlterAction (H : Term T r n) (hi : i ≤ T.length) (hn : 3 * (T.length - i) ≤ n) :
    wp T (parseAlterAction r) i (fun _ j => i ≤ j ∧ j ≤ T.length) := by
  unfold parseAlterAction
  wp_loop

theorem term_parseAlter (H : Term T r n) (hi : i ≤ T.length) (hn : 3 * (T.length - i) ≤ n) :
    wp T (parseAlter r) i (fun _ j => i + 1 ≤ j ∧ j ≤ T.length) := by
  unfold parseAlter
  wp_loop

theorem term_parseDrop (H : Term T r n) (hi : i ≤ T.length) (hn : 3 * (T.length - i) ≤ n) :
    wp T (parseDrop r) i (fun _ j => i + 1 ≤ j ∧ j ≤ T.length) := by
  unfold parseDrop
  wp_loop

theorem term_statementF_parseQueryStmt (H : Term T r n) (hi : i ≤ T.length) (h1 : 1 ≤ i) (hn : 3 * (T.length - (i - 1)) + 2 ≤ n) :
    wp T (statementF.parseQueryStmt r) i (fun _ j => i ≤ j ∧ j ≤ T.length) := by
  unfold statementF.parseQueryStmt
  wp_loop

theorem kwOf_kw {t : Token} {k : KW} (h : t.kw? = some k) : ∃ w, t.tok = .word w ∧ kwOf w.keyword = some k := by
  unfold Token.kw? Token.word? at h
  split at h
  · exact ⟨_, by assumption, by simpa using h⟩
  · simp at h

theorem upper_fold {c k : Char} (h : upperC c = k) (hk : 'A' ≤ k ∧ k ≤ 'Z' ∧ k ≠ 'I') : foldC c = foldC k := by
  subst h
  unfold upperC at hk ⊢
  by_cases h1 : 'a' ≤ c ∧ c ≤ 'z'
  · rw [if_pos h1]
    have h2 : 97 ≤ c.toNat ∧ c.toNat ≤ 122 := h1
    have h3 : ∀ n : Fin 26, foldC (Char.ofNat (n.1 + 97)) = foldC (Char.ofNat (n.1 + 97 - 32)) := by decide
    have h4 := h3 ⟨c.toNat - 97, by omega⟩
    simp only at h4
    rw [show c.toNat - 97 + 97 = c.toNat by omega, Char.ofNat_toNat] at h4
    exact h4
  · rw [if_neg h1] at hk ⊢
    by_cases h2 : c = '\u0131'
    · rw [if_pos h2] at hk; simp at hk
    · rw [if_neg h2] at hk ⊢
      by_cases h3 : c = '\u017f'
      · rw [if_pos h3]; subst h3; decide
      · rw [if_neg h3]

/-- A word whose keyword is `DEFAULT` is recognised by `parseKeyword("DEFAULT")`. -/
theorem default_matches (hk : KwOK T) {t : Token} (ht : T[i]? = some t) (h : t.kw? = some .DEFAULT) :
    t.matchesKw KW.DEFAULT.str = true := by
  obtain ⟨w, hw, hkw⟩ := kwOf_kw h
  have h1 := hk t (List.mem_of_getElem? ht) w hw
  rw [kwOf_eq_some] at hkw
  rw [hkw] at h1
  simp only [Token.matchesKw, hw, equalFold, beq_iff_eq]
  have h2 : ∀ (v s : Str), s = upper v → (∀ k ∈ s, 'A' ≤ k ∧ k ≤ 'Z' ∧ k ≠ 'I') →
      v.map foldC = s.map foldC := by
    intro v
    induction v with
    | nil => intro s h _; subst h; rfl
    | cons c v ih =>
      intro s h hs
      subst h
      simp only [upper, List.map_cons]
      rw [← upper_fold rfl (hs _ (by simp [upper]))]
      exact congrArg _ (ih _ rfl fun k hk => hs k (by simp [upper] at hk ⊢; exact .inr hk))
  exact h2 _ _ h1 (by decide)

theorem wp_and {p : P α} {Q Q' : α → Nat → Prop} (h : wp T p i Q)
    (h' : ∀ x j, p.runI T i = .ok x j → Q' x j) : wp T p i fun x j => Q x j ∧ Q' x j := by
  unfold wp at h ⊢
  cases hp : p.runI T i with
  | ok x j => rw [hp] at h; exact ⟨h, h' x j hp⟩
  | err => trivial
  | panic => trivial
  | oof => rw [hp] at h; exact h

theorem runI_bind_ok {p : P α} {f : α → P β} {x : β} {j : Nat} (h : (p >>= f).runI T i = .ok x j) :
    ∃ a k, p.runI T i = .ok a k ∧ (f a).runI T k = .ok x j := by
  rw [P.bind_eq, runI_bind] at h
  split at h
  · exact ⟨_, _, by assumption, h⟩
  all_goals cases h

/-- The switch of `parseColumnConstraints` falls through only for words that start no constraint. -/
theorem parseColumnSpec_none (r : Parsers) (t : Token) : ∀ x j, (parseColumnSpec r t).runI T i = .ok x j →
    (x = none → t.kw? ≠ some .NOT ∧ t.kw? ≠ some .UNIQUE ∧ t.kw? ≠ some .PRIMARY ∧
      t.kw? ≠ some .REFERENCES ∧ t.kw? ≠ some .CHECK) := by
  intro x j h hx
  subst hx
  unfold parseColumnSpec at h
  split at h
  · obtain ⟨_, _, _, h⟩ := runI_bind_ok h
    obtain ⟨_, _, _, h⟩ := runI_bind_ok h
    cases h
  · obtain ⟨_, _, _, h⟩ := runI_bind_ok h
    cases h
  · obtain ⟨_, _, _, h⟩ := runI_bind_ok h
    obtain ⟨_, _, _, h⟩ := runI_bind_ok h
    cases h
  · obtain ⟨_, _, _, h⟩ := runI_bind_ok h
    obtain ⟨_, _, _, h⟩ := runI_bind_ok h
    obtain ⟨_, _, _, h⟩ := runI_bind_ok h
    obtain ⟨_, _, _, h⟩ := runI_bind_ok h
    obtain ⟨_, _, _, h⟩ := runI_bind_ok h
    cases h
  · obtain ⟨_, _, _, h⟩ := runI_bind_ok h
    obtain ⟨_, _, _, h⟩ := runI_bind_ok h
    obtain ⟨_, _, _, h⟩ := runI_bind_ok h
    obtain ⟨_, _, _, h⟩ := runI_bind_ok h
    cases h
  · exact ⟨by assumption, by assumption, by assumption, by assumption, by assumption⟩

theorem term_step (fns : FloatFns) (hk : KwOK T) (H : Term T r n) : Term T (Parsers.step fns r) (n + 1) where
  subexpr := by
    intro p i hi hn
    show wp T (subexprF r p) i _
    unfold subexprF
    wp_loop
  subexprLoop := by
    intro p e i hi hn
    show wp T (subexprLoopF r p e) i _
    unfold subexprLoopF
    wp_loop
  prefix_ := by
    intro  i hi hn
    show wp T (prefixF fns r ) i _
    unfold prefixF
    wp_loop
  idParts := by
    intro  i hi hn
    show wp T (idPartsF r ) i _
    unfold idPartsF
    wp_loop
  exprList := by
    intro  i hi hn
    show wp T (exprListF r ) i _
    unfold exprListF
    wp_loop
  listOfIds := by
    intro s i hi hn
    show wp T (listOfIdsF r s) i _
    unfold listOfIdsF
    wp_loop
  listOfIdsSep := by
    intro s i hi hn
    show wp T (listOfIdsSepF r s) i _
    unfold listOfIdsSepF
    wp_loop
  orderByList := by
    intro  i hi hn
    show wp T (orderByListF r ) i _
    unfold orderByListF
    wp_loop
  caseLoop := by
    intro  i hi hn
    show wp T (caseLoopF r ) i _
    unfold caseLoopF
    wp_loop
  query := by
    intro  i hi hn
    show wp T (queryF r ) i _
    unfold queryF
    wp_loop
  queryBody := by
    intro p i hi hn
    show wp T (queryBodyF r p) i _
    unfold queryBodyF
    wp_loop
  bodyLoop := by
    intro p e i hi hn
    show wp T (bodyLoopF r p e) i _
    unfold bodyLoopF
    wp_loop
  cteList := by
    intro  i hi hn
    show wp T (cteListF r ) i _
    unfold cteListF
    wp_loop
  selectList := by
    intro  i hi hn
    show wp T (selectListF r ) i _
    unfold selectListF
    wp_loop
  tableRef := by
    intro  i hi hn
    show wp T (tableRefF r ) i _
    unfold tableRefF
    wp_loop
  tableRefLoop := by
    intro l e i hi hn
    show wp T (tableRefLoopF r l e) i _
    unfold tableRefLoopF
    refine wp_bind (wp_mono (term_parseTableReferenceRight H hi (by omega)) ?_)
    rintro x j ⟨h1, h2, h3⟩
    cases x with
    | none => wp_loop
    | some x => have := h3 rfl; cases x <;> wp_loop
  fromRest := by
    intro  i hi hn
    show wp T (fromRestF r ) i _
    unfold fromRestF
    wp_loop
  defaultLoop := by
    intro e i hi hn
    show wp T (defaultLoopF r e) i _
    unfold defaultLoopF
    wp_loop
  columnLoop := by
    intro d s a i hi hn
    show wp T (columnLoopF r d s a) i _
    unfold columnLoopF
    refine wp_bind (wp_peekToken ?_ ?_)
    · intro t ht hlt
      have hspecs : startsConstraint t = true →
          wp T (columnLoopF.parseSpecs r d a) i fun _ j => i ≤ j ∧ j ≤ T.length := by
        intro hs
        unfold columnLoopF.parseSpecs
        refine wp_bind (wp_mono (H.columnConstraints i hi (by omega)) ?_)
        rintro x j ⟨h1, h2, h3⟩
        have := h3 ⟨t, ht, hs⟩
        wp_loop
      dsimp only
      split
      · rename_i hd
        refine wp_bind (wp_kw ?_ ?_)
        · wp_loop
        · intro hno
          have := hno t ht
          rw [default_matches hk ht hd] at this
          simp at this
      all_goals first
        | (exact hspecs (by simp [startsConstraint, *]))
        | wp_loop
    · wp_loop
  columnConstraints := by
    intro  i hi hn
    show wp T (columnConstraintsF r ) i _
    unfold columnConstraintsF
    refine wp_bind (wp_peekToken ?_ ?_)
    · intro t ht hlt
      dsimp only
      by_cases hc : t.kw? = some .CONSTRAINT
      · rw [hc]
        dsimp only
        refine wp_bind (wp_mono (Q := fun _ j => i + 1 ≤ j ∧ j ≤ T.length) ?_ ?_)
        · wp_loop
        · rintro name j ⟨h1, h2⟩
          refine wp_mono (Q := fun _ j => i + 1 ≤ j ∧ j ≤ T.length) ?_ ?_
          · refine wp_bind (wp_mustPeek ?_)
            intro t' _ _
            split
            · wp_loop
            · refine wp_bind (wp_mono (term_parseColumnSpec H t' h2 (by omega)) ?_)
              rintro x k ⟨h3, h4, h5⟩
              cases x with
              | none => wp_loop
              | some x =>
                have := h5 rfl
                refine wp_bind (wp_mono (H.columnConstraints k h4 (by omega)) ?_)
                wp_loop
          · rintro x k ⟨h3, h4⟩
            exact ⟨by omega, h4, fun _ => h3⟩
      · refine wp_bind ?_
        split
        · contradiction
        refine wp_ret (wp_bind (wp_mustPeek ?_))
        intro t' ht' _
        rw [ht] at ht'
        cases ht'
        split
        · rename_i hw
          refine wp_ret ⟨Nat.le_refl _, hi, ?_⟩
          rintro ⟨t', h1, h2⟩
          rw [ht] at h1
          cases h1
          simp [startsConstraint, Token.kw?, hw] at h2
        · refine wp_bind (wp_mono (wp_and (term_parseColumnSpec H t hi (by omega)) (parseColumnSpec_none r t)) ?_)
          rintro x k ⟨⟨h3, h4, h5⟩, h6⟩
          cases x with
          | none =>
            refine wp_ret ⟨h3, h4, ?_⟩
            rintro ⟨t', h1, h2⟩
            rw [ht] at h1
            cases h1
            have h6 := h6 rfl
            unfold startsConstraint at h2
            split at h2 <;> simp_all
          | some x =>
            have := h5 rfl
            refine wp_bind (wp_mono (H.columnConstraints k h4 (by omega)) ?_)
            rintro y l ⟨h7, h8, _⟩
            exact wp_ret ⟨by omega, h8, fun _ => by omega⟩
    · intro hl
      refine wp_ret ⟨Nat.le_refl _, hi, ?_⟩
      rintro ⟨t, ht, _⟩
      rw [List.getElem?_eq_none hl] at ht
      simp at ht
  elements := by
    intro  i hi hn
    show wp T (elementsF r ) i _
    unfold elementsF
    wp_loop
  tableOptions := by
    intro  i hi hn
    show wp T (tableOptionsF r ) i _
    unfold tableOptionsF
    wp_loop
  assignments := by
    intro  i hi hn
    show wp T (assignmentsF r ) i _
    unfold assignmentsF
    wp_loop
  rows := by
    intro  i hi hn
    show wp T (rowsF r ) i _
    unfold rowsF
    wp_loop
  statement := by
    intro  i hi hn
    show wp T (statementF r ) i _
    unfold statementF
    wp_loop

/-- Every program built with `n` levels terminates on input that `3 * T.length` fits in. -/
theorem term_at (fns : FloatFns) (hk : KwOK T) : ∀ n, Term T (Parsers.at fns n) n
  | 0 => by constructor <;> intros <;> omega
  | n + 1 => term_step fns hk (term_at fns hk n)

/-- `parseSQLLoop` needs one iteration more than there are tokens left. -/
theorem term_parseSQLLoop (H : Term T r n) (mode : Bool) : ∀ (m : Nat) (e : Bool) (i : Nat), i ≤ T.length →
    3 * (T.length - i) + 3 ≤ n → T.length - i + 1 ≤ m →
    wp T (parseSQLLoop mode r m e) i fun _ j => i ≤ j ∧ j ≤ T.length
  | 0, _, _, _, _, hm => by omega
  | m + 1, e, i, hi, hn, hm => by
    have hrest : ∀ j, i ≤ j → j ≤ T.length → wp T (do
        let s ← r.statement
        let ss ← parseSQLLoop mode r m true
        pure (s :: ss)) j fun _ k => i ≤ k ∧ k ≤ T.length := by
      intro j hj1 hj2
      refine wp_bind (wp_mono (H.statement j hj2 (by omega)) ?_)
      rintro s k ⟨h1, h2⟩
      refine wp_bind (wp_mono (term_parseSQLLoop H mode m true k h2 (by omega) (by omega)) ?_)
      rintro ss l ⟨h3, h4⟩
      exact wp_ret ⟨by omega, h4⟩
    unfold parseSQLLoop
    have key : ∀ j, i ≤ j → j ≤ T.length → wp T (do
        let t ← if mode then nextToken else peekToken
        match t with
        | none => pure []
        | some _ => do
          if mode then prevToken
          let s ← r.statement
          let ss ← parseSQLLoop mode r m true
          pure (s :: ss)) j fun _ k => i ≤ k ∧ k ≤ T.length := by
      intro j hj1 hj2
      cases mode with
      | false =>
        refine wp_bind (wp_peekToken ?_ ?_)
        · intro t _ _; exact hrest j hj1 hj2
        · intro _; exact wp_ret ⟨hj1, hj2⟩
      | true =>
        refine wp_bind (wp_nextToken ?_ ?_)
        · intro t _ _
          refine wp_bind (wp_prevToken ?_)
          intro k hk
          cases hk
          exact hrest j hj1 hj2
        · intro _; exact wp_ret ⟨hj1, hj2⟩
    refine wp_bind (wp_consumeToken ?_ ?_)
    · intro t _ _ hlt
      exact key (i + 1) (by omega) (by omega)
    · cases e with
      | true => exact wp_err
      | false => exact key i (Nat.le_refl _) hi

end
end Verif
