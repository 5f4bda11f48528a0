import Lean.Elab.Tactic
import Verif.Proofs.CostWp
import Verif.Proofs.Term
/-
The cost of parsing: no parser function makes more than a fixed number of cursor operations per token it
consumes, plus a fixed number.
-/
set_option linter.unusedVariables false
set_option linter.unusedSimpArgs false
set_option maxRecDepth 4000
namespace Verif

/-- What the recursive entry points promise: `200` operations per token consumed, less than that for those that
consume a token at all, and a few more before they fail. -/
structure Cost (T : List Token) (r : Parsers) (B : Nat) : Prop where
  subexpr : ∀ p i c, i ≤ T.length → c + 200 * T.length + 99 ≤ B + 200 * i →
    wpc T B (r.subexpr p) i c (fun _ j d => i + 1 ≤ j ∧ j ≤ T.length ∧ d + 200 * i + 116 ≤ c + 200 * j)
  subexprLoop : ∀ p e i c, i ≤ T.length → c + 200 * T.length + 66 ≤ B + 200 * i →
    wpc T B (r.subexprLoop p e) i c (fun _ j d => i ≤ j ∧ j ≤ T.length ∧ d + 200 * i ≤ c + 200 * j + 10)
  prefix_ : ∀ i c, i ≤ T.length → c + 200 * T.length + 66 ≤ B + 200 * i →
    wpc T B (r.prefix_) i c (fun _ j d => i + 1 ≤ j ∧ j ≤ T.length ∧ d + 200 * i + 133 ≤ c + 200 * j)
  idParts : ∀ i c, i ≤ T.length → c + 200 * T.length + 66 ≤ B + 200 * i →
    wpc T B (r.idParts) i c (fun _ j d => i ≤ j ∧ j ≤ T.length ∧ d + 200 * i ≤ c + 200 * j + 10)
  exprList : ∀ i c, i ≤ T.length → c + 200 * T.length + 132 ≤ B + 200 * i →
    wpc T B (r.exprList) i c (fun _ j d => i + 1 ≤ j ∧ j ≤ T.length ∧ d + 200 * i + 106 ≤ c + 200 * j)
  listOfIds : ∀ s i c, i ≤ T.length → c + 200 * T.length + 66 ≤ B + 200 * i →
    wpc T B (r.listOfIds s) i c (fun x j d => i ≤ j ∧ j ≤ T.length ∧ d + 200 * i ≤ c + 200 * j + 10 ∧
      (x.isSome = true → i + 1 ≤ j ∧ d + 200 * i + 133 ≤ c + 200 * j))
  listOfIdsSep : ∀ s i c, i ≤ T.length → c + 200 * T.length + 66 ≤ B + 200 * i →
    wpc T B (r.listOfIdsSep s) i c (fun _ j d => i ≤ j ∧ j ≤ T.length ∧ d + 200 * i ≤ c + 200 * j + 10)
  orderByList : ∀ i c, i ≤ T.length → c + 200 * T.length + 132 ≤ B + 200 * i →
    wpc T B (r.orderByList) i c (fun _ j d => i + 1 ≤ j ∧ j ≤ T.length ∧ d + 200 * i + 95 ≤ c + 200 * j)
  caseLoop : ∀ i c, i ≤ T.length → c + 200 * T.length + 132 ≤ B + 200 * i →
    wpc T B (r.caseLoop) i c (fun _ j d => i + 1 ≤ j ∧ j ≤ T.length ∧ d + 200 * i + 33 ≤ c + 200 * j)
  query : ∀ i c, i ≤ T.length → c + 200 * T.length + 99 ≤ B + 200 * i →
    wpc T B (r.query) i c (fun _ j d => i + 1 ≤ j ∧ j ≤ T.length ∧ d + 200 * i + 55 ≤ c + 200 * j)
  queryBody : ∀ p i c, i ≤ T.length → c + 200 * T.length + 66 ≤ B + 200 * i →
    wpc T B (r.queryBody p) i c (fun _ j d => i + 1 ≤ j ∧ j ≤ T.length ∧ d + 200 * i + 100 ≤ c + 200 * j)
  bodyLoop : ∀ p e i c, i ≤ T.length → c + 200 * T.length + 66 ≤ B + 200 * i →
    wpc T B (r.bodyLoop p e) i c (fun _ j d => i ≤ j ∧ j ≤ T.length ∧ d + 200 * i ≤ c + 200 * j + 10)
  cteList : ∀ i c, i ≤ T.length → c + 200 * T.length + 66 ≤ B + 200 * i →
    wpc T B (r.cteList) i c (fun _ j d => i + 1 ≤ j ∧ j ≤ T.length ∧ d + 200 * i + 33 ≤ c + 200 * j)
  selectList : ∀ i c, i ≤ T.length → c + 200 * T.length + 132 ≤ B + 200 * i →
    wpc T B (r.selectList) i c (fun _ j d => i + 1 ≤ j ∧ j ≤ T.length ∧ d + 200 * i + 95 ≤ c + 200 * j)
  tableRef : ∀ i c, i ≤ T.length → c + 200 * T.length + 100 ≤ B + 200 * i →
    wpc T B (r.tableRef) i c (fun _ j d => i + 1 ≤ j ∧ j ≤ T.length ∧ d + 200 * i + 58 ≤ c + 200 * j)
  tableRefLoop : ∀ l e i c, i ≤ T.length → c + 200 * T.length + 66 ≤ B + 200 * i →
    wpc T B (r.tableRefLoop l e) i c (fun _ j d => i ≤ j ∧ j ≤ T.length ∧ d + 200 * i ≤ c + 200 * j + 10)
  fromRest : ∀ i c, i ≤ T.length → c + 200 * T.length + 66 ≤ B + 200 * i →
    wpc T B (r.fromRest) i c (fun _ j d => i ≤ j ∧ j ≤ T.length ∧ d + 200 * i ≤ c + 200 * j + 10)
  defaultLoop : ∀ e i c, i ≤ T.length → c + 200 * T.length + 66 ≤ B + 200 * i →
    wpc T B (r.defaultLoop e) i c (fun _ j d => i ≤ j ∧ j ≤ T.length ∧ d + 200 * i ≤ c + 200 * j + 10)
  columnLoop : ∀ d s a i c, i ≤ T.length → c + 200 * T.length + 99 ≤ B + 200 * i →
    wpc T B (r.columnLoop d s a) i c (fun _ j d => i ≤ j ∧ j ≤ T.length ∧ d + 200 * i ≤ c + 200 * j + 10)
  columnConstraints : ∀ i c, i ≤ T.length → c + 200 * T.length + 66 ≤ B + 200 * i →
    wpc T B (r.columnConstraints) i c (fun x j d => i ≤ j ∧ j ≤ T.length ∧ d + 200 * i ≤ c + 200 * j + 10 ∧
      ((∃ t, T[i]? = some t ∧ startsConstraint t = true) → i + 1 ≤ j ∧ d + 200 * i + 33 ≤ c + 200 * j))
  elements : ∀ i c, i ≤ T.length → c + 200 * T.length + 83 ≤ B + 200 * i →
    wpc T B (r.elements) i c (fun _ j d => i + 1 ≤ j ∧ j ≤ T.length ∧ d + 200 * i + 66 ≤ c + 200 * j)
  tableOptions : ∀ i c, i ≤ T.length → c + 200 * T.length + 66 ≤ B + 200 * i →
    wpc T B (r.tableOptions) i c (fun _ j d => i ≤ j ∧ j ≤ T.length ∧ d + 200 * i ≤ c + 200 * j + 10)
  assignments : ∀ i c, i ≤ T.length → c + 200 * T.length + 66 ≤ B + 200 * i →
    wpc T B (r.assignments) i c (fun _ j d => i + 1 ≤ j ∧ j ≤ T.length ∧ d + 200 * i + 33 ≤ c + 200 * j)
  rows : ∀ i c, i ≤ T.length → c + 200 * T.length + 66 ≤ B + 200 * i →
    wpc T B (r.rows) i c (fun _ j d => i + 1 ≤ j ∧ j ≤ T.length ∧ d + 200 * i + 33 ≤ c + 200 * j)
  statement : ∀ i c, i ≤ T.length → c + 200 * T.length + 132 ≤ B + 200 * i →
    wpc T B (r.statement) i c (fun _ j d => i + 1 ≤ j ∧ j ≤ T.length ∧ d + 200 * i + 40 ≤ c + 200 * j)

section
variable {T : List Token} {r : Parsers} {B i c : Nat}

open Lean Elab Tactic Meta in
/-- One step of symbolic execution: apply the rule for the head of the program. -/
elab "wpc_step" : tactic => do
  let g ← getMainGoal
  g.withContext do
  let tgt ← instantiateMVars (← g.getType)
  let tgt := tgt.consumeMData
  unless tgt.isAppOf ``Verif.wpc do throwError "not wpc"
  let args := tgt.getAppArgs
  let p := args[args.size - 4]!.consumeMData
  let .const c _ := p.getAppFn | throwError "no head"
  let direct (n : Name) : TacticM Unit := do
    let gs ← g.apply (← mkConstWithFreshMVarLevels n)
    replaceMainGoal gs
  let viaMono (n : Name) : TacticM Unit := do
    let [h, hq] ← g.apply (← mkConstWithFreshMVarLevels ``Verif.wpc_mono) (cfg := { newGoals := .nonDependentOnly })
      | do
        throwError "wpc_mono"
    let gs ← h.apply (← mkConstWithFreshMVarLevels n)
    let mut rest : List MVarId := []
    for x in gs do
      if ← x.isAssigned then continue
      let ty ← instantiateMVars (← x.getType)
      if ty.isAppOf `Verif.Cost then
        x.withContext x.assumption
      else rest := rest ++ [x]
    replaceMainGoal (rest ++ [hq])
  if c == ``Bind.bind then
    let m := p.getAppArgs[4]!
    if m.consumeMData.isAppOf ``Bind.bind then direct ``Verif.wpc_cut else direct ``Verif.wpc_bind
  else if c == ``Pure.pure then direct ``Verif.wpc_ret
  else if c == ``Verif.P.err then direct ``Verif.wpc_err
  else if c == ``Verif.P.panic then direct ``Verif.wpc_panic
  else match c with
    | .str (.str .anonymous "Verif") s =>
      let env ← getEnv
      let w := (`Verif).str ("wpc_" ++ s)
      let t := (`Verif).str ("cost_" ++ s)
      if env.contains w then direct w
      else if env.contains t then viaMono t
      else throwError "no rule for {c}"
    | .str (.str (.str .anonymous "Verif") "Parsers") s => viaMono (`Verif.Cost |>.str s)
    | .str (.str (.str .anonymous "Verif") f) s => viaMono ((`Verif).str ("cost_" ++ f ++ "_" ++ s))
    | _ => throwError "no rule for {c}"

macro "wpc_clean" : tactic => `(tactic|
  simp only [↓reduceIte, Bool.true_or, Bool.or_true, Bool.false_or, Bool.or_false, Bool.false_eq_true,
    Option.isSome_some, Option.isSome_none, Option.isSome_map, false_implies, true_implies, and_true, true_and,
    List.length_cons, List.length_nil, Nat.reduceAdd, Nat.reduceLeDiff, Nat.zero_add])

macro "wpc_loop" : tactic => `(tactic| repeat' (first
  | intro _
  | wpc_step
  | omega
  | dsimp only
  | wpc_clean
  | split))

theorem cost_parseIdentifier (hi : i ≤ T.length) (hn : c + 200 * T.length + 20 ≤ B + 200 * i) :
    wpc T B (parseIdentifier) i c
      (fun _ j d => i + 1 ≤ j ∧ j ≤ T.length ∧ d + 200 * i + 166 ≤ c + 200 * j) := by
  unfold parseIdentifier
  wpc_loop

theorem cost_parseLiteralInt (hi : i ≤ T.length) (hn : c + 200 * T.length + 20 ≤ B + 200 * i) :
    wpc T B (parseLiteralInt) i c
      (fun _ j d => i + 1 ≤ j ∧ j ≤ T.length ∧ d + 200 * i + 166 ≤ c + 200 * j) := by
  unfold parseLiteralInt
  wpc_loop

theorem cost_parseOptionalPrecision (hi : i ≤ T.length) (hn : c + 200 * T.length + 20 ≤ B + 200 * i) :
    wpc T B (parseOptionalPrecision) i c
      (fun _ j d => i ≤ j ∧ j ≤ T.length ∧ d + 200 * i ≤ c + 200 * j + 4) := by
  unfold parseOptionalPrecision
  wpc_loop

theorem cost_parseOptionalPrecisionScale (hi : i ≤ T.length) (hn : c + 200 * T.length + 20 ≤ B + 200 * i) :
    wpc T B (parseOptionalPrecisionScale) i c
      (fun _ j d => i ≤ j ∧ j ≤ T.length ∧ d + 200 * i ≤ c + 200 * j + 4) := by
  unfold parseOptionalPrecisionScale
  wpc_loop

theorem cost_parseMyUnsigned (hi : i ≤ T.length) (hn : c + 200 * T.length + 20 ≤ B + 200 * i) :
    wpc T B (parseMyUnsigned) i c
      (fun _ j d => i ≤ j ∧ j ≤ T.length ∧ d + 200 * i ≤ c + 200 * j + 4) := by
  unfold parseMyUnsigned
  wpc_loop

theorem cost_parseOptionalAlias (r) (hi : i ≤ T.length) (hn : c + 200 * T.length + 20 ≤ B + 200 * i) :
    wpc T B (parseOptionalAlias r) i c
      (fun _ j d => i ≤ j ∧ j ≤ T.length ∧ d + 200 * i ≤ c + 200 * j + 10) := by
  unfold parseOptionalAlias
  wpc_loop

theorem cost_parseValue (fns) (hi : i ≤ T.length) (hn : c + 200 * T.length + 20 ≤ B + 200 * i) :
    wpc T B (parseValue fns) i c
      (fun _ j d => i + 1 ≤ j ∧ j ≤ T.length ∧ d + 200 * i + 166 ≤ c + 200 * j) := by
  unfold parseValue
  wpc_loop

theorem cost_getNextPrecedence (hi : i ≤ T.length) (hn : c + 200 * T.length + 20 ≤ B + 200 * i) :
    wpc T B (getNextPrecedence) i c
      (fun _ j d => i = j ∧ d ≤ c + 8) := by
  unfold getNextPrecedence
  wpc_loop

theorem cost_infixOp (t) (hi : i ≤ T.length) (hn : c + 200 * T.length + 20 ≤ B + 200 * i) :
    wpc T B (infixOp t) i c
      (fun _ j d => i ≤ j ∧ j ≤ T.length ∧ d + 200 * i ≤ c + 200 * j + 10) := by
  unfold infixOp
  wpc_loop

theorem cost_parseWindowFrameBound (hi : i ≤ T.length) (hn : c + 200 * T.length + 40 ≤ B + 200 * i) :
    wpc T B (parseWindowFrameBound) i c
      (fun _ j d => i ≤ j ∧ j ≤ T.length ∧ d + 200 * i ≤ c + 200 * j + 10) := by
  unfold parseWindowFrameBound
  wpc_loop

theorem cost_parseWindowFrame (hi : i ≤ T.length) (hn : c + 200 * T.length + 60 ≤ B + 200 * i) :
    wpc T B (parseWindowFrame) i c
      (fun _ j d => i ≤ j ∧ j ≤ T.length ∧ d + 200 * i ≤ c + 200 * j + 10) := by
  unfold parseWindowFrame
  wpc_loop

theorem cost_parseLimit (hi : i ≤ T.length) (hn : c + 200 * T.length + 40 ≤ B + 200 * i) :
    wpc T B (parseLimit) i c
      (fun _ j d => i ≤ j ∧ j ≤ T.length ∧ d + 200 * i ≤ c + 200 * j + 10) := by
  unfold parseLimit
  wpc_loop

theorem cost_parseJoinType (hi : i ≤ T.length) (hn : c + 200 * T.length + 20 ≤ B + 200 * i) :
    wpc T B (parseJoinType) i c
      (fun _ j d => i ≤ j ∧ j ≤ T.length ∧ d + 200 * i ≤ c + 200 * j + 10) := by
  unfold parseJoinType
  wpc_loop

theorem cost_parseOptionName (hi : i ≤ T.length) (hn : c + 200 * T.length + 30 ≤ B + 200 * i) :
    wpc T B (parseOptionName) i c
      (fun _ j d => i ≤ j ∧ j ≤ T.length ∧ d + 200 * i ≤ c + 200 * j + 10) := by
  unfold parseOptionName
  wpc_loop

theorem cost_parseTableOption (hi : i ≤ T.length) (hn : c + 200 * T.length + 45 ≤ B + 200 * i) :
    wpc T B (parseTableOption) i c
      (fun _ j d => i + 1 ≤ j ∧ j ≤ T.length ∧ d + 200 * i + 33 ≤ c + 200 * j) := by
  unfold parseTableOption
  wpc_loop

theorem cost_parseCascade (hi : i ≤ T.length) (hn : c + 200 * T.length + 20 ≤ B + 200 * i) :
    wpc T B (parseCascade) i c
      (fun _ j d => i ≤ j ∧ j ≤ T.length ∧ d + 200 * i ≤ c + 200 * j + 10) := by
  unfold parseCascade
  wpc_loop

theorem cost_parseDataType_parseChar (t) (hi : i ≤ T.length) (hn : c + 200 * T.length + 35 ≤ B + 200 * i) :
    wpc T B (parseDataType.parseChar t) i c
      (fun _ j d => i ≤ j ∧ j ≤ T.length ∧ d + 200 * i ≤ c + 200 * j + 10) := by
  unfold parseDataType.parseChar
  wpc_loop

theorem cost_parseDataType_parseTimeZone (hi : i ≤ T.length) (hn : c + 200 * T.length + 20 ≤ B + 200 * i) :
    wpc T B (parseDataType.parseTimeZone) i c
      (fun _ j d => i ≤ j ∧ j ≤ T.length ∧ d + 200 * i ≤ c + 200 * j + 10) := by
  unfold parseDataType.parseTimeZone
  wpc_loop

theorem cost_parseListOfIds (H : Cost T r B) (s) (hi : i ≤ T.length) (hn : c + 200 * T.length + 66 ≤ B + 200 * i) :
    wpc T B (parseListOfIds r s) i c
      (fun _ j d => i + 1 ≤ j ∧ j ≤ T.length ∧ d + 200 * i + 126 ≤ c + 200 * j) := by
  unfold parseListOfIds
  refine wpc_bind (wpc_mono (H.listOfIds s i c hi (by omega)) ?_)
  rintro x j d ⟨h1, h2, h3, h4⟩
  cases x with
  | none => exact wpc_err (by omega)
  | some l => have := h4 rfl; exact wpc_ret ⟨by omega, h2, by omega⟩

theorem cost_parseColumnNames (H : Cost T r B) (hi : i ≤ T.length) (hn : c + 200 * T.length + 66 ≤ B + 200 * i) :
    wpc T B (parseColumnNames r) i c
      (fun _ j d => i + 1 ≤ j ∧ j ≤ T.length ∧ d + 200 * i + 100 ≤ c + 200 * j) := by
  unfold parseColumnNames
  wpc_loop

theorem cost_parseObjectName (H : Cost T r B) (hi : i ≤ T.length) (hn : c + 200 * T.length + 66 ≤ B + 200 * i) :
    wpc T B (parseObjectName r) i c
      (fun _ j d => i + 1 ≤ j ∧ j ≤ T.length ∧ d + 200 * i + 116 ≤ c + 200 * j) := by
  unfold parseObjectName
  wpc_loop

theorem cost_parseDataType (H : Cost T r B) (hi : i ≤ T.length) (hn : c + 200 * T.length + 83 ≤ B + 200 * i) :
    wpc T B (parseDataType r) i c
      (fun _ j d => i + 1 ≤ j ∧ j ≤ T.length ∧ d + 200 * i + 110 ≤ c + 200 * j) := by
  unfold parseDataType
  wpc_loop

theorem cost_parseExpr (H : Cost T r B) (hi : i ≤ T.length) (hn : c + 200 * T.length + 99 ≤ B + 200 * i) :
    wpc T B (parseExpr r) i c
      (fun _ j d => i + 1 ≤ j ∧ j ≤ T.length ∧ d + 200 * i + 116 ≤ c + 200 * j) := by
  unfold parseExpr
  wpc_loop

theorem cost_parseIn (H : Cost T r B) (e) (g) (hi : i ≤ T.length) (hn : c + 200 * T.length + 33 ≤ B + 200 * i) :
    wpc T B (parseIn r e g) i c
      (fun _ j d => i + 1 ≤ j ∧ j ≤ T.length ∧ d + 200 * i + 33 ≤ c + 200 * j) := by
  unfold parseIn
  wpc_loop

theorem cost_parseBetween (H : Cost T r B) (e) (g) (hi : i ≤ T.length) (hn : c + 200 * T.length + 66 ≤ B + 200 * i) :
    wpc T B (parseBetween r e g) i c
      (fun _ j d => i + 1 ≤ j ∧ j ≤ T.length ∧ d + 200 * i + 33 ≤ c + 200 * j) := by
  unfold parseBetween
  wpc_loop

theorem cost_parseNotInBetween (H : Cost T r B) (e) (hi : i ≤ T.length) (hn : c + 200 * T.length + 80 ≤ B + 200 * i) :
    wpc T B (parseNotInBetween r e) i c
      (fun _ j d => i ≤ j ∧ j ≤ T.length ∧ d + 200 * i ≤ c + 200 * j + 20) := by
  unfold parseNotInBetween
  wpc_loop

theorem cost_parseInfix (H : Cost T r B) (e) (p) (hi : i ≤ T.length) (hn : c + 200 * T.length + 33 ≤ B + 200 * i) :
    wpc T B (parseInfix r e p) i c
      (fun _ j d => i + 1 ≤ j ∧ j ≤ T.length ∧ d + 200 * i + 33 ≤ c + 200 * j) := by
  unfold parseInfix
  wpc_loop

theorem cost_parseOptionalArgs (H : Cost T r B) (hi : i ≤ T.length) (hn : c + 200 * T.length + 143 ≤ B + 200 * i) :
    wpc T B (parseOptionalArgs r) i c
      (fun _ j d => i ≤ j ∧ j ≤ T.length ∧ d + 200 * i ≤ c + 200 * j + 10) := by
  unfold parseOptionalArgs
  wpc_loop

theorem cost_parseOver (H : Cost T r B) (hi : i ≤ T.length) (hn : c + 200 * T.length + 33 ≤ B + 200 * i) :
    wpc T B (parseOver r) i c
      (fun _ j d => i + 1 ≤ j ∧ j ≤ T.length ∧ d + 200 * i + 33 ≤ c + 200 * j) := by
  unfold parseOver
  wpc_loop

theorem cost_parseFunction (H : Cost T r B) (m) (hi : i ≤ T.length) (hn : c + 200 * T.length + 33 ≤ B + 200 * i) :
    wpc T B (parseFunction r m) i c
      (fun _ j d => i + 1 ≤ j ∧ j ≤ T.length ∧ d + 200 * i + 33 ≤ c + 200 * j) := by
  unfold parseFunction
  wpc_loop

theorem cost_parseCaseExpression (H : Cost T r B) (hi : i ≤ T.length) (hn : c + 200 * T.length + 33 ≤ B + 200 * i) :
    wpc T B (parseCaseExpression r) i c
      (fun _ j d => i + 1 ≤ j ∧ j ≤ T.length ∧ d + 200 * i + 150 ≤ c + 200 * j) := by
  unfold parseCaseExpression
  wpc_loop

theorem cost_parseCastExpression (H : Cost T r B) (hi : i ≤ T.length) (hn : c + 200 * T.length + 33 ≤ B + 200 * i) :
    wpc T B (parseCastExpression r) i c
      (fun _ j d => i + 1 ≤ j ∧ j ≤ T.length ∧ d + 200 * i + 150 ≤ c + 200 * j) := by
  unfold parseCastExpression
  wpc_loop

theorem cost_parseExistsExpression (H : Cost T r B) (t) (hi : i ≤ T.length) (hn : c + 200 * T.length + 33 ≤ B + 200 * i) :
    wpc T B (parseExistsExpression r t) i c
      (fun _ j d => i + 1 ≤ j ∧ j ≤ T.length ∧ d + 200 * i + 150 ≤ c + 200 * j) := by
  unfold parseExistsExpression
  wpc_loop

theorem cost_parseName (H : Cost T r B) (t) (w) (hi : i ≤ T.length) (hn : c + 200 * T.length + 80 ≤ B + 200 * i) :
    wpc T B (parseName r t w) i c
      (fun _ j d => i ≤ j ∧ j ≤ T.length ∧ d + 200 * i ≤ c + 200 * j + 30) := by
  unfold parseName
  wpc_loop

theorem cost_parseParen (H : Cost T r B) (t) (hi : i ≤ T.length) (hn : c + 200 * T.length + 116 ≤ B + 200 * i) :
    wpc T B (parseParen r t) i c
      (fun _ j d => i ≤ j ∧ j ≤ T.length ∧ d + 200 * i ≤ c + 200 * j + 20) := by
  unfold parseParen
  wpc_loop

theorem cost_parseNot (H : Cost T r B) (t) (hi : i ≤ T.length) (hn : c + 200 * T.length + 116 ≤ B + 200 * i) :
    wpc T B (parseNot r t) i c
      (fun _ j d => i ≤ j ∧ j ≤ T.length ∧ d + 200 * i ≤ c + 200 * j + 10) := by
  unfold parseNot
  wpc_loop

theorem cost_parseFromClause (H : Cost T r B) (hi : i ≤ T.length) (hn : c + 200 * T.length + 110 ≤ B + 200 * i) :
    wpc T B (parseFromClause r) i c
      (fun _ j d => i + 1 ≤ j ∧ j ≤ T.length ∧ d + 200 * i + 45 ≤ c + 200 * j) := by
  unfold parseFromClause
  wpc_loop

theorem cost_parseSelect (H : Cost T r B) (p) (hi : i ≤ T.length) (hn : c + 200 * T.length + 166 ≤ B + 200 * i) :
    wpc T B (parseSelect r p) i c
      (fun _ j d => i + 1 ≤ j ∧ j ≤ T.length ∧ d + 200 * i + 20 ≤ c + 200 * j) := by
  unfold parseSelect
  wpc_loop

theorem cost_parseTableFactor (H : Cost T r B) (hi : i ≤ T.length) (hn : c + 200 * T.length + 83 ≤ B + 200 * i) :
    wpc T B (parseTableFactor r) i c
      (fun _ j d => i + 1 ≤ j ∧ j ≤ T.length ∧ d + 200 * i + 70 ≤ c + 200 * j) := by
  unfold parseTableFactor
  wpc_loop

theorem cost_parseJoinSpec (H : Cost T r B) (hi : i ≤ T.length) (hn : c + 200 * T.length + 33 ≤ B + 200 * i) :
    wpc T B (parseJoinSpec r) i c
      (fun _ j d => i + 1 ≤ j ∧ j ≤ T.length ∧ d + 200 * i + 33 ≤ c + 200 * j) := by
  unfold parseJoinSpec
  wpc_loop

theorem cost_parseQualifiedJoin (H : Cost T r B) (hi : i ≤ T.length) (hn : c + 200 * T.length + 233 ≤ B + 200 * i) :
    wpc T B (parseQualifiedJoin r) i c
      (fun _ j d => i ≤ j ∧ j ≤ T.length ∧ d + 200 * i ≤ c + 200 * j + 20) := by
  unfold parseQualifiedJoin
  wpc_loop

theorem cost_parseTableReferenceRight (H : Cost T r B) (hi : i ≤ T.length) (hn : c + 200 * T.length + 53 ≤ B + 200 * i) :
    wpc T B (parseTableReferenceRight r) i c
      (fun x j d => i ≤ j ∧ j ≤ T.length ∧ d + 200 * i ≤ c + 200 * j + 10 ∧
      (x.isSome = true → i + 1 ≤ j ∧ d + 200 * i + 33 ≤ c + 200 * j)) := by
  unfold parseTableReferenceRight
  wpc_loop

theorem cost_parseDefaultExpr (H : Cost T r B) (hi : i ≤ T.length) (hn : c + 200 * T.length + 66 ≤ B + 200 * i) :
    wpc T B (parseDefaultExpr r) i c
      (fun _ j d => i + 1 ≤ j ∧ j ≤ T.length ∧ d + 200 * i + 115 ≤ c + 200 * j) := by
  unfold parseDefaultExpr
  wpc_loop

theorem cost_parseColumnSpec (H : Cost T r B) (t) (hi : i ≤ T.length) (hn : c + 200 * T.length + 33 ≤ B + 200 * i) :
    wpc T B (parseColumnSpec r t) i c
      (fun x j d => i ≤ j ∧ j ≤ T.length ∧ d + 200 * i ≤ c + 200 * j + 6 ∧
      (x.isSome = true → i + 1 ≤ j ∧ d + 200 * i + 100 ≤ c + 200 * j)) := by
  unfold parseColumnSpec
  wpc_loop

theorem cost_parseColumnDef (H : Cost T r B) (hi : i ≤ T.length) (hn : c + 200 * T.length + 33 ≤ B + 200 * i) :
    wpc T B (parseColumnDef r) i c
      (fun _ j d => i + 1 ≤ j ∧ j ≤ T.length ∧ d + 200 * i + 100 ≤ c + 200 * j) := by
  unfold parseColumnDef
  wpc_loop

theorem cost_parseTableConstraintSpec (H : Cost T r B) (t) (hi : i ≤ T.length) (hn : c + 200 * T.length + 33 ≤ B + 200 * i) :
    wpc T B (parseTableConstraintSpec r t) i c
      (fun _ j d => i + 1 ≤ j ∧ j ≤ T.length ∧ d + 200 * i + 116 ≤ c + 200 * j) := by
  unfold parseTableConstraintSpec
  wpc_loop

theorem cost_parseTableConstraints (H : Cost T r B) (hi : i ≤ T.length) (hn : c + 200 * T.length + 50 ≤ B + 200 * i) :
    wpc T B (parseTableConstraints r) i c
      (fun _ j d => i + 1 ≤ j ∧ j ≤ T.length ∧ d + 200 * i + 100 ≤ c + 200 * j) := by
  unfold parseTableConstraints
  wpc_loop

theorem cost_parseElement_parseC (H : Cost T r B) (hi : i ≤ T.length) (hn : c + 200 * T.length + 53 ≤ B + 200 * i) :
    wpc T B (parseElement.parseC r) i c
      (fun _ j d => i + 1 ≤ j ∧ j ≤ T.length ∧ d + 200 * i + 100 ≤ c + 200 * j) := by
  unfold parseElement.parseC
  wpc_loop

theorem cost_parseElement (H : Cost T r B) (w) (hi : i ≤ T.length) (h1 : 1 ≤ i) (hn : c + 200 * T.length + 266 ≤ B + 200 * i) :
    wpc T B (parseElement r w) i c
      (fun _ j d => i ≤ j ∧ j ≤ T.length ∧ d + 200 * i ≤ c + 200 * j + 113) := by
  unfold parseElement
  wpc_loop

theorem cost_parseElements (H : Cost T r B) (hi : i ≤ T.length) (hn : c + 200 * T.length + 33 ≤ B + 200 * i) :
    wpc T B (parseElements r) i c
      (fun _ j d => i ≤ j ∧ j ≤ T.length ∧ d + 200 * i ≤ c + 200 * j + 10) := by
  unfold parseElements
  wpc_loop

theorem cost_parseCreateTable (H : Cost T r B) (t) (hi : i ≤ T.length) (hn : c + 200 * T.length + 116 ≤ B + 200 * i) :
    wpc T B (parseCreateTable r t) i c
      (fun _ j d => i ≤ j ∧ j ≤ T.length ∧ d + 200 * i ≤ c + 200 * j + 33) := by
  unfold parseCreateTable
  wpc_loop

theorem cost_parseCreateView (H : Cost T r B) (t) (hi : i ≤ T.length) (hn : c + 200 * T.length + 66 ≤ B + 200 * i) :
    wpc T B (parseCreateView r t) i c
      (fun _ j d => i ≤ j ∧ j ≤ T.length ∧ d + 200 * i ≤ c + 200 * j + 10) := by
  unfold parseCreateView
  wpc_loop

theorem cost_parseCreateIndex (H : Cost T r B) (u) (hi : i ≤ T.length) (hn : c + 200 * T.length + 100 ≤ B + 200 * i) :
    wpc T B (parseCreateIndex r u) i c
      (fun _ j d => i ≤ j ∧ j ≤ T.length ∧ d + 200 * i ≤ c + 200 * j + 33) := by
  unfold parseCreateIndex
  wpc_loop

theorem cost_parseCreate (H : Cost T r B) (hi : i ≤ T.length) (hn : c + 200 * T.length + 33 ≤ B + 200 * i) :
    wpc T B (parseCreate r) i c
      (fun _ j d => i + 1 ≤ j ∧ j ≤ T.length ∧ d + 200 * i + 66 ≤ c + 200 * j) := by
  unfold parseCreate
  wpc_loop

theorem cost_parseDelete (H : Cost T r B) (hi : i ≤ T.length) (hn : c + 200 * T.length + 33 ≤ B + 200 * i) :
    wpc T B (parseDelete r) i c
      (fun _ j d => i + 1 ≤ j ∧ j ≤ T.length ∧ d + 200 * i + 66 ≤ c + 200 * j) := by
  unfold parseDelete
  wpc_loop

theorem cost_parseUpdate (H : Cost T r B) (hi : i ≤ T.length) (hn : c + 200 * T.length + 33 ≤ B + 200 * i) :
    wpc T B (parseUpdate r) i c
      (fun _ j d => i + 1 ≤ j ∧ j ≤ T.length ∧ d + 200 * i + 66 ≤ c + 200 * j) := by
  unfold parseUpdate
  wpc_loop

theorem cost_parseInsert (H : Cost T r B) (hi : i ≤ T.length) (hn : c + 200 * T.length + 33 ≤ B + 200 * i) :
    wpc T B (parseInsert r) i c
      (fun _ j d => i + 1 ≤ j ∧ j ≤ T.length ∧ d + 200 * i + 66 ≤ c + 200 * j) := by
  unfold parseInsert
  wpc_loop

theorem cost_parseAlterColumn (H : Cost T r B) (t) (hi : i ≤ T.length) (hn : c + 200 * T.length + 33 ≤ B + 200 * i) :
    wpc T B (parseAlterColumn r t) i c
      (fun _ j d => i ≤ j ∧ j ≤ T.length ∧ d + 200 * i ≤ c + 200 * j + 10) := by
  unfold parseAlterColumn
  wpc_loop

theorem cost_parseAlterAction (H : Cost T r B) (hi : i ≤ T.length) (hn : c + 200 * T.length + 116 ≤ B + 200 * i) :
    wpc T B (parseAlterAction r) i c
      (fun _ j d => i ≤ j ∧ j ≤ T.length ∧ d + 200 * i ≤ c + 200 * j + 33) := by
  unfold parseAlterAction
  wpc_loop

theorem cost_parseAlter (H : Cost T r B) (hi : i ≤ T.length) (hn : c + 200 * T.length + 33 ≤ B + 200 * i) :
    wpc T B (parseAlter r) i c
      (fun _ j d => i + 1 ≤ j ∧ j ≤ T.length ∧ d + 200 * i + 66 ≤ c + 200 * j) := by
  unfold parseAlter
  wpc_loop

theorem cost_parseDrop (H : Cost T r B) (hi : i ≤ T.length) (hn : c + 200 * T.length + 33 ≤ B + 200 * i) :
    wpc T B (parseDrop r) i c
      (fun _ j d => i + 1 ≤ j ∧ j ≤ T.length ∧ d + 200 * i + 66 ≤ c + 200 * j) := by
  unfold parseDrop
  wpc_loop

theorem cost_statementF_parseQueryStmt (H : Cost T r B) (hi : i ≤ T.length) (h1 : 1 ≤ i) (hn : c + 200 * T.length + 313 ≤ B + 200 * i) :
    wpc T B (statementF.parseQueryStmt r) i c
      (fun _ j d => i ≤ j ∧ j ≤ T.length ∧ d + 200 * i ≤ c + 200 * j + 150) := by
  unfold statementF.parseQueryStmt
  wpc_loop

theorem cost_step (fns : FloatFns) (hk : KwOK T) (H : Cost T r B) : Cost T (Parsers.step fns r) B where
  subexpr := by
    intro p i c hi hn
    show wpc T B (subexprF r p) i c _
    unfold subexprF
    wpc_loop
  subexprLoop := by
    intro p e i c hi hn
    show wpc T B (subexprLoopF r p e) i c _
    unfold subexprLoopF
    wpc_loop
  prefix_ := by
    intro  i c hi hn
    show wpc T B (prefixF fns r ) i c _
    unfold prefixF
    wpc_loop
  idParts := by
    intro  i c hi hn
    show wpc T B (idPartsF r ) i c _
    unfold idPartsF
    wpc_loop
  exprList := by
    intro  i c hi hn
    show wpc T B (exprListF r ) i c _
    unfold exprListF
    wpc_loop
  listOfIds := by
    intro s i c hi hn
    show wpc T B (listOfIdsF r s) i c _
    unfold listOfIdsF
    wpc_loop
  listOfIdsSep := by
    intro s i c hi hn
    show wpc T B (listOfIdsSepF r s) i c _
    unfold listOfIdsSepF
    wpc_loop
  orderByList := by
    intro  i c hi hn
    show wpc T B (orderByListF r ) i c _
    unfold orderByListF
    wpc_loop
  caseLoop := by
    intro  i c hi hn
    show wpc T B (caseLoopF r ) i c _
    unfold caseLoopF
    wpc_loop
  query := by
    intro  i c hi hn
    show wpc T B (queryF r ) i c _
    unfold queryF
    wpc_loop
  queryBody := by
    intro p i c hi hn
    show wpc T B (queryBodyF r p) i c _
    unfold queryBodyF
    wpc_loop
  bodyLoop := by
    intro p e i c hi hn
    show wpc T B (bodyLoopF r p e) i c _
    unfold bodyLoopF
    wpc_loop
  cteList := by
    intro  i c hi hn
    show wpc T B (cteListF r ) i c _
    unfold cteListF
    wpc_loop
  selectList := by
    intro  i c hi hn
    show wpc T B (selectListF r ) i c _
    unfold selectListF
    wpc_loop
  tableRef := by
    intro  i c hi hn
    show wpc T B (tableRefF r ) i c _
    unfold tableRefF
    wpc_loop
  tableRefLoop := by
    intro l e i c hi hn
    show wpc T B (tableRefLoopF r l e) i c _
    unfold tableRefLoopF
    refine wpc_bind (wpc_mono (cost_parseTableReferenceRight H hi (by omega)) ?_)
    rintro x j d ⟨h1, h2, h3, h4⟩
    cases x with
    | none => wpc_loop
    | some x => have := h4 rfl; cases x <;> wpc_loop
  fromRest := by
    intro  i c hi hn
    show wpc T B (fromRestF r ) i c _
    unfold fromRestF
    wpc_loop
  defaultLoop := by
    intro e i c hi hn
    show wpc T B (defaultLoopF r e) i c _
    unfold defaultLoopF
    wpc_loop
  columnLoop := by
    intro d s a i c hi hn
    show wpc T B (columnLoopF r d s a) i c _
    unfold columnLoopF
    refine wpc_bind (wpc_peekToken ?_ ?_)
    · intro t ht hlt
      have hspecs : startsConstraint t = true →
          wpc T B (columnLoopF.parseSpecs r d a) i (c + 1) fun _ j d =>
            i ≤ j ∧ j ≤ T.length ∧ d + 200 * i ≤ c + 200 * j + 10 := by
        intro hs
        unfold columnLoopF.parseSpecs
        refine wpc_bind (wpc_mono (H.columnConstraints i _ hi (by omega)) ?_)
        rintro x j d ⟨h1, h2, h3, h4⟩
        have := h4 ⟨t, ht, hs⟩
        wpc_loop
      dsimp only
      split
      · rename_i hd
        refine wpc_bind (wpc_kw (by omega) ?_ ?_)
        · wpc_loop
        · intro hno
          have := hno t ht
          rw [default_matches hk ht hd] at this
          simp at this
      all_goals first
        | (exact hspecs (by simp [startsConstraint, *]))
        | wpc_loop
    · wpc_loop
  columnConstraints := by
    intro  i c hi hn
    show wpc T B (columnConstraintsF r ) i c _
    unfold columnConstraintsF
    refine wpc_bind (wpc_peekToken ?_ ?_)
    · intro t ht hlt
      dsimp only
      by_cases hc : t.kw? = some .CONSTRAINT
      · rw [hc]
        dsimp only
        refine wpc_bind (wpc_mono (Q := fun _ j d => i + 1 ≤ j ∧ j ≤ T.length ∧ d + 200 * i + 133 ≤ c + 200 * j) ?_ ?_)
        · wpc_loop
        · rintro name j d ⟨h1, h2, h3⟩
          refine wpc_mono (Q := fun _ j d => i + 1 ≤ j ∧ j ≤ T.length ∧ d + 200 * i + 50 ≤ c + 200 * j) ?_ ?_
          · refine wpc_bind (wpc_mustPeek (by omega) ?_)
            intro t' _ _
            split
            · wpc_loop
            · refine wpc_bind (wpc_mono (cost_parseColumnSpec H t' h2 (by omega)) ?_)
              rintro x k d ⟨h3, h4, h5, h6⟩
              cases x with
              | none => wpc_loop
              | some x =>
                have := h6 rfl
                refine wpc_bind (wpc_mono (H.columnConstraints k _ h4 (by omega)) ?_)
                wpc_loop
          · rintro x k d ⟨h3, h4, h5⟩
            exact ⟨by omega, h4, by omega, fun _ => ⟨h3, by omega⟩⟩
      · refine wpc_bind ?_
        split
        · contradiction
        refine wpc_ret (wpc_bind (wpc_mustPeek (by omega) ?_))
        intro t' ht' _
        rw [ht] at ht'
        cases ht'
        split
        · rename_i hw
          refine wpc_ret ⟨Nat.le_refl _, hi, by omega, ?_⟩
          rintro ⟨t', h1, h2⟩
          rw [ht] at h1
          cases h1
          simp [startsConstraint, Token.kw?, hw] at h2
        · refine wpc_bind (wpc_mono (wpc_and (cost_parseColumnSpec H t hi (by omega)) (parseColumnSpec_none r t)) ?_)
          rintro x k d ⟨⟨h3, h4, h5, h7⟩, h6⟩
          cases x with
          | none =>
            refine wpc_ret ⟨h3, h4, by omega, ?_⟩
            rintro ⟨t', h1, h2⟩
            rw [ht] at h1
            cases h1
            have h6 := h6 rfl
            unfold startsConstraint at h2
            split at h2 <;> simp_all
          | some x =>
            have := h7 rfl
            refine wpc_bind (wpc_mono (H.columnConstraints k _ h4 (by omega)) ?_)
            rintro y l d ⟨h7, h8, h9, _⟩
            exact wpc_ret ⟨by omega, h8, by omega, fun _ => ⟨by omega, by omega⟩⟩
    · intro hl
      refine wpc_ret ⟨Nat.le_refl _, hi, by omega, ?_⟩
      rintro ⟨t, ht, _⟩
      rw [List.getElem?_eq_none hl] at ht
      simp at ht
  elements := by
    intro  i c hi hn
    show wpc T B (elementsF r ) i c _
    unfold elementsF
    wpc_loop
  tableOptions := by
    intro  i c hi hn
    show wpc T B (tableOptionsF r ) i c _
    unfold tableOptionsF
    wpc_loop
  assignments := by
    intro  i c hi hn
    show wpc T B (assignmentsF r ) i c _
    unfold assignmentsF
    wpc_loop
  rows := by
    intro  i c hi hn
    show wpc T B (rowsF r ) i c _
    unfold rowsF
    wpc_loop
  statement := by
    intro  i c hi hn
    show wpc T B (statementF r ) i c _
    unfold statementF
    wpc_loop

/-- At every depth of calls. -/
theorem cost_at (fns : FloatFns) (hk : KwOK T) (B : Nat) : ∀ n, Cost T (Parsers.at fns n) B
  | 0 => by constructor <;> intros <;> exact wpc_oof (by omega)
  | n + 1 => cost_step fns hk (cost_at fns hk B n)

/-- `ParseSQL`: every statement pays for the operations around it. -/
theorem cost_parseSQLLoop (H : Cost T r B) (mode : Bool) : ∀ (m : Nat) (e : Bool) (i c : Nat), i ≤ T.length →
    c + 200 * T.length + 150 ≤ B + 200 * i →
    wpc T B (parseSQLLoop mode r m e) i c fun _ j d => i ≤ j ∧ j ≤ T.length ∧ d + 200 * i ≤ c + 200 * j + 10
  | 0, _, _, _, hi, hn => wpc_oof (by omega)
  | m + 1, e, i, c, hi, hn => by
    have hrest : ∀ j d, i ≤ j → j ≤ T.length → d + 200 * i ≤ c + 200 * j + 6 → wpc T B (do
        let s ← r.statement
        let ss ← parseSQLLoop mode r m true
        pure (s :: ss)) j d fun _ k e => i ≤ k ∧ k ≤ T.length ∧ e + 200 * i ≤ c + 200 * k + 10 := by
      intro j d hj1 hj2 hd
      refine wpc_bind (wpc_mono (H.statement j d hj2 (by omega)) ?_)
      rintro s k d' ⟨h1, h2, h3⟩
      refine wpc_bind (wpc_mono (cost_parseSQLLoop H mode m true k d' h2 (by omega)) ?_)
      rintro ss l d'' ⟨h4, h5, h6⟩
      exact wpc_ret ⟨by omega, h5, by omega⟩
    unfold parseSQLLoop
    have key : ∀ j d, i ≤ j → j ≤ T.length → d + 200 * i ≤ c + 200 * j + 2 → wpc T B (do
        let t ← if mode then nextToken else peekToken
        match t with
        | none => pure []
        | some _ => do
          if mode then prevToken
          let s ← r.statement
          let ss ← parseSQLLoop mode r m true
          pure (s :: ss)) j d fun _ k e => i ≤ k ∧ k ≤ T.length ∧ e + 200 * i ≤ c + 200 * k + 10 := by
      intro j d hj1 hj2 hd
      cases mode with
      | false =>
        refine wpc_bind (wpc_peekToken ?_ ?_)
        · intro t _ _; exact hrest j _ hj1 hj2 (by omega)
        · intro _; exact wpc_ret ⟨hj1, hj2, by omega⟩
      | true =>
        refine wpc_bind (wpc_nextToken ?_ ?_)
        · intro t _ _
          refine wpc_bind (wpc_prevToken (by omega) ?_)
          intro k hk
          cases hk
          exact hrest j _ hj1 hj2 (by omega)
        · intro _; exact wpc_ret ⟨hj1, hj2, by omega⟩
    refine wpc_bind (wpc_consumeToken (by omega) ?_ ?_)
    · intro t _ _ hlt
      exact key (i + 1) _ (by omega) (by omega) (by omega)
    · cases e with
      | true => exact wpc_err (by omega)
      | false => exact key i _ (Nat.le_refl _) hi (by omega)

end
end Verif
