import Verif.Proofs.BarrierWp
/-
No parser function goes back before the token it starts at, and none goes on behind a semicolon: every function
started between `lo` and the edge `L` ends there, and looks at nothing outside.
-/
set_option linter.unusedVariables false
set_option linter.unusedSimpArgs false
namespace Verif

theorem word?_semi (s f g) : Token.word? ⟨.sym .Semicolon s, f, g⟩ = none := rfl
theorem kw?_semi (s f g) : Token.kw? ⟨.sym .Semicolon s, f, g⟩ = none := rfl
theorem isSym_semi (k s f g) : Token.isSym ⟨.sym .Semicolon s, f, g⟩ k = (Sym.Semicolon == k) := rfl
theorem setOperator_semi (s f g) : setOperator ⟨.sym .Semicolon s, f, g⟩ = none := rfl
theorem infixOp_semi (s f g) : infixOp ⟨.sym .Semicolon s, f, g⟩ = pure none := rfl

/-- What the recursive entry points promise: they stay between `lo` and the edge, and make progress. -/
structure Bar (T : List Token) (lo L : Nat) (d : Bool) (r : Parsers) : Prop where
  subexpr : ∀ p i, i ≤ L → lo ≤ i →
    bw T lo L d (r.subexpr p) i (fun _ j => i + 1 ≤ j ∧ j ≤ L)
  subexprLoop : ∀ p e i, i ≤ L → lo ≤ i →
    bw T lo L d (r.subexprLoop p e) i (fun _ j => i ≤ j ∧ j ≤ L)
  prefix_ : ∀ i, i ≤ L → lo ≤ i →
    bw T lo L d (r.prefix_) i (fun _ j => i + 1 ≤ j ∧ j ≤ L)
  idParts : ∀ i, i ≤ L → lo ≤ i →
    bw T lo L d (r.idParts) i (fun _ j => i ≤ j ∧ j ≤ L)
  exprList : ∀ i, i ≤ L → lo ≤ i →
    bw T lo L d (r.exprList) i (fun _ j => i + 1 ≤ j ∧ j ≤ L)
  listOfIds : ∀ s i, s ≠ .Semicolon → i ≤ L → lo ≤ i →
    bw T lo L d (r.listOfIds s) i (fun x j => i ≤ j ∧ j ≤ L ∧ (x.isSome = true → i + 1 ≤ j))
  listOfIdsSep : ∀ s i, s ≠ .Semicolon → i ≤ L → lo ≤ i →
    bw T lo L d (r.listOfIdsSep s) i (fun _ j => i ≤ j ∧ j ≤ L)
  orderByList : ∀ i, i ≤ L → lo ≤ i →
    bw T lo L d (r.orderByList) i (fun _ j => i + 1 ≤ j ∧ j ≤ L)
  caseLoop : ∀ i, i ≤ L → lo ≤ i →
    bw T lo L d (r.caseLoop) i (fun _ j => i + 1 ≤ j ∧ j ≤ L)
  query : ∀ i, i ≤ L → lo ≤ i →
    bw T lo L d (r.query) i (fun _ j => i + 1 ≤ j ∧ j ≤ L)
  queryBody : ∀ p i, i ≤ L → lo ≤ i →
    bw T lo L d (r.queryBody p) i (fun _ j => i + 1 ≤ j ∧ j ≤ L)
  bodyLoop : ∀ p e i, i ≤ L → lo ≤ i →
    bw T lo L d (r.bodyLoop p e) i (fun _ j => i ≤ j ∧ j ≤ L)
  cteList : ∀ i, i ≤ L → lo ≤ i →
    bw T lo L d (r.cteList) i (fun _ j => i + 1 ≤ j ∧ j ≤ L)
  selectList : ∀ i, i ≤ L → lo ≤ i →
    bw T lo L d (r.selectList) i (fun _ j => i + 1 ≤ j ∧ j ≤ L)
  tableRef : ∀ i, i ≤ L → lo ≤ i →
    bw T lo L d (r.tableRef) i (fun _ j => i + 1 ≤ j ∧ j ≤ L)
  tableRefLoop : ∀ l e i, i ≤ L → lo ≤ i →
    bw T lo L d (r.tableRefLoop l e) i (fun _ j => i ≤ j ∧ j ≤ L)
  fromRest : ∀ i, i ≤ L → lo ≤ i →
    bw T lo L d (r.fromRest) i (fun _ j => i ≤ j ∧ j ≤ L)
  defaultLoop : ∀ e i, i ≤ L → lo ≤ i →
    bw T lo L d (r.defaultLoop e) i (fun _ j => i ≤ j ∧ j ≤ L)
  columnLoop : ∀ e s a i, i ≤ L → lo ≤ i →
    bw T lo L d (r.columnLoop e s a) i (fun _ j => i ≤ j ∧ j ≤ L)
  columnConstraints : ∀ i, i ≤ L → lo ≤ i →
    bw T lo L d (r.columnConstraints) i (fun x j => i ≤ j ∧ j ≤ L)
  elements : ∀ i, i ≤ L → lo ≤ i →
    bw T lo L d (r.elements) i (fun _ j => i + 1 ≤ j ∧ j ≤ L)
  tableOptions : ∀ i, i ≤ L → lo ≤ i →
    bw T lo L d (r.tableOptions) i (fun _ j => i ≤ j ∧ j ≤ L)
  assignments : ∀ i, i ≤ L → lo ≤ i →
    bw T lo L d (r.assignments) i (fun _ j => i + 1 ≤ j ∧ j ≤ L)
  rows : ∀ i, i ≤ L → lo ≤ i →
    bw T lo L d (r.rows) i (fun _ j => i + 1 ≤ j ∧ j ≤ L)
  statement : ∀ i, i ≤ L → lo ≤ i →
    bw T lo L d (r.statement) i (fun _ j => i + 1 ≤ j ∧ j ≤ L)

section
variable {T : List Token} {r : Parsers} {lo L i : Nat} {d : Bool}

open Lean Elab Tactic Meta in
/-- One step of symbolic execution: apply the rule for the head of the program. -/
elab "bw_step" : tactic => do
  let g ← getMainGoal
  g.withContext do
  let tgt ← instantiateMVars (← g.getType)
  let tgt := tgt.consumeMData
  unless tgt.isAppOf ``Verif.bw do throwError "not bw"
  let args := tgt.getAppArgs
  let p := args[args.size - 3]!.consumeMData
  let .const c _ := p.getAppFn | throwError "no head"
  let direct (n : Name) : TacticM Unit := do
    let gs ← g.apply (← mkConstWithFreshMVarLevels n)
    replaceMainGoal gs
  let viaMono (n : Name) : TacticM Unit := do
    let [h, hq] ← g.apply (← mkConstWithFreshMVarLevels ``Verif.bw_mono) (cfg := { newGoals := .nonDependentOnly })
      | do
        throwError "bw_mono"
    let gs ← h.apply (← mkConstWithFreshMVarLevels n)
    let mut rest : List MVarId := []
    for x in gs do
      if ← x.isAssigned then continue
      let ty ← instantiateMVars (← x.getType)
      if ty.isAppOf `Verif.Bar || ty.isAppOf `Verif.Rim then
        x.withContext x.assumption
      else rest := rest ++ [x]
    replaceMainGoal (rest ++ [hq])
  if c == ``Bind.bind then
    let m := p.getAppArgs[4]!
    if m.consumeMData.isAppOf ``Bind.bind then direct ``Verif.bw_cut else direct ``Verif.bw_bind
  else if c == ``Pure.pure then direct ``Verif.bw_ret
  else if c == ``Verif.P.err then direct ``Verif.bw_err
  else if c == ``Verif.P.panic then direct ``Verif.bw_panic
  else match c with
    | .str (.str .anonymous "Verif") s =>
      let env ← getEnv
      let w := (`Verif).str ("bw_" ++ s)
      let t := (`Verif).str ("bar_" ++ s)
      if env.contains w then direct w
      else if env.contains t then viaMono t
      else throwError "no rule for {c}"
    | .str (.str (.str .anonymous "Verif") "Parsers") s => viaMono (`Verif.Bar |>.str s)
    | .str (.str (.str .anonymous "Verif") f) s => viaMono ((`Verif).str ("bar_" ++ f ++ "_" ++ s))
    | _ => throwError "no rule for {c}"

macro "bw_clean" : tactic => `(tactic|
  simp only [↓reduceIte, Bool.true_or, Bool.or_true, Bool.false_or, Bool.or_false, Bool.false_eq_true,
    Option.isSome_some, Option.isSome_none, Option.isSome_map, false_implies, true_implies, and_true, true_and,
    word?_semi, kw?_semi, isSym_semi, setOperator_semi, infixOp_semi, Option.bind_some, Option.bind_none, beq_iff_eq,
    reduceCtorEq, or_true])

macro "bw_loop" : tactic => `(tactic| repeat' (first
  | (show Rim _ _ _; assumption)
  | (show _ ≠ Sym.Semicolon; first | assumption | decide)
  | intro _
  | bw_step
  | omega
  | dsimp only
  | bw_clean
  | split))

theorem bar_parseIdentifier (E : Rim T L d) (hi : i ≤ L) (hlo : lo ≤ i) : bw T lo L d (parseIdentifier) i (fun _ j => i + 1 ≤ j ∧ j ≤ L) := by
  unfold parseIdentifier
  bw_loop

theorem bar_parseLiteralInt (E : Rim T L d) (hi : i ≤ L) (hlo : lo ≤ i) : bw T lo L d (parseLiteralInt) i (fun _ j => i + 1 ≤ j ∧ j ≤ L) := by
  unfold parseLiteralInt
  bw_loop

theorem bar_parseOptionalPrecision (E : Rim T L d) (hi : i ≤ L) (hlo : lo ≤ i) : bw T lo L d (parseOptionalPrecision) i (fun _ j => i ≤ j ∧ j ≤ L) := by
  unfold parseOptionalPrecision
  bw_loop

theorem bar_parseOptionalPrecisionScale (E : Rim T L d) (hi : i ≤ L) (hlo : lo ≤ i) : bw T lo L d (parseOptionalPrecisionScale) i (fun _ j => i ≤ j ∧ j ≤ L) := by
  unfold parseOptionalPrecisionScale
  bw_loop

theorem bar_parseMyUnsigned (E : Rim T L d) (hi : i ≤ L) (hlo : lo ≤ i) : bw T lo L d (parseMyUnsigned) i (fun _ j => i ≤ j ∧ j ≤ L) := by
  unfold parseMyUnsigned
  bw_loop

theorem bar_parseOptionalAlias (r) (E : Rim T L d) (hi : i ≤ L) (hlo : lo ≤ i) : bw T lo L d (parseOptionalAlias r) i (fun _ j => i ≤ j ∧ j ≤ L) := by
  unfold parseOptionalAlias
  bw_loop

theorem bar_parseValue (fns) (E : Rim T L d) (hi : i ≤ L) (hlo : lo ≤ i) : bw T lo L d (parseValue fns) i (fun _ j => i + 1 ≤ j ∧ j ≤ L) := by
  unfold parseValue
  bw_loop

theorem bar_getNextPrecedence (E : Rim T L d) (hi : i ≤ L) (hlo : lo ≤ i) : bw T lo L d (getNextPrecedence) i (fun _ j => i = j) := by
  unfold getNextPrecedence
  bw_loop

theorem bar_infixOp (t) (E : Rim T L d) (hi : i ≤ L) (hlo : lo ≤ i) : bw T lo L d (infixOp t) i (fun _ j => i ≤ j ∧ j ≤ L) := by
  unfold infixOp
  bw_loop

theorem bar_parseWindowFrameBound (E : Rim T L d) (hi : i ≤ L) (hlo : lo ≤ i) : bw T lo L d (parseWindowFrameBound) i (fun _ j => i ≤ j ∧ j ≤ L) := by
  unfold parseWindowFrameBound
  bw_loop

theorem bar_parseWindowFrame (E : Rim T L d) (hi : i ≤ L) (hlo : lo ≤ i) : bw T lo L d (parseWindowFrame) i (fun _ j => i ≤ j ∧ j ≤ L) := by
  unfold parseWindowFrame
  bw_loop

theorem bar_parseLimit (E : Rim T L d) (hi : i ≤ L) (hlo : lo ≤ i) : bw T lo L d (parseLimit) i (fun _ j => i ≤ j ∧ j ≤ L) := by
  unfold parseLimit
  bw_loop

theorem bar_parseJoinType (E : Rim T L d) (hi : i ≤ L) (hlo : lo ≤ i) : bw T lo L d (parseJoinType) i (fun _ j => i ≤ j ∧ j ≤ L) := by
  unfold parseJoinType
  bw_loop

theorem bar_parseOptionName (E : Rim T L d) (hi : i ≤ L) (hlo : lo ≤ i) : bw T lo L d (parseOptionName) i (fun _ j => i ≤ j ∧ j ≤ L) := by
  unfold parseOptionName
  bw_loop

theorem bar_parseTableOption (E : Rim T L d) (hi : i ≤ L) (hlo : lo ≤ i) : bw T lo L d (parseTableOption) i (fun _ j => i + 1 ≤ j ∧ j ≤ L) := by
  unfold parseTableOption
  bw_loop

theorem bar_parseCascade (E : Rim T L d) (hi : i ≤ L) (hlo : lo ≤ i) : bw T lo L d (parseCascade) i (fun _ j => i ≤ j ∧ j ≤ L) := by
  unfold parseCascade
  bw_loop

theorem bar_parseDataType_parseChar (t) (E : Rim T L d) (hi : i ≤ L) (hlo : lo ≤ i) : bw T lo L d (parseDataType.parseChar t) i (fun _ j => i ≤ j ∧ j ≤ L) := by
  unfold parseDataType.parseChar
  bw_loop

theorem bar_parseDataType_parseTimeZone (E : Rim T L d) (hi : i ≤ L) (hlo : lo ≤ i) : bw T lo L d (parseDataType.parseTimeZone) i (fun _ j => i ≤ j ∧ j ≤ L) := by
  unfold parseDataType.parseTimeZone
  bw_loop

theorem bar_parseListOfIds (E : Rim T L d) (H : Bar T lo L d r) (s) (hs : s ≠ .Semicolon) (hi : i ≤ L) (hlo : lo ≤ i) :
    bw T lo L d (parseListOfIds r s) i (fun _ j => i + 1 ≤ j ∧ j ≤ L) := by
  unfold parseListOfIds
  refine bw_bind (bw_mono (H.listOfIds s i hs hi hlo) ?_)
  rintro x j ⟨h1, h2, h3⟩
  cases x with
  | none => exact bw_err
  | some l => exact bw_ret ⟨h3 rfl, h2⟩

theorem bar_parseColumnNames (E : Rim T L d) (H : Bar T lo L d r) (hi : i ≤ L) (hlo : lo ≤ i) :
    bw T lo L d (parseColumnNames r) i (fun _ j => i + 1 ≤ j ∧ j ≤ L) := by
  unfold parseColumnNames
  bw_loop

theorem bar_parseObjectName (E : Rim T L d) (H : Bar T lo L d r) (hi : i ≤ L) (hlo : lo ≤ i) :
    bw T lo L d (parseObjectName r) i (fun _ j => i + 1 ≤ j ∧ j ≤ L) := by
  unfold parseObjectName
  bw_loop

theorem bar_parseDataType (E : Rim T L d) (H : Bar T lo L d r) (hi : i ≤ L) (hlo : lo ≤ i) :
    bw T lo L d (parseDataType r) i (fun _ j => i + 1 ≤ j ∧ j ≤ L) := by
  unfold parseDataType
  bw_loop

theorem bar_parseExpr (E : Rim T L d) (H : Bar T lo L d r) (hi : i ≤ L) (hlo : lo ≤ i) :
    bw T lo L d (parseExpr r) i (fun _ j => i + 1 ≤ j ∧ j ≤ L) := by
  unfold parseExpr
  bw_loop

theorem bar_parseIn (E : Rim T L d) (H : Bar T lo L d r) (e) (g) (hi : i ≤ L) (hlo : lo ≤ i) :
    bw T lo L d (parseIn r e g) i (fun _ j => i + 1 ≤ j ∧ j ≤ L) := by
  unfold parseIn
  bw_loop

theorem bar_parseBetween (E : Rim T L d) (H : Bar T lo L d r) (e) (g) (hi : i ≤ L) (hlo : lo ≤ i) :
    bw T lo L d (parseBetween r e g) i (fun _ j => i + 1 ≤ j ∧ j ≤ L) := by
  unfold parseBetween
  bw_loop

theorem bar_parseNotInBetween (E : Rim T L d) (H : Bar T lo L d r) (e) (hi : i ≤ L) (hlo : lo < i) :
    bw T lo L d (parseNotInBetween r e) i (fun _ j => i ≤ j ∧ j ≤ L) := by
  unfold parseNotInBetween
  bw_loop

theorem bar_parseInfix (E : Rim T L d) (H : Bar T lo L d r) (e) (p) (hi : i ≤ L) (hlo : lo ≤ i) :
    bw T lo L d (parseInfix r e p) i (fun _ j => i + 1 ≤ j ∧ j ≤ L) := by
  unfold parseInfix
  refine bw_bind (bw_nextOrErr E hi ?_ ?_)
  · bw_loop
  · intro s f g _ _
    simp only [infixOp_semi]
    bw_loop

theorem bar_parseOptionalArgs (E : Rim T L d) (H : Bar T lo L d r) (hi : i ≤ L) (hlo : lo ≤ i) :
    bw T lo L d (parseOptionalArgs r) i (fun _ j => i ≤ j ∧ j ≤ L) := by
  unfold parseOptionalArgs
  bw_loop

theorem bar_parseOver (E : Rim T L d) (H : Bar T lo L d r) (hi : i ≤ L) (hlo : lo ≤ i) :
    bw T lo L d (parseOver r) i (fun _ j => i + 1 ≤ j ∧ j ≤ L) := by
  unfold parseOver
  bw_loop

theorem bar_parseFunction (E : Rim T L d) (H : Bar T lo L d r) (m) (hi : i ≤ L) (hlo : lo ≤ i) :
    bw T lo L d (parseFunction r m) i (fun _ j => i + 1 ≤ j ∧ j ≤ L) := by
  unfold parseFunction
  bw_loop

theorem bar_parseCaseExpression (E : Rim T L d) (H : Bar T lo L d r) (hi : i ≤ L) (hlo : lo ≤ i) :
    bw T lo L d (parseCaseExpression r) i (fun _ j => i + 1 ≤ j ∧ j ≤ L) := by
  unfold parseCaseExpression
  bw_loop

theorem bar_parseCastExpression (E : Rim T L d) (H : Bar T lo L d r) (hi : i ≤ L) (hlo : lo ≤ i) :
    bw T lo L d (parseCastExpression r) i (fun _ j => i + 1 ≤ j ∧ j ≤ L) := by
  unfold parseCastExpression
  bw_loop

theorem bar_parseExistsExpression (E : Rim T L d) (H : Bar T lo L d r) (t) (hi : i ≤ L) (hlo : lo ≤ i) :
    bw T lo L d (parseExistsExpression r t) i (fun _ j => i + 1 ≤ j ∧ j ≤ L) := by
  unfold parseExistsExpression
  bw_loop

theorem bar_parseName (E : Rim T L d) (H : Bar T lo L d r) (t) (w) (hi : i ≤ L) (hlo : lo ≤ i) :
    bw T lo L d (parseName r t w) i (fun _ j => i ≤ j ∧ j ≤ L) := by
  unfold parseName
  refine bw_bind (bw_peekToken E hi ?_ ?_ ?_)
  · bw_loop
  · intro s f g _ _
    exact bw_ret (a := Expr.ident ⟨w.string, t.from_, t.to_⟩) ⟨Nat.le_refl _, hi⟩
  · bw_loop

theorem bar_parseParen (E : Rim T L d) (H : Bar T lo L d r) (t) (hi : i ≤ L) (hlo : lo ≤ i) :
    bw T lo L d (parseParen r t) i (fun _ j => i ≤ j ∧ j ≤ L) := by
  unfold parseParen
  bw_loop

theorem bar_parseNot (E : Rim T L d) (H : Bar T lo L d r) (t) (hi : i ≤ L) (hlo : lo ≤ i) :
    bw T lo L d (parseNot r t) i (fun _ j => i ≤ j ∧ j ≤ L) := by
  unfold parseNot
  bw_loop

theorem bar_parseFromClause (E : Rim T L d) (H : Bar T lo L d r) (hi : i ≤ L) (hlo : lo ≤ i) :
    bw T lo L d (parseFromClause r) i (fun _ j => i + 1 ≤ j ∧ j ≤ L) := by
  unfold parseFromClause
  bw_loop

theorem bar_parseSelect (E : Rim T L d) (H : Bar T lo L d r) (p) (hi : i ≤ L) (hlo : lo ≤ i) :
    bw T lo L d (parseSelect r p) i (fun _ j => i + 1 ≤ j ∧ j ≤ L) := by
  unfold parseSelect
  bw_loop

theorem bar_parseTableFactor (E : Rim T L d) (H : Bar T lo L d r) (hi : i ≤ L) (hlo : lo ≤ i) :
    bw T lo L d (parseTableFactor r) i (fun _ j => i + 1 ≤ j ∧ j ≤ L) := by
  unfold parseTableFactor
  bw_loop

theorem bar_parseJoinSpec (E : Rim T L d) (H : Bar T lo L d r) (hi : i ≤ L) (hlo : lo ≤ i) :
    bw T lo L d (parseJoinSpec r) i (fun _ j => i + 1 ≤ j ∧ j ≤ L) := by
  unfold parseJoinSpec
  bw_loop

theorem bar_parseQualifiedJoin (E : Rim T L d) (H : Bar T lo L d r) (hi : i ≤ L) (hlo : lo < i) :
    bw T lo L d (parseQualifiedJoin r) i (fun _ j => i ≤ j ∧ j ≤ L) := by
  unfold parseQualifiedJoin
  bw_loop

theorem bar_parseTableReferenceRight (E : Rim T L d) (H : Bar T lo L d r) (hi : i ≤ L) (hlo : lo ≤ i) :
    bw T lo L d (parseTableReferenceRight r) i (fun x j => i ≤ j ∧ j ≤ L ∧ (x.isSome = true → i + 1 ≤ j)) := by
  unfold parseTableReferenceRight
  bw_loop

theorem bar_parseDefaultExpr (E : Rim T L d) (H : Bar T lo L d r) (hi : i ≤ L) (hlo : lo ≤ i) :
    bw T lo L d (parseDefaultExpr r) i (fun _ j => i + 1 ≤ j ∧ j ≤ L) := by
  unfold parseDefaultExpr
  bw_loop

theorem bar_parseColumnSpec (E : Rim T L d) (H : Bar T lo L d r) (t) (hi : i ≤ L) (hlo : lo ≤ i) (ht : i + 1 ≤ L ∨ t.kw? = none) :
    bw T lo L d (parseColumnSpec r t) i (fun x j => i ≤ j ∧ j ≤ L ∧ (x.isSome = true → i + 1 ≤ j)) := by
  unfold parseColumnSpec
  rcases ht with ht | ht
  · bw_loop
  · rw [ht]
    bw_loop

theorem bar_parseColumnDef (E : Rim T L d) (H : Bar T lo L d r) (hi : i ≤ L) (hlo : lo ≤ i) :
    bw T lo L d (parseColumnDef r) i (fun _ j => i + 1 ≤ j ∧ j ≤ L) := by
  unfold parseColumnDef
  bw_loop

theorem bar_parseTableConstraintSpec (E : Rim T L d) (H : Bar T lo L d r) (t) (hi : i ≤ L) (hlo : lo ≤ i) (ht : i + 1 ≤ L ∨ t.word? = none) :
    bw T lo L d (parseTableConstraintSpec r t) i (fun _ j => i + 1 ≤ j ∧ j ≤ L) := by
  unfold parseTableConstraintSpec
  rcases ht with ht | ht
  · bw_loop
  · rw [ht]
    bw_loop

theorem bar_parseTableConstraints (E : Rim T L d) (H : Bar T lo L d r) (hi : i ≤ L) (hlo : lo ≤ i) :
    bw T lo L d (parseTableConstraints r) i (fun _ j => i + 1 ≤ j ∧ j ≤ L) := by
  unfold parseTableConstraints
  bw_loop

theorem bar_parseElement_parseC (E : Rim T L d) (H : Bar T lo L d r) (hi : i ≤ L) (hlo : lo ≤ i) :
    bw T lo L d (parseElement.parseC r) i (fun _ j => i + 1 ≤ j ∧ j ≤ L) := by
  unfold parseElement.parseC
  bw_loop

theorem bar_parseElement (E : Rim T L d) (H : Bar T lo L d r) (w) (hi : i ≤ L) (hlo : lo < i) :
    bw T lo L d (parseElement r w) i (fun _ j => i ≤ j ∧ j ≤ L) := by
  unfold parseElement
  bw_loop

theorem bar_parseElements (E : Rim T L d) (H : Bar T lo L d r) (hi : i ≤ L) (hlo : lo ≤ i) :
    bw T lo L d (parseElements r) i (fun _ j => i ≤ j ∧ j ≤ L) := by
  unfold parseElements
  bw_loop

theorem bar_parseCreateTable (E : Rim T L d) (H : Bar T lo L d r) (t) (hi : i ≤ L) (hlo : lo ≤ i) :
    bw T lo L d (parseCreateTable r t) i (fun _ j => i ≤ j ∧ j ≤ L) := by
  unfold parseCreateTable
  bw_loop

theorem bar_parseCreateView (E : Rim T L d) (H : Bar T lo L d r) (t) (hi : i ≤ L) (hlo : lo ≤ i) :
    bw T lo L d (parseCreateView r t) i (fun _ j => i ≤ j ∧ j ≤ L) := by
  unfold parseCreateView
  bw_loop

theorem bar_parseCreateIndex (E : Rim T L d) (H : Bar T lo L d r) (u) (hi : i ≤ L) (hlo : lo ≤ i) :
    bw T lo L d (parseCreateIndex r u) i (fun _ j => i ≤ j ∧ j ≤ L) := by
  unfold parseCreateIndex
  bw_loop

theorem bar_parseCreate (E : Rim T L d) (H : Bar T lo L d r) (hi : i ≤ L) (hlo : lo ≤ i) :
    bw T lo L d (parseCreate r) i (fun _ j => i + 1 ≤ j ∧ j ≤ L) := by
  unfold parseCreate
  bw_loop

theorem bar_parseDelete (E : Rim T L d) (H : Bar T lo L d r) (hi : i ≤ L) (hlo : lo ≤ i) :
    bw T lo L d (parseDelete r) i (fun _ j => i + 1 ≤ j ∧ j ≤ L) := by
  unfold parseDelete
  bw_loop

theorem bar_parseUpdate (E : Rim T L d) (H : Bar T lo L d r) (hi : i ≤ L) (hlo : lo ≤ i) :
    bw T lo L d (parseUpdate r) i (fun _ j => i + 1 ≤ j ∧ j ≤ L) := by
  unfold parseUpdate
  bw_loop

theorem bar_parseInsert (E : Rim T L d) (H : Bar T lo L d r) (hi : i ≤ L) (hlo : lo ≤ i) :
    bw T lo L d (parseInsert r) i (fun _ j => i + 1 ≤ j ∧ j ≤ L) := by
  unfold parseInsert
  bw_loop

theorem bar_parseAlterColumn (E : Rim T L d) (H : Bar T lo L d r) (t) (hi : i ≤ L) (hlo : lo ≤ i) :
    bw T lo L d (parseAlterColumn r t) i (fun _ j => i ≤ j ∧ j ≤ L) := by
  unfold parseAlterColumn
  bw_loop

theorem bar_parseAlterAction (E : Rim T L d) (H : Bar T lo L d r) (hi : i ≤ L) (hlo : lo ≤ i) :
    bw T lo L d (parseAlterAction r) i (fun _ j => i ≤ j ∧ j ≤ L) := by
  unfold parseAlterAction
  bw_loop

theorem bar_parseAlter (E : Rim T L d) (H : Bar T lo L d r) (hi : i ≤ L) (hlo : lo ≤ i) :
    bw T lo L d (parseAlter r) i (fun _ j => i + 1 ≤ j ∧ j ≤ L) := by
  unfold parseAlter
  bw_loop

theorem bar_parseDrop (E : Rim T L d) (H : Bar T lo L d r) (hi : i ≤ L) (hlo : lo ≤ i) :
    bw T lo L d (parseDrop r) i (fun _ j => i + 1 ≤ j ∧ j ≤ L) := by
  unfold parseDrop
  bw_loop

theorem bar_statementF_parseQueryStmt (E : Rim T L d) (H : Bar T lo L d r) (hi : i ≤ L) (hlo : lo < i) :
    bw T lo L d (statementF.parseQueryStmt r) i (fun _ j => i ≤ j ∧ j ≤ L) := by
  unfold statementF.parseQueryStmt
  bw_loop

theorem bar_columnLoopF_parseSpecs (E : Rim T L d) (H : Bar T lo L d r) (e a) (hi : i ≤ L) (hlo : lo ≤ i) :
    bw T lo L d (columnLoopF.parseSpecs r e a) i (fun _ j => i ≤ j ∧ j ≤ L) := by
  unfold columnLoopF.parseSpecs
  bw_loop

theorem bar_step (fns : FloatFns) (E : Rim T L d) (H : Bar T lo L d r) : Bar T lo L d (Parsers.step fns r) where
  subexpr := by
    intro p i hi hlo
    show bw T lo L d (subexprF r p) i _
    unfold subexprF
    bw_loop
  subexprLoop := by
    intro p e i hi hlo
    show bw T lo L d (subexprLoopF r p e) i _
    unfold subexprLoopF
    bw_loop
  prefix_ := by
    intro  i hi hlo
    show bw T lo L d (prefixF fns r ) i _
    unfold prefixF
    bw_loop
  idParts := by
    intro  i hi hlo
    show bw T lo L d (idPartsF r ) i _
    unfold idPartsF
    bw_loop
  exprList := by
    intro  i hi hlo
    show bw T lo L d (exprListF r ) i _
    unfold exprListF
    bw_loop
  listOfIds := by
    intro s i hs hi hlo
    show bw T lo L d (listOfIdsF r s) i _
    unfold listOfIdsF
    bw_loop
  listOfIdsSep := by
    intro s i hs hi hlo
    show bw T lo L d (listOfIdsSepF r s) i _
    unfold listOfIdsSepF
    refine bw_bind (bw_nextToken E hi ?_ ?_ ?_)
    · bw_loop
    · intro s' f g _ _
      simp only [isSym_semi, beq_iff_eq]
      rw [if_neg (Ne.symm hs)]
      bw_loop
    · bw_loop
  orderByList := by
    intro  i hi hlo
    show bw T lo L d (orderByListF r ) i _
    unfold orderByListF
    bw_loop
  caseLoop := by
    intro  i hi hlo
    show bw T lo L d (caseLoopF r ) i _
    unfold caseLoopF
    bw_loop
  query := by
    intro  i hi hlo
    show bw T lo L d (queryF r ) i _
    unfold queryF
    bw_loop
  queryBody := by
    intro p i hi hlo
    show bw T lo L d (queryBodyF r p) i _
    unfold queryBodyF
    bw_loop
  bodyLoop := by
    intro p e i hi hlo
    show bw T lo L d (bodyLoopF r p e) i _
    unfold bodyLoopF
    bw_loop
  cteList := by
    intro  i hi hlo
    show bw T lo L d (cteListF r ) i _
    unfold cteListF
    bw_loop
  selectList := by
    intro  i hi hlo
    show bw T lo L d (selectListF r ) i _
    unfold selectListF
    bw_loop
  tableRef := by
    intro  i hi hlo
    show bw T lo L d (tableRefF r ) i _
    unfold tableRefF
    bw_loop
  tableRefLoop := by
    intro l e i hi hlo
    show bw T lo L d (tableRefLoopF r l e) i _
    unfold tableRefLoopF
    bw_loop
  fromRest := by
    intro  i hi hlo
    show bw T lo L d (fromRestF r ) i _
    unfold fromRestF
    bw_loop
  defaultLoop := by
    intro e i hi hlo
    show bw T lo L d (defaultLoopF r e) i _
    unfold defaultLoopF
    bw_loop
  columnLoop := by
    intro d' s a i hi hlo
    show bw T lo L d (columnLoopF r d' s a) i _
    unfold columnLoopF
    bw_loop
  columnConstraints := by
    intro i hi hlo
    show bw T lo L d (columnConstraintsF r ) i _
    unfold columnConstraintsF
    bw_loop
  elements := by
    intro  i hi hlo
    show bw T lo L d (elementsF r ) i _
    unfold elementsF
    bw_loop
  tableOptions := by
    intro  i hi hlo
    show bw T lo L d (tableOptionsF r ) i _
    unfold tableOptionsF
    bw_loop
  assignments := by
    intro  i hi hlo
    show bw T lo L d (assignmentsF r ) i _
    unfold assignmentsF
    bw_loop
  rows := by
    intro  i hi hlo
    show bw T lo L d (rowsF r ) i _
    unfold rowsF
    bw_loop
  statement := by
    intro  i hi hlo
    show bw T lo L d (statementF r ) i _
    unfold statementF
    bw_loop

theorem bar_bot : Bar T lo L d Parsers.bot := by constructor <;> intros <;> exact bw_oof

theorem bar_at (fns : FloatFns) (E : Rim T L d) : ∀ n, Bar T lo L d (Parsers.at fns n)
  | 0 => bar_bot
  | n + 1 => bar_step fns E (bar_at fns E n)

end
end Verif
