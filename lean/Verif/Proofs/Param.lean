import Verif.Spec.Erase
import Verif.Proofs.Mono
/-
Positions never influence what the parser does: on token lists that differ only in positions every parser
function takes the same steps and returns results that differ only in positions.
-/
set_option linter.unusedSimpArgs false
namespace Verif

/-- Types with an operation that forgets positions. -/
class Erases (α : Type) where
  er : α → α
export Erases (er)

def Token.erase (t : Token) : Token := ⟨t.tok, Pos.zero, Pos.zero⟩

def JoinRight.erase : JoinRight → JoinRight
  | .natural tp right => .natural tp.erase right.erase
  | .cross f => .cross f.erase
  | .qualified r tp spec => .qualified r.erase tp.erase spec.erase

def KwRes.erase : KwRes → KwRes
  | .eof => .eof
  | .no t => .no t.erase
  | .yes t => .yes t.erase

instance : Erases Pos := ⟨fun _ => Pos.zero⟩
instance : Erases Token := ⟨Token.erase⟩
instance : Erases KwRes := ⟨KwRes.erase⟩
instance : Erases Bool := ⟨id⟩
instance : Erases Nat := ⟨id⟩
instance : Erases Int := ⟨id⟩
instance : Erases Unit := ⟨id⟩
instance : Erases OpType := ⟨id⟩
instance : Erases Ident := ⟨Ident.erase⟩
instance : Erases ObjectName := ⟨ObjectName.erase⟩
instance : Erases DataType := ⟨DataType.erase⟩
instance : Erases Expr := ⟨Expr.erase⟩
instance : Erases FrameBound := ⟨FrameBound.erase⟩
instance : Erases WindowFrame := ⟨WindowFrame.erase⟩
instance : Erases WindowSpec := ⟨WindowSpec.erase⟩
instance : Erases OrderByExpr := ⟨OrderByExpr.erase⟩
instance : Erases LimitExpr := ⟨LimitExpr.erase⟩
instance : Erases LongValue := ⟨LongValue.erase⟩
instance : Erases QueryStmt := ⟨QueryStmt.erase⟩
instance : Erases CTE := ⟨CTE.erase⟩
instance : Erases SetExpr := ⟨SetExpr.erase⟩
instance : Erases SelectItem := ⟨SelectItem.erase⟩
instance : Erases TableFactor := ⟨TableFactor.erase⟩
instance : Erases TableRef := ⟨TableRef.erase⟩
instance : Erases JoinType := ⟨JoinType.erase⟩
instance : Erases JoinSpec := ⟨JoinSpec.erase⟩
instance : Erases JoinRight := ⟨JoinRight.erase⟩
instance : Erases RowValueExpr := ⟨RowValueExpr.erase⟩
instance : Erases InsertSource := ⟨InsertSource.erase⟩
instance : Erases Assignment := ⟨Assignment.erase⟩
instance : Erases TableConstraintSpec := ⟨TableConstraintSpec.erase⟩
instance : Erases TableConstraint := ⟨TableConstraint.erase⟩
instance : Erases ColumnSpec := ⟨ColumnSpec.erase⟩
instance : Erases ColumnConstraint := ⟨ColumnConstraint.erase⟩
instance : Erases AutoIncrement := ⟨AutoIncrement.erase⟩
instance : Erases ColumnDef := ⟨ColumnDef.erase⟩
instance : Erases TableElement := ⟨TableElement.erase⟩
instance : Erases TableOption := ⟨TableOption.erase⟩
instance : Erases AlterTableAction := ⟨AlterTableAction.erase⟩
instance : Erases Stmt := ⟨Stmt.erase⟩
instance [Erases α] : Erases (Option α) := ⟨Option.map er⟩
instance [Erases α] : Erases (List α) := ⟨List.map er⟩
instance [Erases α] [Erases β] : Erases (α × β) := ⟨fun x => (er x.1, er x.2)⟩

theorem Expr.erases_eq (l : List Expr) : Expr.erases l = l.map Expr.erase := by
  induction l with
  | nil => rfl
  | cons e l ih => simp [Expr.erases, ih]
theorem Expr.eraseOpt_eq (l : Option Expr) : Expr.eraseOpt l = l.map Expr.erase := by cases l <;> simp [Expr.eraseOpt]
theorem WindowSpec.eraseOpt_eq (l : Option WindowSpec) : WindowSpec.eraseOpt l = l.map WindowSpec.erase := by
  cases l <;> simp [WindowSpec.eraseOpt]
theorem OrderByExpr.erases_eq (l : List OrderByExpr) : OrderByExpr.erases l = l.map OrderByExpr.erase := by
  induction l with
  | nil => rfl
  | cons e l ih => simp [OrderByExpr.erases, ih]
theorem CTE.erases_eq (l : List CTE) : CTE.erases l = l.map CTE.erase := by
  induction l with
  | nil => rfl
  | cons e l ih => simp [CTE.erases, ih]
theorem SelectItem.erases_eq (l : List SelectItem) : SelectItem.erases l = l.map SelectItem.erase := by
  induction l with
  | nil => rfl
  | cons e l ih => simp [SelectItem.erases, ih]
theorem TableRef.erases_eq (l : List TableRef) : TableRef.erases l = l.map TableRef.erase := by
  induction l with
  | nil => rfl
  | cons e l ih => simp [TableRef.erases, ih]

/-- The programs take the same steps on tokens that differ only in positions, and return values that differ
only in positions. -/
inductive P.Sim [Erases α] : P α → P α → Prop
  | ret {a b : α} : er a = er b → P.Sim (.ret a) (.ret b)
  | next {k k' : Option Token → P α} : (∀ t t', er t = er t' → P.Sim (k t) (k' t')) → P.Sim (.next k) (.next k')
  | peek {k k' : Option Token → P α} : (∀ t t', er t = er t' → P.Sim (k t) (k' t')) → P.Sim (.peek k) (.peek k')
  | prev {k k' : P α} : P.Sim k k' → P.Sim (.prev k) (.prev k')
  | kws {ks} {k k' : Option (List Token) → P α} : (∀ t t', er t = er t' → P.Sim (k t) (k' t')) →
      P.Sim (.kws ks k) (.kws ks k')
  | err : P.Sim .err .err
  | panic : P.Sim .panic .panic
  | oof : P.Sim .oof .oof

namespace P.Sim

theorem pure [Erases α] {a b : α} (h : er a = er b) : P.Sim (pure a : P α) (Pure.pure b) := .ret h

theorem bind [Erases α] [Erases β] {p p' : P α} {f f' : α → P β} (h : P.Sim p p')
    (hf : ∀ x y, er x = er y → P.Sim (f x) (f' y)) : P.Sim (p >>= f) (p' >>= f') := by
  show P.Sim (P.bind p f) (P.bind p' f')
  induction h with
  | ret h => exact hf _ _ h
  | next _ ih => exact .next fun t t' h => ih t t' h
  | peek _ ih => exact .peek fun t t' h => ih t t' h
  | prev _ ih => exact .prev ih
  | kws _ ih => exact .kws fun t t' h => ih t t' h
  | err => exact .err
  | panic => exact .panic
  | oof => exact .oof

theorem bindB [Erases β] {p p' : P Bool} {f f' : Bool → P β} (h : P.Sim p p')
    (hf : ∀ x, P.Sim (f x) (f' x)) : P.Sim (p >>= f) (p' >>= f') :=
  bind h fun x y e => by cases (e : x = y); exact hf x
theorem bindN [Erases β] {p p' : P Nat} {f f' : Nat → P β} (h : P.Sim p p')
    (hf : ∀ x, P.Sim (f x) (f' x)) : P.Sim (p >>= f) (p' >>= f') :=
  bind h fun x y e => by cases (e : x = y); exact hf x
theorem bindU [Erases β] {p p' : P Unit} {f f' : Unit → P β} (h : P.Sim p p')
    (hf : ∀ x, P.Sim (f x) (f' x)) : P.Sim (p >>= f) (p' >>= f') :=
  bind h fun x _ _ => hf x
theorem bindOp [Erases β] {p p' : P (Option OpType)} {f f' : Option OpType → P β} (h : P.Sim p p')
    (hf : ∀ x, P.Sim (f x) (f' x)) : P.Sim (p >>= f) (p' >>= f') :=
  bind h fun x y e => by
    have : x = y := by
      cases x <;> cases y <;> simp [er] at e
      · rfl
      · rw [e]
    cases this; exact hf x

theorem tok_eq {t t' : Token} (h : er t = er t') : t.tok = t'.tok := by
  simpa [er, Token.erase] using h

theorem bindT [Erases β] {p p' : P Token} {f f' : Token → P β} (h : P.Sim p p')
    (hf : ∀ k a b a' b', P.Sim (f ⟨k, a, b⟩) (f' ⟨k, a', b'⟩)) : P.Sim (p >>= f) (p' >>= f') :=
  bind h fun x y e => by
    obtain ⟨k, a, b⟩ := x
    obtain ⟨k', a', b'⟩ := y
    cases (tok_eq e : k = k')
    exact hf k a b a' b'

theorem bindOT [Erases β] {p p' : P (Option Token)} {f f' : Option Token → P β} (h : P.Sim p p')
    (h0 : P.Sim (f none) (f' none))
    (hf : ∀ k a b a' b', P.Sim (f (some ⟨k, a, b⟩)) (f' (some ⟨k, a', b'⟩))) : P.Sim (p >>= f) (p' >>= f') :=
  bind h fun x y e => by
    cases x <;> cases y <;> simp [er] at e
    · exact h0
    · rename_i x y
      obtain ⟨k, a, b⟩ := x
      obtain ⟨k', a', b'⟩ := y
      cases (tok_eq e : k = k')
      exact hf k a b a' b'

theorem bindKw [Erases β] {p p' : P KwRes} {f f' : KwRes → P β} (h : P.Sim p p')
    (h0 : P.Sim (f .eof) (f' .eof))
    (h1 : ∀ k a b a' b', P.Sim (f (.no ⟨k, a, b⟩)) (f' (.no ⟨k, a', b'⟩)))
    (h2 : ∀ k a b a' b', P.Sim (f (.yes ⟨k, a, b⟩)) (f' (.yes ⟨k, a', b'⟩))) : P.Sim (p >>= f) (p' >>= f') :=
  bind h fun x y e => by
    cases x <;> cases y <;> simp [er, KwRes.erase] at e
    · exact h0
    · rename_i x y
      obtain ⟨k, a, b⟩ := x
      obtain ⟨k', a', b'⟩ := y
      cases (tok_eq e : k = k')
      exact h1 k a b a' b'
    · rename_i x y
      obtain ⟨k, a, b⟩ := x
      obtain ⟨k', a', b'⟩ := y
      cases (tok_eq e : k = k')
      exact h2 k a b a' b'

theorem bindOpt [Erases α] [Erases β] {p p' : P (Option α)} {f f' : Option α → P β} (h : P.Sim p p')
    (h0 : P.Sim (f none) (f' none))
    (hf : ∀ x y, er x = er y → P.Sim (f (some x)) (f' (some y))) : P.Sim (p >>= f) (p' >>= f') :=
  bind h fun x y e => by
    cases x <;> cases y <;> simp [er] at e
    · exact h0
    · exact hf _ _ e

theorem bindP [Erases α] [Erases γ] [Erases β] {p p' : P (α × γ)} {f f' : α × γ → P β} (h : P.Sim p p')
    (hf : ∀ x y x' y', er x = er x' → er y = er y' → P.Sim (f (x, y)) (f' (x', y'))) :
    P.Sim (p >>= f) (p' >>= f') :=
  bind h fun x y e => by
    obtain ⟨x1, x2⟩ := x
    obtain ⟨y1, y2⟩ := y
    injection e with e1 e2
    exact hf _ _ _ _ e1 e2

theorem bindP3 [Erases α] [Erases γ] [Erases δ] [Erases β] {p p' : P (α × γ × δ)} {f f' : α × γ × δ → P β}
    (h : P.Sim p p')
    (hf : ∀ x y z x' y' z', er x = er x' → er y = er y' → er z = er z' → P.Sim (f (x, y, z)) (f' (x', y', z'))) :
    P.Sim (p >>= f) (p' >>= f') :=
  bind h fun x y e => by
    obtain ⟨x1, x2, x3⟩ := x
    obtain ⟨y1, y2, y3⟩ := y
    injection e with e1 e2
    injection e2 with e2 e3
    exact hf _ _ _ _ _ _ e1 e2 e3

theorem bindI [Erases β] {p p' : P (Int × Token)} {f f' : Int × Token → P β} (h : P.Sim p p')
    (hf : ∀ i t t', er t = er t' → P.Sim (f (i, t)) (f' (i, t'))) : P.Sim (p >>= f) (p' >>= f') :=
  bindP h fun x y x' y' e e' => by cases (e : x = x'); exact hf x y y' e'

theorem bindPB [Erases α] [Erases β] {p p' : P (α × Bool)} {f f' : α × Bool → P β} (h : P.Sim p p')
    (hf : ∀ x x' b, er x = er x' → P.Sim (f (x, b)) (f' (x', b))) : P.Sim (p >>= f) (p' >>= f') :=
  bindP h fun x y x' y' e e' => by cases (e' : y = y'); exact hf x x' y e

theorem ite [Erases α] {c : Prop} [i : Decidable c] [i' : Decidable c] {p p' q q' : P α} (h1 : c → P.Sim p p')
    (h2 : ¬c → P.Sim q q') : P.Sim (@_root_.ite _ c i p q) (@_root_.ite _ c i' p' q') := by
  by_cases h : c
  · rw [if_pos h, if_pos h]; exact h1 h
  · rw [if_neg h, if_neg h]; exact h2 h

end P.Sim

/-- The entry points of two records correspond. -/
structure Parsers.Sim (r r' : Parsers) : Prop where
  subexpr : ∀ p, P.Sim (r.subexpr p) (r'.subexpr p)
  subexprLoop : ∀ p e e', er e = er e' → P.Sim (r.subexprLoop p e) (r'.subexprLoop p e')
  prefix_ : P.Sim r.prefix_ r'.prefix_
  idParts : P.Sim r.idParts r'.idParts
  exprList : P.Sim r.exprList r'.exprList
  listOfIds : ∀ s, P.Sim (r.listOfIds s) (r'.listOfIds s)
  listOfIdsSep : ∀ s, P.Sim (r.listOfIdsSep s) (r'.listOfIdsSep s)
  orderByList : P.Sim r.orderByList r'.orderByList
  caseLoop : P.Sim r.caseLoop r'.caseLoop
  query : P.Sim r.query r'.query
  queryBody : ∀ p, P.Sim (r.queryBody p) (r'.queryBody p)
  bodyLoop : ∀ p e e', er e = er e' → P.Sim (r.bodyLoop p e) (r'.bodyLoop p e')
  cteList : P.Sim r.cteList r'.cteList
  selectList : P.Sim r.selectList r'.selectList
  tableRef : P.Sim r.tableRef r'.tableRef
  tableRefLoop : ∀ l l' e e', er l = er l' → er e = er e' → P.Sim (r.tableRefLoop l e) (r'.tableRefLoop l' e')
  fromRest : P.Sim r.fromRest r'.fromRest
  defaultLoop : ∀ e e', er e = er e' → P.Sim (r.defaultLoop e) (r'.defaultLoop e')
  columnLoop : ∀ d d' s s' c c', er d = er d' → er s = er s' → er c = er c' →
    P.Sim (r.columnLoop d s c) (r'.columnLoop d' s' c')
  columnConstraints : P.Sim r.columnConstraints r'.columnConstraints
  elements : P.Sim r.elements r'.elements
  tableOptions : P.Sim r.tableOptions r'.tableOptions
  assignments : P.Sim r.assignments r'.assignments
  rows : P.Sim r.rows r'.rows
  statement : P.Sim r.statement r'.statement

/-- Close an equation between erased values. -/
macro "er_eq" : tactic => `(tactic| first
  | rfl
  | assumption
  | (simp_all [er, Token.erase, JoinRight.erase, KwRes.erase, Ident.erase, ObjectName.erase, DataType.erase, Operator.erase,
      LongValue.erase, WindowFrameUnit.erase, FrameBound.erase, WindowFrame.erase, JoinType.erase, SetOp.erase,
      LimitExpr.erase, Expr.erase, Expr.erases_eq, Expr.eraseOpt_eq, WindowSpec.erase, WindowSpec.eraseOpt_eq,
      OrderByExpr.erase, OrderByExpr.erases_eq, QueryStmt.erase, CTE.erase, CTE.erases_eq, SetExpr.erase,
      SQLSelect.erase, SelectItem.erase, SelectItem.erases_eq, TableFactor.erase, TableRef.erase,
      TableRef.erases_eq, JoinSpec.erase, RowValueExpr.erase, InsertSource.erase, Assignment.erase,
      ReferenceKeyExpr.erase, TableConstraintSpec.erase, TableConstraint.erase, ColumnSpec.erase,
      ColumnConstraint.erase, AutoIncrement.erase, ColumnDef.erase, TableElement.erase, TableOption.erase,
      AlterColumnAction.erase, AlterTableAction.erase, Stmt.erase]; done))

theorem sim_nextToken : P.Sim nextToken nextToken := .next fun _ _ h => .ret h
theorem sim_peekToken : P.Sim peekToken peekToken := .peek fun _ _ h => .ret h
theorem sim_prevToken : P.Sim prevToken prevToken := .prev (.ret rfl)
theorem sim_parseKeywords (ks) : P.Sim (parseKeywords ks) (parseKeywords ks) := .kws fun _ _ h => .ret h
theorem sim_nextOrErr : P.Sim nextOrErr nextOrErr := .next fun t t' h => by
  cases t <;> cases t' <;> simp [er] at h
  · exact .err
  · exact .ret h
theorem sim_mustNext : P.Sim mustNext mustNext := .next fun t t' h => by
  cases t <;> cases t' <;> simp [er] at h
  · exact .panic
  · exact .ret h
theorem sim_mustPeek : P.Sim mustPeek mustPeek := .peek fun t t' h => by
  cases t <;> cases t' <;> simp [er] at h
  · exact .panic
  · exact .ret h

open Lean Parser.Tactic in
/-- Step through two runs of the same program; the lemmas given are used for calls. -/
macro "sim" "[" ls:term,* "]" : tactic => do
  let alts ← ls.getElems.mapM fun l => `(tactic| (apply $l <;> er_eq))
  let calls : TSyntax `tactic ← `(tactic| first
    | exact sim_nextToken | exact sim_peekToken | exact sim_prevToken | exact sim_parseKeywords _
    | exact sim_nextOrErr | exact sim_mustNext | exact sim_mustPeek
    $[| $alts:tactic]*)
  `(tactic| repeat' first
    | exact P.Sim.err
    | exact P.Sim.panic
    | exact P.Sim.oof
    | (apply P.Sim.pure; er_eq)
    | $calls:tactic
    | refine P.Sim.ite (fun _ => ?_) (fun _ => ?_)
    | refine P.Sim.bindB ?_ (fun _ => ?_)
    | refine P.Sim.bindN ?_ (fun _ => ?_)
    | refine P.Sim.bindU ?_ (fun _ => ?_)
    | refine P.Sim.bindOp ?_ (fun _ => ?_)
    | refine P.Sim.bindT ?_ (fun _ _ _ _ _ => ?_)
    | refine P.Sim.bindOT ?_ ?_ (fun _ _ _ _ _ => ?_)
    | refine P.Sim.bindKw ?_ ?_ (fun _ _ _ _ _ => ?_) (fun _ _ _ _ _ => ?_)
    | refine P.Sim.bindI ?_ (fun _ _ _ _ => ?_)
    | refine P.Sim.bindPB ?_ (fun _ _ _ _ => ?_)
    | refine P.Sim.bindP3 ?_ (fun _ _ _ _ _ _ _ _ _ => ?_)
    | refine P.Sim.bindP ?_ (fun _ _ _ _ _ _ => ?_)
    | refine P.Sim.bindOpt ?_ ?_ (fun _ _ _ => ?_)
    | refine P.Sim.bind ?_ (fun _ _ _ => ?_)
    | dsimp only [Token.word?, Token.isSym, Token.kw?, Token.matchesKw, getPrecedence, setOperator, Option.bind_some,
        Option.bind_none]
    | split)

theorem sim_parseKeyword (k) : P.Sim (parseKeyword k) (parseKeyword k) := by
  unfold parseKeyword; sim []
theorem sim_kw (k) : P.Sim (kw k) (kw k) := by unfold kw; sim [sim_parseKeyword]
theorem sim_kwTok (k) : P.Sim (kwTok k) (kwTok k) := by unfold kwTok; sim [sim_parseKeyword]
theorem sim_kwOrErr (k) : P.Sim (kwOrErr k) (kwOrErr k) := by unfold kwOrErr; sim [sim_parseKeyword]
theorem sim_expectKeyword (k) : P.Sim (expectKeyword k) (expectKeyword k) := by
  unfold expectKeyword; sim [sim_parseKeyword]
theorem sim_consumeToken (k) : P.Sim (consumeToken k) (consumeToken k) := by unfold consumeToken; sim []
theorem sim_expectToken (k) : P.Sim (expectToken k) (expectToken k) := by
  unfold expectToken; sim [sim_consumeToken]
theorem sim_nextSym (k) : P.Sim (nextSym k) (nextSym k) := by unfold nextSym; sim []

theorem sim_parseIdentifier :
    P.Sim (parseIdentifier) (parseIdentifier) := by
  unfold parseIdentifier; sim [sim_parseKeyword, sim_kw, sim_kwTok, sim_kwOrErr, sim_expectKeyword, sim_consumeToken, sim_expectToken, sim_nextSym]

theorem sim_parseLiteralInt :
    P.Sim (parseLiteralInt) (parseLiteralInt) := by
  unfold parseLiteralInt; sim [sim_parseKeyword, sim_kw, sim_kwTok, sim_kwOrErr, sim_expectKeyword, sim_consumeToken, sim_expectToken, sim_nextSym]

theorem sim_parseOptionalPrecision :
    P.Sim (parseOptionalPrecision) (parseOptionalPrecision) := by
  unfold parseOptionalPrecision; sim [sim_parseKeyword, sim_kw, sim_kwTok, sim_kwOrErr, sim_expectKeyword, sim_consumeToken, sim_expectToken, sim_nextSym, sim_parseLiteralInt]

theorem sim_parseOptionalPrecisionScale :
    P.Sim (parseOptionalPrecisionScale) (parseOptionalPrecisionScale) := by
  unfold parseOptionalPrecisionScale; sim [sim_parseKeyword, sim_kw, sim_kwTok, sim_kwOrErr, sim_expectKeyword, sim_consumeToken, sim_expectToken, sim_nextSym, sim_parseLiteralInt]

theorem sim_parseMyUnsigned :
    P.Sim (parseMyUnsigned) (parseMyUnsigned) := by
  unfold parseMyUnsigned; sim [sim_parseKeyword, sim_kw, sim_kwTok, sim_kwOrErr, sim_expectKeyword, sim_consumeToken, sim_expectToken, sim_nextSym]

theorem sim_listOfIdsF {r r' : Parsers} (h : Parsers.Sim r r') (s) :
    P.Sim (listOfIdsF r s) (listOfIdsF r' s) := by
  unfold listOfIdsF; sim [sim_parseKeyword, sim_kw, sim_kwTok, sim_kwOrErr, sim_expectKeyword, sim_consumeToken, sim_expectToken, sim_nextSym, h.listOfIdsSep]

theorem sim_listOfIdsSepF {r r' : Parsers} (h : Parsers.Sim r r') (s) :
    P.Sim (listOfIdsSepF r s) (listOfIdsSepF r' s) := by
  unfold listOfIdsSepF; sim [sim_parseKeyword, sim_kw, sim_kwTok, sim_kwOrErr, sim_expectKeyword, sim_consumeToken, sim_expectToken, sim_nextSym, h.listOfIds]

theorem sim_parseListOfIds {r r' : Parsers} (h : Parsers.Sim r r') (s) :
    P.Sim (parseListOfIds r s) (parseListOfIds r' s) := by
  unfold parseListOfIds; sim [sim_parseKeyword, sim_kw, sim_kwTok, sim_kwOrErr, sim_expectKeyword, sim_consumeToken, sim_expectToken, sim_nextSym, h.listOfIds]

theorem sim_parseColumnNames {r r' : Parsers} (h : Parsers.Sim r r') :
    P.Sim (parseColumnNames r) (parseColumnNames r') := by
  unfold parseColumnNames; sim [sim_parseKeyword, sim_kw, sim_kwTok, sim_kwOrErr, sim_expectKeyword, sim_consumeToken, sim_expectToken, sim_nextSym, sim_parseListOfIds h]

theorem sim_parseObjectName {r r' : Parsers} (h : Parsers.Sim r r') :
    P.Sim (parseObjectName r) (parseObjectName r') := by
  unfold parseObjectName; sim [sim_parseKeyword, sim_kw, sim_kwTok, sim_kwOrErr, sim_expectKeyword, sim_consumeToken, sim_expectToken, sim_nextSym, sim_parseListOfIds h]

theorem sim_parseChar (k a b a' b') :
    P.Sim (parseDataType.parseChar ⟨k, a, b⟩) (parseDataType.parseChar ⟨k, a', b'⟩) := by
  unfold parseDataType.parseChar; sim [sim_kwTok, sim_parseOptionalPrecision]

theorem sim_parseDataType_parseTimeZone :
    P.Sim (parseDataType.parseTimeZone) (parseDataType.parseTimeZone) := by
  unfold parseDataType.parseTimeZone; sim [sim_parseKeyword, sim_kw, sim_kwTok, sim_kwOrErr, sim_expectKeyword, sim_consumeToken, sim_expectToken, sim_nextSym]

theorem sim_parseDataType {r r' : Parsers} (h : Parsers.Sim r r') :
    P.Sim (parseDataType r) (parseDataType r') := by
  unfold parseDataType; sim [sim_parseKeyword, sim_kw, sim_kwTok, sim_kwOrErr, sim_expectKeyword, sim_consumeToken, sim_expectToken, sim_nextSym, sim_parseOptionalPrecision, sim_parseOptionalPrecisionScale, sim_parseMyUnsigned, sim_parseChar, sim_parseDataType_parseTimeZone, sim_parseObjectName h]

theorem sim_parseOptionalAlias (t) :
    P.Sim (parseOptionalAlias t) (parseOptionalAlias t) := by
  unfold parseOptionalAlias; sim [sim_parseKeyword, sim_kw, sim_kwTok, sim_kwOrErr, sim_expectKeyword, sim_consumeToken, sim_expectToken, sim_nextSym]

theorem sim_parseValue (fns) :
    P.Sim (parseValue fns) (parseValue fns) := by
  unfold parseValue; sim [sim_parseKeyword, sim_kw, sim_kwTok, sim_kwOrErr, sim_expectKeyword, sim_consumeToken, sim_expectToken, sim_nextSym]

theorem sim_getNextPrecedence :
    P.Sim (getNextPrecedence) (getNextPrecedence) := by
  unfold getNextPrecedence; sim [sim_parseKeyword, sim_kw, sim_kwTok, sim_kwOrErr, sim_expectKeyword, sim_consumeToken, sim_expectToken, sim_nextSym]

theorem sim_parseExpr {r r' : Parsers} (h : Parsers.Sim r r') :
    P.Sim (parseExpr r) (parseExpr r') := by
  unfold parseExpr; sim [sim_parseKeyword, sim_kw, sim_kwTok, sim_kwOrErr, sim_expectKeyword, sim_consumeToken, sim_expectToken, sim_nextSym, h.subexpr]

theorem sim_exprListF {r r' : Parsers} (h : Parsers.Sim r r') :
    P.Sim (exprListF r) (exprListF r') := by
  unfold exprListF; sim [sim_parseKeyword, sim_kw, sim_kwTok, sim_kwOrErr, sim_expectKeyword, sim_consumeToken, sim_expectToken, sim_nextSym, h.exprList, sim_parseExpr h]

theorem sim_subexprF {r r' : Parsers} (h : Parsers.Sim r r') (p) :
    P.Sim (subexprF r p) (subexprF r' p) := by
  unfold subexprF; sim [sim_parseKeyword, sim_kw, sim_kwTok, sim_kwOrErr, sim_expectKeyword, sim_consumeToken, sim_expectToken, sim_nextSym, h.prefix_, h.subexprLoop]

theorem sim_infixOp (k a b a' b') : P.Sim (infixOp ⟨k, a, b⟩) (infixOp ⟨k, a', b'⟩) := by
  unfold infixOp; sim [sim_kw]

theorem sim_parseIn {r r' : Parsers} (h : Parsers.Sim r r') (e e' : Expr) (he : er e = er e') (n) :
    P.Sim (parseIn r e n) (parseIn r' e' n) := by
  unfold parseIn; sim [sim_parseKeyword, sim_kw, sim_kwTok, sim_kwOrErr, sim_expectKeyword, sim_consumeToken, sim_expectToken, sim_nextSym, h.query, h.exprList]

theorem sim_parseBetween {r r' : Parsers} (h : Parsers.Sim r r') (e e' : Expr) (he : er e = er e') (n) :
    P.Sim (parseBetween r e n) (parseBetween r' e' n) := by
  unfold parseBetween; sim [sim_parseKeyword, sim_kw, sim_kwTok, sim_kwOrErr, sim_expectKeyword, sim_consumeToken, sim_expectToken, sim_nextSym, h.prefix_]

theorem sim_parseNotInBetween {r r' : Parsers} (h : Parsers.Sim r r') (e e' : Expr) (he : er e = er e') :
    P.Sim (parseNotInBetween r e) (parseNotInBetween r' e') := by
  unfold parseNotInBetween; sim [sim_parseKeyword, sim_kw, sim_kwTok, sim_kwOrErr, sim_expectKeyword, sim_consumeToken, sim_expectToken, sim_nextSym, sim_parseIn h, sim_parseBetween h]

theorem sim_parseInfix {r r' : Parsers} (h : Parsers.Sim r r') (e e' : Expr) (he : er e = er e') (p) :
    P.Sim (parseInfix r e p) (parseInfix r' e' p) := by
  unfold parseInfix; sim [sim_parseKeyword, sim_kw, sim_kwTok, sim_kwOrErr, sim_expectKeyword, sim_consumeToken, sim_expectToken, sim_nextSym, h.subexpr, sim_infixOp, sim_parseNotInBetween h, sim_parseDataType h]

theorem sim_subexprLoopF {r r' : Parsers} (h : Parsers.Sim r r') (p) (e e' : Expr) (he : er e = er e') :
    P.Sim (subexprLoopF r p e) (subexprLoopF r' p e') := by
  unfold subexprLoopF; sim [sim_parseKeyword, sim_kw, sim_kwTok, sim_kwOrErr, sim_expectKeyword, sim_consumeToken, sim_expectToken, sim_nextSym, h.subexprLoop, sim_getNextPrecedence, sim_parseInfix h]

theorem sim_parseOptionalArgs {r r' : Parsers} (h : Parsers.Sim r r') :
    P.Sim (parseOptionalArgs r) (parseOptionalArgs r') := by
  unfold parseOptionalArgs; sim [sim_parseKeyword, sim_kw, sim_kwTok, sim_kwOrErr, sim_expectKeyword, sim_consumeToken, sim_expectToken, sim_nextSym, h.exprList]

theorem sim_orderByListF {r r' : Parsers} (h : Parsers.Sim r r') :
    P.Sim (orderByListF r) (orderByListF r') := by
  unfold orderByListF; sim [sim_parseKeyword, sim_kw, sim_kwTok, sim_kwOrErr, sim_expectKeyword, sim_consumeToken, sim_expectToken, sim_nextSym, h.orderByList, sim_parseExpr h]

theorem sim_parseWindowFrameBound :
    P.Sim (parseWindowFrameBound) (parseWindowFrameBound) := by
  unfold parseWindowFrameBound; sim [sim_parseKeyword, sim_kw, sim_kwTok, sim_kwOrErr, sim_expectKeyword, sim_consumeToken, sim_expectToken, sim_nextSym, sim_parseLiteralInt]

theorem sim_parseWindowFrame :
    P.Sim (parseWindowFrame) (parseWindowFrame) := by
  unfold parseWindowFrame; sim [sim_parseKeyword, sim_kw, sim_kwTok, sim_kwOrErr, sim_expectKeyword, sim_consumeToken, sim_expectToken, sim_nextSym, sim_parseWindowFrameBound]

theorem sim_parseOver {r r' : Parsers} (h : Parsers.Sim r r') :
    P.Sim (parseOver r) (parseOver r') := by
  unfold parseOver; sim [sim_parseKeyword, sim_kw, sim_kwTok, sim_kwOrErr, sim_expectKeyword, sim_consumeToken, sim_expectToken, sim_nextSym, h.exprList, h.orderByList, sim_parseWindowFrame]

theorem sim_parseFunction {r r' : Parsers} (h : Parsers.Sim r r') (n n' : ObjectName) (hn : er n = er n') :
    P.Sim (parseFunction r n) (parseFunction r' n') := by
  unfold parseFunction; sim [sim_parseKeyword, sim_kw, sim_kwTok, sim_kwOrErr, sim_expectKeyword, sim_consumeToken, sim_expectToken, sim_nextSym, sim_parseOptionalArgs h, sim_parseOver h]

theorem sim_caseLoopF {r r' : Parsers} (h : Parsers.Sim r r') :
    P.Sim (caseLoopF r) (caseLoopF r') := by
  unfold caseLoopF; sim [sim_parseKeyword, sim_kw, sim_kwTok, sim_kwOrErr, sim_expectKeyword, sim_consumeToken, sim_expectToken, sim_nextSym, h.caseLoop, sim_parseExpr h]

theorem sim_parseCaseExpression {r r' : Parsers} (h : Parsers.Sim r r') :
    P.Sim (parseCaseExpression r) (parseCaseExpression r') := by
  unfold parseCaseExpression; sim [sim_parseKeyword, sim_kw, sim_kwTok, sim_kwOrErr, sim_expectKeyword, sim_consumeToken, sim_expectToken, sim_nextSym, h.caseLoop, sim_parseExpr h]

theorem sim_parseCastExpression {r r' : Parsers} (h : Parsers.Sim r r') :
    P.Sim (parseCastExpression r) (parseCastExpression r') := by
  unfold parseCastExpression; sim [sim_parseKeyword, sim_kw, sim_kwTok, sim_kwOrErr, sim_expectKeyword, sim_consumeToken, sim_expectToken, sim_nextSym, sim_parseExpr h, sim_parseDataType h]

theorem sim_parseExistsExpression {r r' : Parsers} (h : Parsers.Sim r r') (n n' : Option Token) (hn : er n = er n') :
    P.Sim (parseExistsExpression r n) (parseExistsExpression r' n') := by
  unfold parseExistsExpression
  cases n <;> cases n' <;> simp [er] at hn <;> sim [sim_kwOrErr, sim_expectToken, h.query, sim_nextSym]

theorem sim_idPartsF {r r' : Parsers} (h : Parsers.Sim r r') :
    P.Sim (idPartsF r) (idPartsF r') := by
  unfold idPartsF; sim [sim_parseKeyword, sim_kw, sim_kwTok, sim_kwOrErr, sim_expectKeyword, sim_consumeToken, sim_expectToken, sim_nextSym, h.idParts]

theorem sim_parseName {r r' : Parsers} (h : Parsers.Sim r r') (k a b a' b') (w : SQLWord) :
    P.Sim (parseName r ⟨k, a, b⟩ w) (parseName r' ⟨k, a', b'⟩ w) := by
  unfold parseName; sim [h.idParts, sim_consumeToken, sim_parseFunction h]

theorem sim_parseParen {r r' : Parsers} (h : Parsers.Sim r r') (k a b a' b') :
    P.Sim (parseParen r ⟨k, a, b⟩) (parseParen r' ⟨k, a', b'⟩) := by
  unfold parseParen; sim [sim_kw, sim_nextSym, h.query, sim_parseExpr h]

theorem sim_parseNot {r r' : Parsers} (h : Parsers.Sim r r') (k a b a' b') :
    P.Sim (parseNot r ⟨k, a, b⟩) (parseNot r' ⟨k, a', b'⟩) := by
  unfold parseNot; sim [sim_kw, h.subexpr, sim_parseExistsExpression h]

theorem sim_prefixF {r r' : Parsers} (h : Parsers.Sim r r') (fns) :
    P.Sim (prefixF fns r) (prefixF fns r') := by
  unfold prefixF; sim [sim_parseKeyword, sim_kw, sim_kwTok, sim_kwOrErr, sim_expectKeyword, sim_consumeToken, sim_expectToken, sim_nextSym, h.subexpr, sim_parseValue, sim_parseCaseExpression h, sim_parseCastExpression h, sim_parseExistsExpression h, sim_parseNot h, sim_parseName h, sim_parseParen h]

theorem sim_cteListF {r r' : Parsers} (h : Parsers.Sim r r') :
    P.Sim (cteListF r) (cteListF r') := by
  unfold cteListF; sim [sim_parseKeyword, sim_kw, sim_kwTok, sim_kwOrErr, sim_expectKeyword, sim_consumeToken, sim_expectToken, sim_nextSym, h.query, h.cteList, sim_parseIdentifier]

theorem sim_parseLimit :
    P.Sim (parseLimit) (parseLimit) := by
  unfold parseLimit; sim [sim_parseKeyword, sim_kw, sim_kwTok, sim_kwOrErr, sim_expectKeyword, sim_consumeToken, sim_expectToken, sim_nextSym, sim_parseLiteralInt]

theorem sim_queryF {r r' : Parsers} (h : Parsers.Sim r r') :
    P.Sim (queryF r) (queryF r') := by
  unfold queryF; sim [sim_parseKeyword, sim_kw, sim_kwTok, sim_kwOrErr, sim_expectKeyword, sim_consumeToken, sim_expectToken, sim_nextSym, h.cteList, h.queryBody, h.orderByList, sim_parseLimit]

theorem sim_selectListF {r r' : Parsers} (h : Parsers.Sim r r') :
    P.Sim (selectListF r) (selectListF r') := by
  unfold selectListF
  sim [sim_parseExpr h, sim_parseOptionalAlias, h.selectList]
  · rename_i e _ _ h1 _ h2
    cases e <;> simp [er, Expr.erase] at h1
    exact absurd rfl (h2 _)
  · rename_i e _ h2 _ _ h1
    cases e <;> simp [er, Expr.erase] at h1
    exact absurd rfl (h2 _)

theorem sim_fromRestF {r r' : Parsers} (h : Parsers.Sim r r') :
    P.Sim (fromRestF r) (fromRestF r') := by
  unfold fromRestF; sim [sim_parseKeyword, sim_kw, sim_kwTok, sim_kwOrErr, sim_expectKeyword, sim_consumeToken, sim_expectToken, sim_nextSym, h.tableRef, h.fromRest]

theorem sim_parseFromClause {r r' : Parsers} (h : Parsers.Sim r r') :
    P.Sim (parseFromClause r) (parseFromClause r') := by
  unfold parseFromClause; sim [sim_parseKeyword, sim_kw, sim_kwTok, sim_kwOrErr, sim_expectKeyword, sim_consumeToken, sim_expectToken, sim_nextSym, h.tableRef, h.fromRest]

theorem sim_parseSelect {r r' : Parsers} (h : Parsers.Sim r r') (p p' : Pos) :
    P.Sim (parseSelect r p) (parseSelect r' p') := by
  unfold parseSelect; sim [sim_parseKeyword, sim_kw, sim_kwTok, sim_kwOrErr, sim_expectKeyword, sim_consumeToken, sim_expectToken, sim_nextSym, h.selectList, h.exprList, sim_parseFromClause h, sim_parseExpr h]

theorem sim_bodyLoopF {r r' : Parsers} (h : Parsers.Sim r r') (p) (e e' : SetExpr) (he : er e = er e') :
    P.Sim (bodyLoopF r p e) (bodyLoopF r' p e') := by
  unfold bodyLoopF; sim [sim_parseKeyword, sim_kw, sim_kwTok, sim_kwOrErr, sim_expectKeyword, sim_consumeToken, sim_expectToken, sim_nextSym, h.queryBody, h.bodyLoop]

theorem sim_queryBodyF {r r' : Parsers} (h : Parsers.Sim r r') (p) :
    P.Sim (queryBodyF r p) (queryBodyF r' p) := by
  unfold queryBodyF; sim [sim_parseKeyword, sim_kw, sim_kwTok, sim_kwOrErr, sim_expectKeyword, sim_consumeToken, sim_expectToken, sim_nextSym, h.query, h.bodyLoop, sim_parseSelect h]

theorem sim_parseTableFactor {r r' : Parsers} (h : Parsers.Sim r r') :
    P.Sim (parseTableFactor r) (parseTableFactor r') := by
  unfold parseTableFactor; sim [sim_parseKeyword, sim_kw, sim_kwTok, sim_kwOrErr, sim_expectKeyword, sim_consumeToken, sim_expectToken, sim_nextSym, h.query, h.exprList, sim_parseOptionalAlias, sim_parseObjectName h, sim_parseOptionalArgs h]

theorem sim_parseJoinType :
    P.Sim (parseJoinType) (parseJoinType) := by
  unfold parseJoinType; sim [sim_parseKeyword, sim_kw, sim_kwTok, sim_kwOrErr, sim_expectKeyword, sim_consumeToken, sim_expectToken, sim_nextSym]

theorem sim_parseJoinSpec {r r' : Parsers} (h : Parsers.Sim r r') :
    P.Sim (parseJoinSpec r) (parseJoinSpec r') := by
  unfold parseJoinSpec; sim [sim_parseKeyword, sim_kw, sim_kwTok, sim_kwOrErr, sim_expectKeyword, sim_consumeToken, sim_expectToken, sim_nextSym, sim_parseExpr h, sim_parseListOfIds h]

theorem sim_parseQualifiedJoin {r r' : Parsers} (h : Parsers.Sim r r') :
    P.Sim (parseQualifiedJoin r) (parseQualifiedJoin r') := by
  unfold parseQualifiedJoin; sim [sim_parseKeyword, sim_kw, sim_kwTok, sim_kwOrErr, sim_expectKeyword, sim_consumeToken, sim_expectToken, sim_nextSym, h.tableRef, sim_parseJoinType, sim_parseJoinSpec h]

theorem sim_parseTableReferenceRight {r r' : Parsers} (h : Parsers.Sim r r') :
    P.Sim (parseTableReferenceRight r) (parseTableReferenceRight r') := by
  unfold parseTableReferenceRight; sim [sim_parseKeyword, sim_kw, sim_kwTok, sim_kwOrErr, sim_expectKeyword, sim_consumeToken, sim_expectToken, sim_nextSym, h.tableRef, sim_parseJoinType, sim_parseJoinSpec h, sim_parseTableFactor h, sim_parseQualifiedJoin h]

theorem sim_tableRefLoopF {r r' : Parsers} (h : Parsers.Sim r r') (l l' : TableFactor) (e e' : TableRef) (hl : er l = er l') (he : er e = er e') :
    P.Sim (tableRefLoopF r l e) (tableRefLoopF r' l' e') := by
  unfold tableRefLoopF
  refine P.Sim.bindOpt (sim_parseTableReferenceRight h) (.pure he) fun x y hxy => ?_
  cases x <;> cases y <;> simp [er, JoinRight.erase] at hxy
  all_goals apply h.tableRefLoop <;> er_eq

theorem sim_tableRefF {r r' : Parsers} (h : Parsers.Sim r r') :
    P.Sim (tableRefF r) (tableRefF r') := by
  unfold tableRefF; sim [sim_parseKeyword, sim_kw, sim_kwTok, sim_kwOrErr, sim_expectKeyword, sim_consumeToken, sim_expectToken, sim_nextSym, h.tableRefLoop, sim_parseTableFactor h]

theorem sim_defaultLoopF {r r' : Parsers} (h : Parsers.Sim r r') (e e' : Expr) (he : er e = er e') :
    P.Sim (defaultLoopF r e) (defaultLoopF r' e') := by
  unfold defaultLoopF; sim [sim_parseKeyword, sim_kw, sim_kwTok, sim_kwOrErr, sim_expectKeyword, sim_consumeToken, sim_expectToken, sim_nextSym, h.defaultLoop, sim_getNextPrecedence, sim_parseInfix h]

theorem sim_parseDefaultExpr {r r' : Parsers} (h : Parsers.Sim r r') :
    P.Sim (parseDefaultExpr r) (parseDefaultExpr r') := by
  unfold parseDefaultExpr; sim [sim_parseKeyword, sim_kw, sim_kwTok, sim_kwOrErr, sim_expectKeyword, sim_consumeToken, sim_expectToken, sim_nextSym, h.prefix_, h.defaultLoop]

theorem sim_parseColumnSpec {r r' : Parsers} (h : Parsers.Sim r r') (k a b a' b') :
    P.Sim (parseColumnSpec r ⟨k, a, b⟩) (parseColumnSpec r' ⟨k, a', b'⟩) := by
  unfold parseColumnSpec
  sim [sim_kwOrErr, sim_parseObjectName h, sim_expectToken, sim_parseColumnNames h, sim_nextSym, sim_parseExpr h]

theorem sim_columnConstraintsF {r r' : Parsers} (h : Parsers.Sim r r') :
    P.Sim (columnConstraintsF r) (columnConstraintsF r') := by
  unfold columnConstraintsF; sim [sim_parseKeyword, sim_kw, sim_kwTok, sim_kwOrErr, sim_expectKeyword, sim_consumeToken, sim_expectToken, sim_nextSym, h.columnConstraints, sim_parseIdentifier, sim_parseColumnSpec h]

theorem sim_columnLoopF_parseSpecs {r r' : Parsers} (h : Parsers.Sim r r') (d d' : Option Expr) (c c' : List AutoIncrement) (hd : er d = er d') (hc : er c = er c') :
    P.Sim (columnLoopF.parseSpecs r d c) (columnLoopF.parseSpecs r' d' c') := by
  unfold columnLoopF.parseSpecs; sim [sim_parseKeyword, sim_kw, sim_kwTok, sim_kwOrErr, sim_expectKeyword, sim_consumeToken, sim_expectToken, sim_nextSym, h.columnConstraints, h.columnLoop]

theorem sim_columnLoopF {r r' : Parsers} (h : Parsers.Sim r r') (d d' : Option Expr) (s s' : List ColumnConstraint) (c c' : List AutoIncrement) (hd : er d = er d') (hs : er s = er s') (hc : er c = er c') :
    P.Sim (columnLoopF r d s c) (columnLoopF r' d' s' c') := by
  unfold columnLoopF; sim [sim_parseKeyword, sim_kw, sim_kwTok, sim_kwOrErr, sim_expectKeyword, sim_consumeToken, sim_expectToken, sim_nextSym, h.columnLoop, sim_parseDefaultExpr h, sim_columnLoopF_parseSpecs h]

theorem sim_parseColumnDef {r r' : Parsers} (h : Parsers.Sim r r') :
    P.Sim (parseColumnDef r) (parseColumnDef r') := by
  unfold parseColumnDef; sim [sim_parseKeyword, sim_kw, sim_kwTok, sim_kwOrErr, sim_expectKeyword, sim_consumeToken, sim_expectToken, sim_nextSym, h.columnLoop, sim_parseDataType h]

theorem sim_parseTableConstraintSpec {r r' : Parsers} (h : Parsers.Sim r r') (k a b a' b') :
    P.Sim (parseTableConstraintSpec r ⟨k, a, b⟩) (parseTableConstraintSpec r' ⟨k, a', b'⟩) := by
  unfold parseTableConstraintSpec
  sim [sim_parseKeyword, sim_expectKeyword, sim_expectToken, sim_parseColumnNames h, sim_nextSym, sim_parseExpr h,
    h.listOfIds]

theorem sim_parseTableConstraints {r r' : Parsers} (h : Parsers.Sim r r') :
    P.Sim (parseTableConstraints r) (parseTableConstraints r') := by
  unfold parseTableConstraints; sim [sim_parseKeyword, sim_kw, sim_kwTok, sim_kwOrErr, sim_expectKeyword, sim_consumeToken, sim_expectToken, sim_nextSym, sim_parseIdentifier, sim_parseTableConstraintSpec h]

theorem sim_parseElement_parseC {r r' : Parsers} (h : Parsers.Sim r r') :
    P.Sim (parseElement.parseC r) (parseElement.parseC r') := by
  unfold parseElement.parseC; sim [sim_parseKeyword, sim_kw, sim_kwTok, sim_kwOrErr, sim_expectKeyword, sim_consumeToken, sim_expectToken, sim_nextSym, sim_parseTableConstraints h]

theorem sim_parseElement {r r' : Parsers} (h : Parsers.Sim r r') (w) :
    P.Sim (parseElement r w) (parseElement r' w) := by
  unfold parseElement; sim [sim_parseKeyword, sim_kw, sim_kwTok, sim_kwOrErr, sim_expectKeyword, sim_consumeToken, sim_expectToken, sim_nextSym, sim_parseElement_parseC h, sim_parseColumnDef h]

theorem sim_elementsF {r r' : Parsers} (h : Parsers.Sim r r') :
    P.Sim (elementsF r) (elementsF r') := by
  unfold elementsF; sim [sim_parseKeyword, sim_kw, sim_kwTok, sim_kwOrErr, sim_expectKeyword, sim_consumeToken, sim_expectToken, sim_nextSym, h.elements, sim_parseElement h]

theorem sim_parseElements {r r' : Parsers} (h : Parsers.Sim r r') :
    P.Sim (parseElements r) (parseElements r') := by
  unfold parseElements; sim [sim_parseKeyword, sim_kw, sim_kwTok, sim_kwOrErr, sim_expectKeyword, sim_consumeToken, sim_expectToken, sim_nextSym, h.elements]

theorem sim_parseOptionName :
    P.Sim (parseOptionName) (parseOptionName) := by
  unfold parseOptionName; sim [sim_parseKeyword, sim_kw, sim_kwTok, sim_kwOrErr, sim_expectKeyword, sim_consumeToken, sim_expectToken, sim_nextSym, sim_parseIdentifier]

theorem sim_parseTableOption :
    P.Sim (parseTableOption) (parseTableOption) := by
  unfold parseTableOption; sim [sim_parseKeyword, sim_kw, sim_kwTok, sim_kwOrErr, sim_expectKeyword, sim_consumeToken, sim_expectToken, sim_nextSym, sim_parseOptionName]

theorem sim_tableOptionsF {r r' : Parsers} (h : Parsers.Sim r r') :
    P.Sim (tableOptionsF r) (tableOptionsF r') := by
  unfold tableOptionsF; sim [sim_parseKeyword, sim_kw, sim_kwTok, sim_kwOrErr, sim_expectKeyword, sim_consumeToken, sim_expectToken, sim_nextSym, h.tableOptions, sim_parseTableOption]

theorem sim_parseCreateTable {r r' : Parsers} (h : Parsers.Sim r r') (k a b a' b') :
    P.Sim (parseCreateTable r ⟨k, a, b⟩) (parseCreateTable r' ⟨k, a', b'⟩) := by
  unfold parseCreateTable; sim [sim_parseKeyword, sim_kw, sim_kwTok, sim_kwOrErr, sim_expectKeyword, sim_consumeToken, sim_expectToken, sim_nextSym, h.tableOptions, sim_parseObjectName h, sim_parseElements h]

theorem sim_parseCreateView {r r' : Parsers} (h : Parsers.Sim r r') (k a b a' b') :
    P.Sim (parseCreateView r ⟨k, a, b⟩) (parseCreateView r' ⟨k, a', b'⟩) := by
  unfold parseCreateView; sim [sim_parseKeyword, sim_kw, sim_kwTok, sim_kwOrErr, sim_expectKeyword, sim_consumeToken, sim_expectToken, sim_nextSym, h.query, sim_parseObjectName h]

theorem sim_parseCreateIndex {r r' : Parsers} (h : Parsers.Sim r r') (u) :
    P.Sim (parseCreateIndex r u) (parseCreateIndex r' u) := by
  unfold parseCreateIndex; sim [sim_parseKeyword, sim_kw, sim_kwTok, sim_kwOrErr, sim_expectKeyword, sim_consumeToken, sim_expectToken, sim_nextSym, sim_parseObjectName h, sim_parseIdentifier, sim_parseColumnNames h, sim_parseExpr h]

theorem sim_parseCreate {r r' : Parsers} (h : Parsers.Sim r r') :
    P.Sim (parseCreate r) (parseCreate r') := by
  unfold parseCreate; sim [sim_parseKeyword, sim_kw, sim_kwTok, sim_kwOrErr, sim_expectKeyword, sim_consumeToken, sim_expectToken, sim_nextSym, sim_parseCreateTable h, sim_parseCreateView h, sim_parseCreateIndex h]

theorem sim_parseDelete {r r' : Parsers} (h : Parsers.Sim r r') :
    P.Sim (parseDelete r) (parseDelete r') := by
  unfold parseDelete; sim [sim_parseKeyword, sim_kw, sim_kwTok, sim_kwOrErr, sim_expectKeyword, sim_consumeToken, sim_expectToken, sim_nextSym, sim_parseObjectName h, sim_parseExpr h]

theorem sim_assignmentsF {r r' : Parsers} (h : Parsers.Sim r r') :
    P.Sim (assignmentsF r) (assignmentsF r') := by
  unfold assignmentsF; sim [sim_parseKeyword, sim_kw, sim_kwTok, sim_kwOrErr, sim_expectKeyword, sim_consumeToken, sim_expectToken, sim_nextSym, h.assignments, sim_parseExpr h]

theorem sim_parseUpdate {r r' : Parsers} (h : Parsers.Sim r r') :
    P.Sim (parseUpdate r) (parseUpdate r') := by
  unfold parseUpdate; sim [sim_parseKeyword, sim_kw, sim_kwTok, sim_kwOrErr, sim_expectKeyword, sim_consumeToken, sim_expectToken, sim_nextSym, h.assignments, sim_parseObjectName h, sim_parseExpr h]

theorem sim_rowsF {r r' : Parsers} (h : Parsers.Sim r r') :
    P.Sim (rowsF r) (rowsF r') := by
  unfold rowsF; sim [sim_parseKeyword, sim_kw, sim_kwTok, sim_kwOrErr, sim_expectKeyword, sim_consumeToken, sim_expectToken, sim_nextSym, h.exprList, h.rows]

theorem sim_parseInsert {r r' : Parsers} (h : Parsers.Sim r r') :
    P.Sim (parseInsert r) (parseInsert r') := by
  unfold parseInsert; sim [sim_parseKeyword, sim_kw, sim_kwTok, sim_kwOrErr, sim_expectKeyword, sim_consumeToken, sim_expectToken, sim_nextSym, h.rows, h.query, h.assignments, sim_parseObjectName h, sim_parseColumnNames h]

theorem sim_parseAlterColumn {r r' : Parsers} (h : Parsers.Sim r r') (k a b a' b') :
    P.Sim (parseAlterColumn r ⟨k, a, b⟩) (parseAlterColumn r' ⟨k, a', b'⟩) := by
  unfold parseAlterColumn; sim [sim_parseKeyword, sim_kw, sim_kwTok, sim_kwOrErr, sim_expectKeyword, sim_consumeToken, sim_expectToken, sim_nextSym, sim_parseIdentifier, sim_parseDefaultExpr h, sim_parseDataType h]

theorem sim_parseAlterColumn' {r r' : Parsers} (h : Parsers.Sim r r') (t t' : Token) (ht : er t = er t') :
    P.Sim (parseAlterColumn r t) (parseAlterColumn r' t') := by
  obtain ⟨k, a, b⟩ := t
  obtain ⟨k', a', b'⟩ := t'
  cases (P.Sim.tok_eq ht : k = k')
  exact sim_parseAlterColumn h k a b a' b'

theorem er_nthTok {ts ts' : List Token} (h : er ts = er ts') (n : Nat) : er (nthTok ts n) = er (nthTok ts' n) := by
  have := congrArg (fun l : List Token => l[n]?) h
  simp only [er, List.getElem?_map] at this
  simp only [nthTok]
  cases h1 : ts[n]? <;> cases h2 : ts'[n]? <;> simp_all [er]

macro_rules | `(tactic| er_eq) => `(tactic| exact er_nthTok (by assumption) _)

theorem sim_parseCascade :
    P.Sim (parseCascade) (parseCascade) := by
  unfold parseCascade; sim [sim_parseKeyword, sim_kw, sim_kwTok, sim_kwOrErr, sim_expectKeyword, sim_consumeToken, sim_expectToken, sim_nextSym]

theorem sim_parseAlterAction {r r' : Parsers} (h : Parsers.Sim r r') :
    P.Sim (parseAlterAction r) (parseAlterAction r') := by
  unfold parseAlterAction; sim [sim_parseKeyword, sim_kw, sim_kwTok, sim_kwOrErr, sim_expectKeyword, sim_consumeToken, sim_expectToken, sim_nextSym, sim_parseColumnDef h, sim_parseTableConstraints h, sim_parseIdentifier, sim_parseCascade, sim_parseAlterColumn' h]

theorem sim_parseAlter {r r' : Parsers} (h : Parsers.Sim r r') :
    P.Sim (parseAlter r) (parseAlter r') := by
  unfold parseAlter; sim [sim_parseKeyword, sim_kw, sim_kwTok, sim_kwOrErr, sim_expectKeyword, sim_consumeToken, sim_expectToken, sim_nextSym, sim_parseObjectName h, sim_parseAlterAction h]

theorem sim_parseDrop {r r' : Parsers} (h : Parsers.Sim r r') :
    P.Sim (parseDrop r) (parseDrop r') := by
  unfold parseDrop; sim [sim_parseKeyword, sim_kw, sim_kwTok, sim_kwOrErr, sim_expectKeyword, sim_consumeToken, sim_expectToken, sim_nextSym, sim_parseObjectName h, sim_parseCascade, sim_parseColumnNames h]

theorem sim_statementF_parseQueryStmt {r r' : Parsers} (h : Parsers.Sim r r') :
    P.Sim (statementF.parseQueryStmt r) (statementF.parseQueryStmt r') := by
  unfold statementF.parseQueryStmt; sim [sim_parseKeyword, sim_kw, sim_kwTok, sim_kwOrErr, sim_expectKeyword, sim_consumeToken, sim_expectToken, sim_nextSym, h.query]

theorem sim_statementF {r r' : Parsers} (h : Parsers.Sim r r') :
    P.Sim (statementF r) (statementF r') := by
  unfold statementF; sim [sim_parseKeyword, sim_kw, sim_kwTok, sim_kwOrErr, sim_expectKeyword, sim_consumeToken, sim_expectToken, sim_nextSym, h.statement, sim_statementF_parseQueryStmt h, sim_parseCreate h, sim_parseDelete h, sim_parseInsert h, sim_parseAlter h, sim_parseUpdate h, sim_parseDrop h]

theorem sim_step {r r' : Parsers} (h : Parsers.Sim r r') (fns : FloatFns) :
    Parsers.Sim (Parsers.step fns r) (Parsers.step fns r') where
  subexpr := sim_subexprF h
  subexprLoop := sim_subexprLoopF h
  prefix_ := sim_prefixF h fns
  idParts := sim_idPartsF h
  exprList := sim_exprListF h
  listOfIds := sim_listOfIdsF h
  listOfIdsSep := sim_listOfIdsSepF h
  orderByList := sim_orderByListF h
  caseLoop := sim_caseLoopF h
  query := sim_queryF h
  queryBody := sim_queryBodyF h
  bodyLoop := sim_bodyLoopF h
  cteList := sim_cteListF h
  selectList := sim_selectListF h
  tableRef := sim_tableRefF h
  tableRefLoop := sim_tableRefLoopF h
  fromRest := sim_fromRestF h
  defaultLoop := sim_defaultLoopF h
  columnLoop := sim_columnLoopF h
  columnConstraints := sim_columnConstraintsF h
  elements := sim_elementsF h
  tableOptions := sim_tableOptionsF h
  assignments := sim_assignmentsF h
  rows := sim_rowsF h
  statement := sim_statementF h

theorem sim_at (fns : FloatFns) : ∀ n, Parsers.Sim (Parsers.at fns n) (Parsers.at fns n)
  | 0 => by constructor <;> intros <;> exact .oof
  | n + 1 => sim_step (sim_at fns n) fns

/-! ### What this means for runs -/

/-- Results that differ only in positions, in the value and in the tokens of the state. -/
def Res.Same [Erases α] : Res (List Token × List Token) α → Res (List Token × List Token) α → Prop
  | .ok a s, .ok a' s' => er a = er a' ∧ er s = er s'
  | .err, .err => True
  | .panic, .panic => True
  | .oof, .oof => True
  | _, _ => False

theorem tok_of_er {t t' : Token} (h : er t = er t') : ∃ k a b a' b', t = ⟨k, a, b⟩ ∧ t' = ⟨k, a', b'⟩ := by
  obtain ⟨k, a, b⟩ := t
  obtain ⟨k', a', b'⟩ := t'
  cases (P.Sim.tok_eq h : k = k')
  exact ⟨_, _, _, _, _, rfl, rfl⟩

theorem er_cons {t : Token} {s s' : List Token} (h : er (t :: s) = er s') :
    ∃ t' r, s' = t' :: r ∧ er t = er t' ∧ er s = er r := by
  cases s' with
  | nil => simp [er] at h
  | cons t' r =>
    simp only [er, List.map_cons, List.cons.injEq] at h
    exact ⟨t', r, rfl, h.1, h.2⟩

theorem er_nil {s' : List Token} (h : er ([] : List Token) = er s') : s' = [] := by
  cases s' with
  | nil => rfl
  | cons t' r => simp [er] at h

theorem takeKws_same (ks : List Str) : ∀ (s s' : List Token), er s = er s' →
    er (takeKws ks s) = er (takeKws ks s') := by
  induction ks with
  | nil => intro s s' h; simp only [takeKws, er, Option.map_some] at *; rw [h]
  | cons k ks ih =>
    intro s s' h
    cases s with
    | nil => rw [er_nil h]
    | cons t s =>
      obtain ⟨t', r, rfl, ht, hs⟩ := er_cons h
      obtain ⟨x, a, b, a', b', rfl, rfl⟩ := tok_of_er ht
      have := ih s r hs
      have hm : Token.matchesKw ⟨x, a, b⟩ k = Token.matchesKw ⟨x, a', b'⟩ k := rfl
      simp only [takeKws]
      by_cases hk : Token.matchesKw ⟨x, a', b'⟩ k = true
      · rw [if_pos (hm.trans hk), if_pos hk]
        cases h1 : takeKws ks s <;> cases h2 : takeKws ks r <;> simp_all [er]
      · rw [if_neg (by rw [hm]; exact hk), if_neg hk]

theorem sim_runZ [Erases α] {p p' : P α} (h : P.Sim p p') : ∀ {b b' a a' : List Token}, er b = er b' →
    er a = er a' → Res.Same (p.runZ b a) (p'.runZ b' a') := by
  induction h with
  | ret h => intro b b' a a' hb ha; exact ⟨h, by simp only [er] at *; rw [hb, ha]⟩
  | err => intros; trivial
  | panic => intros; trivial
  | oof => intros; trivial
  | next _ ih =>
    intro b b' a a' hb ha
    cases a with
    | nil => rw [er_nil ha]; exact ih _ _ rfl hb rfl
    | cons t a =>
      obtain ⟨t', r, rfl, ht, hs⟩ := er_cons ha
      refine ih _ _ (by simpa [er] using ht) ?_ hs
      simp only [er, List.map_cons] at *
      rw [ht, hb]
  | peek _ ih =>
    intro b b' a a' hb ha
    refine ih _ _ ?_ hb ha
    cases a with
    | nil => rw [er_nil ha]
    | cons t a =>
      obtain ⟨t', r, rfl, ht, hs⟩ := er_cons ha
      simpa [er] using ht
  | prev _ ih =>
    intro b b' a a' hb ha
    cases b with
    | nil => rw [er_nil hb]; trivial
    | cons t b =>
      obtain ⟨t', r, rfl, ht, hs⟩ := er_cons hb
      refine ih hs ?_
      simp only [er, List.map_cons] at *
      rw [ht, ha]
  | @kws ks k k' _ ih =>
    intro b b' a a' hb ha
    have := takeKws_same ks a a' ha
    unfold P.runZ
    split
    · rename_i ts s' h1
      rw [h1] at this
      cases h2 : takeKws ks a' with
      | none => rw [h2] at this; simp [er] at this
      | some x =>
        obtain ⟨ts', s2⟩ := x
        rw [h2] at this
        simp only [er, Option.map_some, Option.some.injEq, Prod.mk.injEq] at this
        refine ih _ _ (by simp only [er, Option.map_some]; rw [this.1]) ?_ this.2
        simp only [er, List.map_append, List.map_reverse] at *
        rw [this.1, hb]
    · rename_i h1
      rw [h1] at this
      cases h2 : takeKws ks a' with
      | some x => rw [h2] at this; simp [er] at this
      | none => exact ih _ _ rfl hb ha

theorem sim_parseSQLLoop {r r' : Parsers} (h : Parsers.Sim r r') (mode : Bool) : ∀ n e,
    P.Sim (parseSQLLoop mode r n e) (parseSQLLoop mode r' n e)
  | 0, _ => .oof
  | n + 1, e => by
    have ih := sim_parseSQLLoop h mode n
    unfold parseSQLLoop
    cases mode <;> simp only [if_true, Bool.false_eq_true, if_false, pure_bind] <;>
      sim [sim_consumeToken, h.statement, ih]

end Verif
