import Verif.Spec.Rename
import Verif.Proofs.Mono
/-
The parser treats the texts of identifiers and string literals as opaque: on token lists that correspond up
to positions and up to a renaming, every parser function takes the same steps and returns results that
correspond under the renaming.
-/
set_option linter.unusedSimpArgs false
namespace Verif.Ren

/-- What the parser can see of a token: the keyword a word spells, in the two ways the parser looks at it, and
the kind of the token; of the texts of identifiers and string literals only the renamed text is kept. -/
inductive TokAbs where
  | word (kw : Option KW) (spells : KW → Bool) (text : Str)
  | number (s : Str)
  | char (c : Char)
  | single (s : Str)
  | national (s : Str)
  | whitespace
  | comment
  | sym (k : Sym) (s : Str)

def abs (ρ : Renaming) : Tok → TokAbs
  | .word w => .word (kwOf w.keyword) (fun k => equalFold w.value k.str) (ρ.ident w.string)
  | .number s => .number s
  | .char c => .char c
  | .single s => .single (ρ.text s)
  | .national s => .national (ρ.text s)
  | .whitespace _ => .whitespace
  | .comment _ => .comment
  | .sym k s => .sym k s

/-- Tokens that look the same to the parser, up to renaming. -/
inductive TokR (ρ ρ' : Renaming) : Tok → Tok → Prop
  | word (w w') (hk : kwOf w'.keyword = kwOf w.keyword)
      (hm : (fun k : KW => equalFold w'.value k.str) = fun k : KW => equalFold w.value k.str)
      (hs : ρ.ident w.string = ρ'.ident w'.string) : TokR ρ ρ' (.word w) (.word w')
  | number (s) : TokR ρ ρ' (.number s) (.number s)
  | char (c) : TokR ρ ρ' (.char c) (.char c)
  | single (s s') (h : ρ.text s = ρ'.text s') : TokR ρ ρ' (.single s) (.single s')
  | national (s s') (h : ρ.text s = ρ'.text s') : TokR ρ ρ' (.national s) (.national s')
  | whitespace (s s') : TokR ρ ρ' (.whitespace s) (.whitespace s')
  | comment (s s') : TokR ρ ρ' (.comment s) (.comment s')
  | sym (k s) : TokR ρ ρ' (.sym k s) (.sym k s)

theorem tokR_iff {ρ ρ' : Renaming} {k k' : Tok} : TokR ρ ρ' k k' ↔ abs ρ k = abs ρ' k' := by
  constructor
  · intro h; cases h <;> simp_all [abs]
  · intro h
    cases k <;> cases k' <;> simp [abs] at h
    · exact .word _ _ h.1.symm h.2.1.symm h.2.2
    · subst h; exact .number _
    · subst h; exact .char _
    · exact .single _ _ h
    · exact .national _ _ h
    · exact .whitespace _ _
    · exact .comment _ _
    · obtain ⟨h1, h2⟩ := h
      subst h1 h2; exact .sym _ _

/-- Types with an operation that renames and forgets positions. -/
class Erases (α : Type) (β : outParam Type) where
  er : Renaming → α → β
export Erases (er)

inductive KwAbs where
  | eof
  | no (t : TokAbs)
  | yes (t : TokAbs)

def kwAbs (ρ : Renaming) : KwRes → KwAbs
  | .eof => .eof
  | .no t => .no (abs ρ t.tok)
  | .yes t => .yes (abs ρ t.tok)

def joinRight (ρ : Renaming) : JoinRight → JoinRight
  | .natural tp right => .natural tp.erase (right.rename ρ)
  | .cross f => .cross (f.rename ρ)
  | .qualified r tp spec => .qualified (r.rename ρ) tp.erase (spec.rename ρ)

instance : Erases Pos Pos := ⟨fun _ _ => Pos.zero⟩
instance : Erases Token TokAbs := ⟨fun ρ t => abs ρ t.tok⟩
instance : Erases KwRes KwAbs := ⟨kwAbs⟩
instance : Erases JoinRight JoinRight := ⟨joinRight⟩
instance : Erases Bool Bool := ⟨fun _ => id⟩
instance : Erases Nat Nat := ⟨fun _ => id⟩
instance : Erases Int Int := ⟨fun _ => id⟩
instance : Erases Unit Unit := ⟨fun _ => id⟩
instance : Erases OpType OpType := ⟨fun _ => id⟩
instance : Erases Ident Ident := ⟨Ident.rename⟩
instance : Erases ObjectName ObjectName := ⟨ObjectName.rename⟩
instance : Erases DataType DataType := ⟨DataType.rename⟩
instance : Erases Expr Expr := ⟨Expr.rename⟩
instance : Erases FrameBound FrameBound := ⟨fun _ => FrameBound.erase⟩
instance : Erases WindowFrame WindowFrame := ⟨fun _ => WindowFrame.erase⟩
instance : Erases WindowSpec WindowSpec := ⟨WindowSpec.rename⟩
instance : Erases OrderByExpr OrderByExpr := ⟨OrderByExpr.rename⟩
instance : Erases LimitExpr LimitExpr := ⟨fun _ => LimitExpr.erase⟩
instance : Erases LongValue LongValue := ⟨fun _ => LongValue.erase⟩
instance : Erases QueryStmt QueryStmt := ⟨QueryStmt.rename⟩
instance : Erases CTE CTE := ⟨CTE.rename⟩
instance : Erases SetExpr SetExpr := ⟨SetExpr.rename⟩
instance : Erases SelectItem SelectItem := ⟨SelectItem.rename⟩
instance : Erases TableFactor TableFactor := ⟨TableFactor.rename⟩
instance : Erases TableRef TableRef := ⟨TableRef.rename⟩
instance : Erases JoinType JoinType := ⟨fun _ => JoinType.erase⟩
instance : Erases JoinSpec JoinSpec := ⟨JoinSpec.rename⟩
instance : Erases RowValueExpr RowValueExpr := ⟨RowValueExpr.rename⟩
instance : Erases InsertSource InsertSource := ⟨InsertSource.rename⟩
instance : Erases Assignment Assignment := ⟨Assignment.rename⟩
instance : Erases TableConstraintSpec TableConstraintSpec := ⟨TableConstraintSpec.rename⟩
instance : Erases TableConstraint TableConstraint := ⟨TableConstraint.rename⟩
instance : Erases ColumnSpec ColumnSpec := ⟨ColumnSpec.rename⟩
instance : Erases ColumnConstraint ColumnConstraint := ⟨ColumnConstraint.rename⟩
instance : Erases AutoIncrement AutoIncrement := ⟨fun _ => AutoIncrement.erase⟩
instance : Erases ColumnDef ColumnDef := ⟨ColumnDef.rename⟩
instance : Erases TableElement TableElement := ⟨TableElement.rename⟩
instance : Erases TableOption TableOption := ⟨TableOption.rename⟩
instance : Erases AlterTableAction AlterTableAction := ⟨AlterTableAction.rename⟩
instance : Erases Stmt Stmt := ⟨Stmt.rename⟩
instance [Erases α β] : Erases (Option α) (Option β) := ⟨fun ρ => Option.map (er ρ)⟩
instance [Erases α β] : Erases (List α) (List β) := ⟨fun ρ => List.map (er ρ)⟩
instance [Erases α β] [Erases γ δ] : Erases (α × γ) (β × δ) := ⟨fun ρ x => (er ρ x.1, er ρ x.2)⟩

theorem Expr_renames (ρ) (l : List Expr) : Expr.renames ρ l = l.map (Expr.rename ρ) := by
  induction l with
  | nil => rfl
  | cons e l ih => simp [Expr.renames, ih]
theorem OrderByExpr_renames (ρ) (l : List OrderByExpr) : OrderByExpr.renames ρ l = l.map (OrderByExpr.rename ρ) := by
  induction l with
  | nil => rfl
  | cons e l ih => simp [OrderByExpr.renames, ih]
theorem CTE_renames (ρ) (l : List CTE) : CTE.renames ρ l = l.map (CTE.rename ρ) := by
  induction l with
  | nil => rfl
  | cons e l ih => simp [CTE.renames, ih]
theorem SelectItem_renames (ρ) (l : List SelectItem) : SelectItem.renames ρ l = l.map (SelectItem.rename ρ) := by
  induction l with
  | nil => rfl
  | cons e l ih => simp [SelectItem.renames, ih]
theorem TableRef_renames (ρ) (l : List TableRef) : TableRef.renames ρ l = l.map (TableRef.rename ρ) := by
  induction l with
  | nil => rfl
  | cons e l ih => simp [TableRef.renames, ih]
theorem Expr_renameOpt (ρ) (l : Option Expr) : Expr.renameOpt ρ l = l.map (Expr.rename ρ) := by
  cases l <;> simp [Expr.renameOpt]
theorem WindowSpec_renameOpt (ρ) (l : Option WindowSpec) : WindowSpec.renameOpt ρ l = l.map (WindowSpec.rename ρ) := by
  cases l <;> simp [WindowSpec.renameOpt]

variable {ρ ρ' : Renaming}

/-- The programs take the same steps on tokens that look the same up to renaming, and return values that are
the same up to positions and renaming. -/
inductive Sim (ρ ρ' : Renaming) [Erases α α']  : P α → P α → Prop
  | ret {a b : α} : er ρ a = er ρ' b → Sim ρ ρ' (.ret a) (.ret b)
  | next {k k' : Option Token → P α} : (∀ t t', er ρ t = er ρ' t' → Sim ρ ρ' (k t) (k' t')) → Sim ρ ρ' (.next k) (.next k')
  | peek {k k' : Option Token → P α} : (∀ t t', er ρ t = er ρ' t' → Sim ρ ρ' (k t) (k' t')) → Sim ρ ρ' (.peek k) (.peek k')
  | prev {k k' : P α} : Sim ρ ρ' k k' → Sim ρ ρ' (.prev k) (.prev k')
  | kws {ks : List KW} {k k' : Option (List Token) → P α} : (∀ t t', er ρ t = er ρ' t' → Sim ρ ρ' (k t) (k' t')) →
      Sim ρ ρ' (.kws (ks.map KW.str) k) (.kws (ks.map KW.str) k')
  | err : Sim ρ ρ' .err .err
  | panic : Sim ρ ρ' .panic .panic
  | oof : Sim ρ ρ' .oof .oof

namespace Sim

theorem pure [Erases α α'] {a b : α} (h : er ρ a = er ρ' b) : Sim ρ ρ' (pure a : P α) (Pure.pure b) := .ret h

theorem bind [Erases α α'] [Erases β β'] {p p' : P α} {f f' : α → P β} (h : Sim ρ ρ' p p')
    (hf : ∀ x y, er ρ x = er ρ' y → Sim ρ ρ' (f x) (f' y)) : Sim ρ ρ' (p >>= f) (p' >>= f') := by
  show Sim ρ ρ' (P.bind p f) (P.bind p' f')
  induction h with
  | ret h => exact hf _ _ h
  | next _ ih => exact .next fun t t' h => ih t t' h
  | peek _ ih => exact .peek fun t t' h => ih t t' h
  | prev _ ih => exact .prev ih
  | kws _ ih => exact .kws fun t t' h => ih t t' h
  | err => exact .err
  | panic => exact .panic
  | oof => exact .oof

theorem bindB [Erases β β'] {p p' : P Bool} {f f' : Bool → P β} (h : Sim ρ ρ' p p')
    (hf : ∀ x, Sim ρ ρ' (f x) (f' x)) : Sim ρ ρ' (p >>= f) (p' >>= f') :=
  bind h fun x y e => by cases (e : x = y); exact hf x
theorem bindN [Erases β β'] {p p' : P Nat} {f f' : Nat → P β} (h : Sim ρ ρ' p p')
    (hf : ∀ x, Sim ρ ρ' (f x) (f' x)) : Sim ρ ρ' (p >>= f) (p' >>= f') :=
  bind h fun x y e => by cases (e : x = y); exact hf x
theorem bindU [Erases β β'] {p p' : P Unit} {f f' : Unit → P β} (h : Sim ρ ρ' p p')
    (hf : ∀ x, Sim ρ ρ' (f x) (f' x)) : Sim ρ ρ' (p >>= f) (p' >>= f') :=
  bind h fun x _ _ => hf x
theorem bindOp [Erases β β'] {p p' : P (Option OpType)} {f f' : Option OpType → P β} (h : Sim ρ ρ' p p')
    (hf : ∀ x, Sim ρ ρ' (f x) (f' x)) : Sim ρ ρ' (p >>= f) (p' >>= f') :=
  bind h fun x y e => by
    have : x = y := by
      cases x <;> cases y <;> simp [er] at e
      · rfl
      · rw [e]
    cases this; exact hf x

theorem tok_eq {t t' : Token} (h : er ρ t = er ρ' t') : TokR ρ ρ' t.tok t'.tok := tokR_iff.2 h

theorem bindT [Erases β β'] {p p' : P Token} {f f' : Token → P β} (h : Sim ρ ρ' p p')
    (hf : ∀ k a b k' a' b', TokR ρ ρ' k k' → Sim ρ ρ' (f ⟨k, a, b⟩) (f' ⟨k', a', b'⟩)) : Sim ρ ρ' (p >>= f) (p' >>= f') :=
  bind h fun x y e => by
    obtain ⟨k, a, b⟩ := x
    obtain ⟨k', a', b'⟩ := y
    exact hf k a b k' a' b' (tok_eq e)

theorem bindOT [Erases β β'] {p p' : P (Option Token)} {f f' : Option Token → P β} (h : Sim ρ ρ' p p')
    (h0 : Sim ρ ρ' (f none) (f' none))
    (hf : ∀ k a b k' a' b', TokR ρ ρ' k k' → Sim ρ ρ' (f (some ⟨k, a, b⟩)) (f' (some ⟨k', a', b'⟩))) : Sim ρ ρ' (p >>= f) (p' >>= f') :=
  bind h fun x y e => by
    cases x <;> cases y <;> simp [er] at e
    · exact h0
    · rename_i x y
      obtain ⟨k, a, b⟩ := x
      obtain ⟨k', a', b'⟩ := y
      exact hf k a b k' a' b' (tok_eq e)

theorem bindKw [Erases β β'] {p p' : P KwRes} {f f' : KwRes → P β} (h : Sim ρ ρ' p p')
    (h0 : Sim ρ ρ' (f .eof) (f' .eof))
    (h1 : ∀ k a b k' a' b', TokR ρ ρ' k k' → Sim ρ ρ' (f (.no ⟨k, a, b⟩)) (f' (.no ⟨k', a', b'⟩)))
    (h2 : ∀ k a b k' a' b', TokR ρ ρ' k k' → Sim ρ ρ' (f (.yes ⟨k, a, b⟩)) (f' (.yes ⟨k', a', b'⟩))) : Sim ρ ρ' (p >>= f) (p' >>= f') :=
  bind h fun x y e => by
    cases x <;> cases y <;> simp only [er, kwAbs, KwAbs.no.injEq, KwAbs.yes.injEq, reduceCtorEq] at e
    · exact h0
    · rename_i x y
      obtain ⟨k, a, b⟩ := x
      obtain ⟨k', a', b'⟩ := y
      exact h1 k a b k' a' b' (tok_eq e)
    · rename_i x y
      obtain ⟨k, a, b⟩ := x
      obtain ⟨k', a', b'⟩ := y
      exact h2 k a b k' a' b' (tok_eq e)

theorem bindOpt [Erases α α'] [Erases β β'] {p p' : P (Option α)} {f f' : Option α → P β} (h : Sim ρ ρ' p p')
    (h0 : Sim ρ ρ' (f none) (f' none))
    (hf : ∀ x y, er ρ x = er ρ' y → Sim ρ ρ' (f (some x)) (f' (some y))) : Sim ρ ρ' (p >>= f) (p' >>= f') :=
  bind h fun x y e => by
    cases x <;> cases y <;> simp [er] at e
    · exact h0
    · exact hf _ _ e

theorem bindP [Erases α α'] [Erases γ γ'] [Erases β β'] {p p' : P (α × γ)} {f f' : α × γ → P β} (h : Sim ρ ρ' p p')
    (hf : ∀ x y x' y', er ρ x = er ρ' x' → er ρ y = er ρ' y' → Sim ρ ρ' (f (x, y)) (f' (x', y'))) :
    Sim ρ ρ' (p >>= f) (p' >>= f') :=
  bind h fun x y e => by
    obtain ⟨x1, x2⟩ := x
    obtain ⟨y1, y2⟩ := y
    injection e with e1 e2
    exact hf _ _ _ _ e1 e2

theorem bindP3 [Erases α α'] [Erases γ γ'] [Erases δ δ'] [Erases β β'] {p p' : P (α × γ × δ)} {f f' : α × γ × δ → P β}
    (h : Sim ρ ρ' p p')
    (hf : ∀ x y z x' y' z', er ρ x = er ρ' x' → er ρ y = er ρ' y' → er ρ z = er ρ' z' → Sim ρ ρ' (f (x, y, z)) (f' (x', y', z'))) :
    Sim ρ ρ' (p >>= f) (p' >>= f') :=
  bind h fun x y e => by
    obtain ⟨x1, x2, x3⟩ := x
    obtain ⟨y1, y2, y3⟩ := y
    injection e with e1 e2
    injection e2 with e2 e3
    exact hf _ _ _ _ _ _ e1 e2 e3

theorem bindI [Erases β β'] {p p' : P (Int × Token)} {f f' : Int × Token → P β} (h : Sim ρ ρ' p p')
    (hf : ∀ i t t', er ρ t = er ρ' t' → Sim ρ ρ' (f (i, t)) (f' (i, t'))) : Sim ρ ρ' (p >>= f) (p' >>= f') :=
  bindP h fun x y x' y' e e' => by cases (e : x = x'); exact hf x y y' e'

theorem bindPB [Erases α α'] [Erases β β'] {p p' : P (α × Bool)} {f f' : α × Bool → P β} (h : Sim ρ ρ' p p')
    (hf : ∀ x x' b, er ρ x = er ρ' x' → Sim ρ ρ' (f (x, b)) (f' (x', b))) : Sim ρ ρ' (p >>= f) (p' >>= f') :=
  bindP h fun x y x' y' e e' => by cases (e' : y = y'); exact hf x x' y e

theorem ite [Erases α α'] {c : Prop} [i : Decidable c] [i' : Decidable c] {p p' q q' : P α} (h1 : c → Sim ρ ρ' p p')
    (h2 : ¬c → Sim ρ ρ' q q') : Sim ρ ρ' (@_root_.ite _ c i p q) (@_root_.ite _ c i' p' q') := by
  by_cases h : c
  · rw [if_pos h, if_pos h]; exact h1 h
  · rw [if_neg h, if_neg h]; exact h2 h

end Sim

/-- The entry points of two records correspond. -/
structure ParsersSim (ρ ρ' : Renaming) (r r' : Parsers) : Prop where
  subexpr : ∀ p, Sim ρ ρ' (r.subexpr p) (r'.subexpr p)
  subexprLoop : ∀ p e e', er ρ e = er ρ' e' → Sim ρ ρ' (r.subexprLoop p e) (r'.subexprLoop p e')
  prefix_ : Sim ρ ρ' r.prefix_ r'.prefix_
  idParts : Sim ρ ρ' r.idParts r'.idParts
  exprList : Sim ρ ρ' r.exprList r'.exprList
  listOfIds : ∀ s, Sim ρ ρ' (r.listOfIds s) (r'.listOfIds s)
  listOfIdsSep : ∀ s, Sim ρ ρ' (r.listOfIdsSep s) (r'.listOfIdsSep s)
  orderByList : Sim ρ ρ' r.orderByList r'.orderByList
  caseLoop : Sim ρ ρ' r.caseLoop r'.caseLoop
  query : Sim ρ ρ' r.query r'.query
  queryBody : ∀ p, Sim ρ ρ' (r.queryBody p) (r'.queryBody p)
  bodyLoop : ∀ p e e', er ρ e = er ρ' e' → Sim ρ ρ' (r.bodyLoop p e) (r'.bodyLoop p e')
  cteList : Sim ρ ρ' r.cteList r'.cteList
  selectList : Sim ρ ρ' r.selectList r'.selectList
  tableRef : Sim ρ ρ' r.tableRef r'.tableRef
  tableRefLoop : ∀ l l' e e', er ρ l = er ρ' l' → er ρ e = er ρ' e' → Sim ρ ρ' (r.tableRefLoop l e) (r'.tableRefLoop l' e')
  fromRest : Sim ρ ρ' r.fromRest r'.fromRest
  defaultLoop : ∀ e e', er ρ e = er ρ' e' → Sim ρ ρ' (r.defaultLoop e) (r'.defaultLoop e')
  columnLoop : ∀ d d' s s' c c', er ρ d = er ρ' d' → er ρ s = er ρ' s' → er ρ c = er ρ' c' →
    Sim ρ ρ' (r.columnLoop d s c) (r'.columnLoop d' s' c')
  columnConstraints : Sim ρ ρ' r.columnConstraints r'.columnConstraints
  elements : Sim ρ ρ' r.elements r'.elements
  tableOptions : Sim ρ ρ' r.tableOptions r'.tableOptions
  assignments : Sim ρ ρ' r.assignments r'.assignments
  rows : Sim ρ ρ' r.rows r'.rows
  statement : Sim ρ ρ' r.statement r'.statement

/-- Close an equation between renamed values. -/
macro "rn_eq" : tactic => `(tactic| first
  | rfl
  | assumption
  | (simp_all [er, abs, tokR_iff, joinRight, kwAbs, Ident.rename, ObjectName.rename, DataType.rename, Operator.erase, LongValue.erase,
      WindowFrameUnit.erase, FrameBound.erase, WindowFrame.erase, JoinType.erase, SetOp.erase,
      LimitExpr.erase, Expr.rename, Expr_renames, Expr_renameOpt, WindowSpec.rename,
      WindowSpec_renameOpt, OrderByExpr.rename, OrderByExpr_renames, QueryStmt.rename, CTE.rename,
      CTE_renames, SetExpr.rename, SQLSelect.rename, SelectItem.rename, SelectItem_renames,
      TableFactor.rename, TableRef.rename, TableRef_renames, JoinSpec.rename, RowValueExpr.rename,
      InsertSource.rename, Assignment.rename, ReferenceKeyExpr.rename, TableConstraintSpec.rename,
      TableConstraint.rename, ColumnSpec.rename, ColumnConstraint.rename, AutoIncrement.erase,
      ColumnDef.rename, TableElement.rename, TableOption.rename, AlterColumnAction.rename,
      AlterTableAction.rename, Stmt.rename]; done))

theorem sim_nextToken : Sim ρ ρ' nextToken nextToken := .next fun _ _ h => .ret h
theorem sim_peekToken : Sim ρ ρ' peekToken peekToken := .peek fun _ _ h => .ret h
theorem sim_prevToken : Sim ρ ρ' prevToken prevToken := .prev (.ret rfl)
theorem sim_parseKeywords (ks) : Sim ρ ρ' (parseKeywords ks) (parseKeywords ks) := .kws fun _ _ h => .ret h
theorem sim_nextOrErr : Sim ρ ρ' nextOrErr nextOrErr := .next fun t t' h => by
  cases t <;> cases t' <;> simp [er] at h
  · exact .err
  · exact .ret h
theorem sim_mustNext : Sim ρ ρ' mustNext mustNext := .next fun t t' h => by
  cases t <;> cases t' <;> simp [er] at h
  · exact .panic
  · exact .ret h
theorem sim_mustPeek : Sim ρ ρ' mustPeek mustPeek := .peek fun t t' h => by
  cases t <;> cases t' <;> simp [er] at h
  · exact .panic
  · exact .ret h

open Lean Parser.Tactic in
/-- Step through two runs of the same program; the lemmas given are used for calls. -/
macro "rsim" "[" ls:term,* "]" : tactic => do
  let alts ← ls.getElems.mapM fun l => `(tactic| (apply $l <;> rn_eq))
  let calls : TSyntax `tactic ← `(tactic| first
    | exact sim_nextToken | exact sim_peekToken | exact sim_prevToken | exact sim_parseKeywords _
    | exact sim_nextOrErr | exact sim_mustNext | exact sim_mustPeek
    $[| $alts:tactic]*)
  `(tactic| repeat' first
    | exact Sim.err
    | exact Sim.panic
    | exact Sim.oof
    | (apply Sim.pure; rn_eq)
    | $calls:tactic
    | refine Sim.ite (fun _ => ?_) (fun _ => ?_)
    | refine Sim.bindB ?_ (fun _ => ?_)
    | refine Sim.bindN ?_ (fun _ => ?_)
    | refine Sim.bindU ?_ (fun _ => ?_)
    | refine Sim.bindOp ?_ (fun _ => ?_)
    | refine Sim.bindT ?_ (fun _ _ _ _ _ _ _ => ?_)
    | refine Sim.bindOT ?_ ?_ (fun _ _ _ _ _ _ _ => ?_)
    | refine Sim.bindKw ?_ ?_ (fun _ _ _ _ _ _ _ => ?_) (fun _ _ _ _ _ _ _ => ?_)
    | refine Sim.bindI ?_ (fun _ _ _ _ => ?_)
    | refine Sim.bindPB ?_ (fun _ _ _ _ => ?_)
    | refine Sim.bindP3 ?_ (fun _ _ _ _ _ _ _ _ _ => ?_)
    | refine Sim.bindP ?_ (fun _ _ _ _ _ _ => ?_)
    | refine Sim.bindOpt ?_ ?_ (fun _ _ _ => ?_)
    | refine Sim.bind ?_ (fun _ _ _ => ?_)
    | dsimp only [Token.word?, Token.isSym, Token.kw?, Token.matchesKw, getPrecedence, setOperator, Option.bind_some,
        Option.bind_none]
    | (cases ‹TokR _ _ _ _› <;> first
        | (rename_i hk hm hs; simp only [Token.word?, Token.isSym, Token.kw?, isReserved, getPrecedence, setOperator,
            Option.bind_some, Option.bind_none, hk])
        | (dsimp only [Token.word?, Token.isSym, Token.kw?, getPrecedence, setOperator, Option.bind_some,
            Option.bind_none])
        | skip)
    | split)

theorem matches_eq {k k' : Tok} (h : TokR ρ ρ' k k') (w : KW) (a b a' b' : Pos) :
    Token.matchesKw ⟨k', a', b'⟩ w.str = Token.matchesKw ⟨k, a, b⟩ w.str := by
  cases h <;> try rfl
  rename_i hm hs
  exact congrFun hm w
theorem sim_parseKeyword (k) : Sim ρ ρ' (parseKeyword k) (parseKeyword k) := by
  unfold parseKeyword
  refine Sim.bindOT sim_peekToken (.pure rfl) fun x a b x' a' b' h => ?_
  simp only [matches_eq h k a b a' b']
  rsim []
theorem sim_kw (k) : Sim ρ ρ' (kw k) (kw k) := by unfold kw; rsim [sim_parseKeyword]
theorem sim_kwTok (k) : Sim ρ ρ' (kwTok k) (kwTok k) := by unfold kwTok; rsim [sim_parseKeyword]
theorem sim_kwOrErr (k) : Sim ρ ρ' (kwOrErr k) (kwOrErr k) := by unfold kwOrErr; rsim [sim_parseKeyword]
theorem sim_expectKeyword (k) : Sim ρ ρ' (expectKeyword k) (expectKeyword k) := by
  unfold expectKeyword; rsim [sim_parseKeyword]
theorem sim_consumeToken (k) : Sim ρ ρ' (consumeToken k) (consumeToken k) := by unfold consumeToken; rsim []
theorem sim_expectToken (k) : Sim ρ ρ' (expectToken k) (expectToken k) := by
  unfold expectToken; rsim [sim_consumeToken]
theorem sim_nextSym (k) : Sim ρ ρ' (nextSym k) (nextSym k) := by unfold nextSym; rsim []

theorem sim_parseIdentifier :
    Sim ρ ρ' (parseIdentifier) (parseIdentifier) := by
  unfold parseIdentifier; rsim [sim_parseKeyword, sim_kw, sim_kwTok, sim_kwOrErr, sim_expectKeyword, sim_consumeToken, sim_expectToken, sim_nextSym]

theorem sim_parseLiteralInt :
    Sim ρ ρ' (parseLiteralInt) (parseLiteralInt) := by
  unfold parseLiteralInt; rsim [sim_parseKeyword, sim_kw, sim_kwTok, sim_kwOrErr, sim_expectKeyword, sim_consumeToken, sim_expectToken, sim_nextSym]

theorem sim_parseOptionalPrecision :
    Sim ρ ρ' (parseOptionalPrecision) (parseOptionalPrecision) := by
  unfold parseOptionalPrecision; rsim [sim_parseKeyword, sim_kw, sim_kwTok, sim_kwOrErr, sim_expectKeyword, sim_consumeToken, sim_expectToken, sim_nextSym, sim_parseLiteralInt]

theorem sim_parseOptionalPrecisionScale :
    Sim ρ ρ' (parseOptionalPrecisionScale) (parseOptionalPrecisionScale) := by
  unfold parseOptionalPrecisionScale; rsim [sim_parseKeyword, sim_kw, sim_kwTok, sim_kwOrErr, sim_expectKeyword, sim_consumeToken, sim_expectToken, sim_nextSym, sim_parseLiteralInt]

theorem sim_parseMyUnsigned :
    Sim ρ ρ' (parseMyUnsigned) (parseMyUnsigned) := by
  unfold parseMyUnsigned; rsim [sim_parseKeyword, sim_kw, sim_kwTok, sim_kwOrErr, sim_expectKeyword, sim_consumeToken, sim_expectToken, sim_nextSym]

theorem sim_listOfIdsF {r r' : Parsers} (h : ParsersSim ρ ρ' r r') (s) :
    Sim ρ ρ' (listOfIdsF r s) (listOfIdsF r' s) := by
  unfold listOfIdsF; rsim [sim_parseKeyword, sim_kw, sim_kwTok, sim_kwOrErr, sim_expectKeyword, sim_consumeToken, sim_expectToken, sim_nextSym, h.listOfIdsSep]

theorem sim_listOfIdsSepF {r r' : Parsers} (h : ParsersSim ρ ρ' r r') (s) :
    Sim ρ ρ' (listOfIdsSepF r s) (listOfIdsSepF r' s) := by
  unfold listOfIdsSepF; rsim [sim_parseKeyword, sim_kw, sim_kwTok, sim_kwOrErr, sim_expectKeyword, sim_consumeToken, sim_expectToken, sim_nextSym, h.listOfIds]

theorem sim_parseListOfIds {r r' : Parsers} (h : ParsersSim ρ ρ' r r') (s) :
    Sim ρ ρ' (parseListOfIds r s) (parseListOfIds r' s) := by
  unfold parseListOfIds; rsim [sim_parseKeyword, sim_kw, sim_kwTok, sim_kwOrErr, sim_expectKeyword, sim_consumeToken, sim_expectToken, sim_nextSym, h.listOfIds]

theorem sim_parseColumnNames {r r' : Parsers} (h : ParsersSim ρ ρ' r r') :
    Sim ρ ρ' (parseColumnNames r) (parseColumnNames r') := by
  unfold parseColumnNames; rsim [sim_parseKeyword, sim_kw, sim_kwTok, sim_kwOrErr, sim_expectKeyword, sim_consumeToken, sim_expectToken, sim_nextSym, sim_parseListOfIds h]

theorem sim_parseObjectName {r r' : Parsers} (h : ParsersSim ρ ρ' r r') :
    Sim ρ ρ' (parseObjectName r) (parseObjectName r') := by
  unfold parseObjectName; rsim [sim_parseKeyword, sim_kw, sim_kwTok, sim_kwOrErr, sim_expectKeyword, sim_consumeToken, sim_expectToken, sim_nextSym, sim_parseListOfIds h]

theorem sim_parseChar (t t' : Token) :
    Sim ρ ρ' (parseDataType.parseChar t) (parseDataType.parseChar t') := by
  unfold parseDataType.parseChar; rsim [sim_kwTok, sim_parseOptionalPrecision]

theorem sim_parseDataType_parseTimeZone :
    Sim ρ ρ' (parseDataType.parseTimeZone) (parseDataType.parseTimeZone) := by
  unfold parseDataType.parseTimeZone; rsim [sim_parseKeyword, sim_kw, sim_kwTok, sim_kwOrErr, sim_expectKeyword, sim_consumeToken, sim_expectToken, sim_nextSym]

theorem sim_parseDataType {r r' : Parsers} (h : ParsersSim ρ ρ' r r') :
    Sim ρ ρ' (parseDataType r) (parseDataType r') := by
  unfold parseDataType; rsim [sim_parseKeyword, sim_kw, sim_kwTok, sim_kwOrErr, sim_expectKeyword, sim_consumeToken, sim_expectToken, sim_nextSym, sim_parseOptionalPrecision, sim_parseOptionalPrecisionScale, sim_parseMyUnsigned, sim_parseChar, sim_parseDataType_parseTimeZone, sim_parseObjectName h]

theorem sim_parseOptionalAlias (t) :
    Sim ρ ρ' (parseOptionalAlias t) (parseOptionalAlias t) := by
  unfold parseOptionalAlias; rsim [sim_parseKeyword, sim_kw, sim_kwTok, sim_kwOrErr, sim_expectKeyword, sim_consumeToken, sim_expectToken, sim_nextSym]

theorem sim_parseValue (fns) :
    Sim ρ ρ' (parseValue fns) (parseValue fns) := by
  unfold parseValue; rsim [sim_parseKeyword, sim_kw, sim_kwTok, sim_kwOrErr, sim_expectKeyword, sim_consumeToken, sim_expectToken, sim_nextSym]

theorem sim_getNextPrecedence :
    Sim ρ ρ' (getNextPrecedence) (getNextPrecedence) := by
  unfold getNextPrecedence; rsim [sim_parseKeyword, sim_kw, sim_kwTok, sim_kwOrErr, sim_expectKeyword, sim_consumeToken, sim_expectToken, sim_nextSym]

theorem sim_parseExpr {r r' : Parsers} (h : ParsersSim ρ ρ' r r') :
    Sim ρ ρ' (parseExpr r) (parseExpr r') := by
  unfold parseExpr; rsim [sim_parseKeyword, sim_kw, sim_kwTok, sim_kwOrErr, sim_expectKeyword, sim_consumeToken, sim_expectToken, sim_nextSym, h.subexpr]

theorem sim_exprListF {r r' : Parsers} (h : ParsersSim ρ ρ' r r') :
    Sim ρ ρ' (exprListF r) (exprListF r') := by
  unfold exprListF; rsim [sim_parseKeyword, sim_kw, sim_kwTok, sim_kwOrErr, sim_expectKeyword, sim_consumeToken, sim_expectToken, sim_nextSym, h.exprList, sim_parseExpr h]

theorem sim_subexprF {r r' : Parsers} (h : ParsersSim ρ ρ' r r') (p) :
    Sim ρ ρ' (subexprF r p) (subexprF r' p) := by
  unfold subexprF; rsim [sim_parseKeyword, sim_kw, sim_kwTok, sim_kwOrErr, sim_expectKeyword, sim_consumeToken, sim_expectToken, sim_nextSym, h.prefix_, h.subexprLoop]

theorem sim_infixOp (k a b k' a' b') (hk : TokR ρ ρ' k k') : Sim ρ ρ' (infixOp ⟨k, a, b⟩) (infixOp ⟨k', a', b'⟩) := by
  unfold infixOp; rsim [sim_kw]

theorem sim_parseIn {r r' : Parsers} (h : ParsersSim ρ ρ' r r') (e e' : Expr) (he : er ρ e = er ρ' e') (n) :
    Sim ρ ρ' (parseIn r e n) (parseIn r' e' n) := by
  unfold parseIn; rsim [sim_parseKeyword, sim_kw, sim_kwTok, sim_kwOrErr, sim_expectKeyword, sim_consumeToken, sim_expectToken, sim_nextSym, h.query, h.exprList]

theorem sim_parseBetween {r r' : Parsers} (h : ParsersSim ρ ρ' r r') (e e' : Expr) (he : er ρ e = er ρ' e') (n) :
    Sim ρ ρ' (parseBetween r e n) (parseBetween r' e' n) := by
  unfold parseBetween; rsim [sim_parseKeyword, sim_kw, sim_kwTok, sim_kwOrErr, sim_expectKeyword, sim_consumeToken, sim_expectToken, sim_nextSym, h.prefix_]

theorem sim_parseNotInBetween {r r' : Parsers} (h : ParsersSim ρ ρ' r r') (e e' : Expr) (he : er ρ e = er ρ' e') :
    Sim ρ ρ' (parseNotInBetween r e) (parseNotInBetween r' e') := by
  unfold parseNotInBetween; rsim [sim_parseKeyword, sim_kw, sim_kwTok, sim_kwOrErr, sim_expectKeyword, sim_consumeToken, sim_expectToken, sim_nextSym, sim_parseIn h, sim_parseBetween h]

theorem sim_parseInfix {r r' : Parsers} (h : ParsersSim ρ ρ' r r') (e e' : Expr) (he : er ρ e = er ρ' e') (p) :
    Sim ρ ρ' (parseInfix r e p) (parseInfix r' e' p) := by
  unfold parseInfix; rsim [sim_parseKeyword, sim_kw, sim_kwTok, sim_kwOrErr, sim_expectKeyword, sim_consumeToken, sim_expectToken, sim_nextSym, h.subexpr, sim_infixOp, sim_parseNotInBetween h, sim_parseDataType h]

theorem sim_subexprLoopF {r r' : Parsers} (h : ParsersSim ρ ρ' r r') (p) (e e' : Expr) (he : er ρ e = er ρ' e') :
    Sim ρ ρ' (subexprLoopF r p e) (subexprLoopF r' p e') := by
  unfold subexprLoopF; rsim [sim_parseKeyword, sim_kw, sim_kwTok, sim_kwOrErr, sim_expectKeyword, sim_consumeToken, sim_expectToken, sim_nextSym, h.subexprLoop, sim_getNextPrecedence, sim_parseInfix h]

theorem sim_parseOptionalArgs {r r' : Parsers} (h : ParsersSim ρ ρ' r r') :
    Sim ρ ρ' (parseOptionalArgs r) (parseOptionalArgs r') := by
  unfold parseOptionalArgs; rsim [sim_parseKeyword, sim_kw, sim_kwTok, sim_kwOrErr, sim_expectKeyword, sim_consumeToken, sim_expectToken, sim_nextSym, h.exprList]

theorem sim_orderByListF {r r' : Parsers} (h : ParsersSim ρ ρ' r r') :
    Sim ρ ρ' (orderByListF r) (orderByListF r') := by
  unfold orderByListF; rsim [sim_parseKeyword, sim_kw, sim_kwTok, sim_kwOrErr, sim_expectKeyword, sim_consumeToken, sim_expectToken, sim_nextSym, h.orderByList, sim_parseExpr h]

theorem sim_parseWindowFrameBound :
    Sim ρ ρ' (parseWindowFrameBound) (parseWindowFrameBound) := by
  unfold parseWindowFrameBound; rsim [sim_parseKeyword, sim_kw, sim_kwTok, sim_kwOrErr, sim_expectKeyword, sim_consumeToken, sim_expectToken, sim_nextSym, sim_parseLiteralInt]

theorem sim_parseWindowFrame :
    Sim ρ ρ' (parseWindowFrame) (parseWindowFrame) := by
  unfold parseWindowFrame; rsim [sim_parseKeyword, sim_kw, sim_kwTok, sim_kwOrErr, sim_expectKeyword, sim_consumeToken, sim_expectToken, sim_nextSym, sim_parseWindowFrameBound]

theorem sim_parseOver {r r' : Parsers} (h : ParsersSim ρ ρ' r r') :
    Sim ρ ρ' (parseOver r) (parseOver r') := by
  unfold parseOver; rsim [sim_parseKeyword, sim_kw, sim_kwTok, sim_kwOrErr, sim_expectKeyword, sim_consumeToken, sim_expectToken, sim_nextSym, h.exprList, h.orderByList, sim_parseWindowFrame]

theorem sim_parseFunction {r r' : Parsers} (h : ParsersSim ρ ρ' r r') (n n' : ObjectName) (hn : er ρ n = er ρ' n') :
    Sim ρ ρ' (parseFunction r n) (parseFunction r' n') := by
  unfold parseFunction; rsim [sim_parseKeyword, sim_kw, sim_kwTok, sim_kwOrErr, sim_expectKeyword, sim_consumeToken, sim_expectToken, sim_nextSym, sim_parseOptionalArgs h, sim_parseOver h]

theorem sim_caseLoopF {r r' : Parsers} (h : ParsersSim ρ ρ' r r') :
    Sim ρ ρ' (caseLoopF r) (caseLoopF r') := by
  unfold caseLoopF; rsim [sim_parseKeyword, sim_kw, sim_kwTok, sim_kwOrErr, sim_expectKeyword, sim_consumeToken, sim_expectToken, sim_nextSym, h.caseLoop, sim_parseExpr h]

theorem sim_parseCaseExpression {r r' : Parsers} (h : ParsersSim ρ ρ' r r') :
    Sim ρ ρ' (parseCaseExpression r) (parseCaseExpression r') := by
  unfold parseCaseExpression; rsim [sim_parseKeyword, sim_kw, sim_kwTok, sim_kwOrErr, sim_expectKeyword, sim_consumeToken, sim_expectToken, sim_nextSym, h.caseLoop, sim_parseExpr h]

theorem sim_parseCastExpression {r r' : Parsers} (h : ParsersSim ρ ρ' r r') :
    Sim ρ ρ' (parseCastExpression r) (parseCastExpression r') := by
  unfold parseCastExpression; rsim [sim_parseKeyword, sim_kw, sim_kwTok, sim_kwOrErr, sim_expectKeyword, sim_consumeToken, sim_expectToken, sim_nextSym, sim_parseExpr h, sim_parseDataType h]

theorem sim_parseExistsExpression {r r' : Parsers} (h : ParsersSim ρ ρ' r r') (n n' : Option Token) (hn : er ρ n = er ρ' n') :
    Sim ρ ρ' (parseExistsExpression r n) (parseExistsExpression r' n') := by
  unfold parseExistsExpression
  cases n <;> cases n' <;> simp [er] at hn <;> rsim [sim_kwOrErr, sim_expectToken, h.query, sim_nextSym]

theorem sim_idPartsF {r r' : Parsers} (h : ParsersSim ρ ρ' r r') :
    Sim ρ ρ' (idPartsF r) (idPartsF r') := by
  unfold idPartsF; rsim [sim_parseKeyword, sim_kw, sim_kwTok, sim_kwOrErr, sim_expectKeyword, sim_consumeToken, sim_expectToken, sim_nextSym, h.idParts]

theorem sim_parseName {r r' : Parsers} (h : ParsersSim ρ ρ' r r') (k a b k' a' b') (hk : TokR ρ ρ' k k') (w w' : SQLWord) (hw : ρ.ident w.string = ρ'.ident w'.string) :
    Sim ρ ρ' (parseName r ⟨k, a, b⟩ w) (parseName r' ⟨k', a', b'⟩ w') := by
  unfold parseName; rsim [h.idParts, sim_consumeToken, sim_parseFunction h]

theorem sim_parseParen {r r' : Parsers} (h : ParsersSim ρ ρ' r r') (t t' : Token) :
    Sim ρ ρ' (parseParen r t) (parseParen r' t') := by
  unfold parseParen; rsim [sim_kw, sim_nextSym, h.query, sim_parseExpr h]

theorem sim_parseNot {r r' : Parsers} (h : ParsersSim ρ ρ' r r') (t t' : Token) (ht : er ρ t = er ρ' t') :
    Sim ρ ρ' (parseNot r t) (parseNot r' t') := by
  unfold parseNot; rsim [sim_kw, h.subexpr, sim_parseExistsExpression h]

theorem sim_prefixF {r r' : Parsers} (h : ParsersSim ρ ρ' r r') (fns) :
    Sim ρ ρ' (prefixF fns r) (prefixF fns r') := by
  unfold prefixF; rsim [sim_parseKeyword, sim_kw, sim_kwTok, sim_kwOrErr, sim_expectKeyword, sim_consumeToken, sim_expectToken, sim_nextSym, h.subexpr, sim_parseValue, sim_parseCaseExpression h, sim_parseCastExpression h, sim_parseExistsExpression h, sim_parseNot h, sim_parseName h, sim_parseParen h]

theorem sim_cteListF {r r' : Parsers} (h : ParsersSim ρ ρ' r r') :
    Sim ρ ρ' (cteListF r) (cteListF r') := by
  unfold cteListF; rsim [sim_parseKeyword, sim_kw, sim_kwTok, sim_kwOrErr, sim_expectKeyword, sim_consumeToken, sim_expectToken, sim_nextSym, h.query, h.cteList, sim_parseIdentifier]

theorem sim_parseLimit :
    Sim ρ ρ' (parseLimit) (parseLimit) := by
  unfold parseLimit; rsim [sim_parseKeyword, sim_kw, sim_kwTok, sim_kwOrErr, sim_expectKeyword, sim_consumeToken, sim_expectToken, sim_nextSym, sim_parseLiteralInt]

theorem sim_queryF {r r' : Parsers} (h : ParsersSim ρ ρ' r r') :
    Sim ρ ρ' (queryF r) (queryF r') := by
  unfold queryF; rsim [sim_parseKeyword, sim_kw, sim_kwTok, sim_kwOrErr, sim_expectKeyword, sim_consumeToken, sim_expectToken, sim_nextSym, h.cteList, h.queryBody, h.orderByList, sim_parseLimit]

theorem sim_selectListF {r r' : Parsers} (h : ParsersSim ρ ρ' r r') :
    Sim ρ ρ' (selectListF r) (selectListF r') := by
  unfold selectListF
  rsim [sim_parseExpr h, sim_parseOptionalAlias, h.selectList]
  · rename_i e _ _ h1 _ h2
    cases e <;> simp [er, Expr.rename] at h1
    exact absurd rfl (h2 _)
  · rename_i e _ h2 _ _ h1
    cases e <;> simp [er, Expr.rename] at h1
    exact absurd rfl (h2 _)

theorem sim_fromRestF {r r' : Parsers} (h : ParsersSim ρ ρ' r r') :
    Sim ρ ρ' (fromRestF r) (fromRestF r') := by
  unfold fromRestF; rsim [sim_parseKeyword, sim_kw, sim_kwTok, sim_kwOrErr, sim_expectKeyword, sim_consumeToken, sim_expectToken, sim_nextSym, h.tableRef, h.fromRest]

theorem sim_parseFromClause {r r' : Parsers} (h : ParsersSim ρ ρ' r r') :
    Sim ρ ρ' (parseFromClause r) (parseFromClause r') := by
  unfold parseFromClause; rsim [sim_parseKeyword, sim_kw, sim_kwTok, sim_kwOrErr, sim_expectKeyword, sim_consumeToken, sim_expectToken, sim_nextSym, h.tableRef, h.fromRest]

theorem sim_parseSelect {r r' : Parsers} (h : ParsersSim ρ ρ' r r') (p p' : Pos) :
    Sim ρ ρ' (parseSelect r p) (parseSelect r' p') := by
  unfold parseSelect; rsim [sim_parseKeyword, sim_kw, sim_kwTok, sim_kwOrErr, sim_expectKeyword, sim_consumeToken, sim_expectToken, sim_nextSym, h.selectList, h.exprList, sim_parseFromClause h, sim_parseExpr h]

theorem sim_bodyLoopF {r r' : Parsers} (h : ParsersSim ρ ρ' r r') (p) (e e' : SetExpr) (he : er ρ e = er ρ' e') :
    Sim ρ ρ' (bodyLoopF r p e) (bodyLoopF r' p e') := by
  unfold bodyLoopF; rsim [sim_parseKeyword, sim_kw, sim_kwTok, sim_kwOrErr, sim_expectKeyword, sim_consumeToken, sim_expectToken, sim_nextSym, h.queryBody, h.bodyLoop]

theorem sim_queryBodyF {r r' : Parsers} (h : ParsersSim ρ ρ' r r') (p) :
    Sim ρ ρ' (queryBodyF r p) (queryBodyF r' p) := by
  unfold queryBodyF; rsim [sim_parseKeyword, sim_kw, sim_kwTok, sim_kwOrErr, sim_expectKeyword, sim_consumeToken, sim_expectToken, sim_nextSym, h.query, h.bodyLoop, sim_parseSelect h]

theorem sim_parseTableFactor {r r' : Parsers} (h : ParsersSim ρ ρ' r r') :
    Sim ρ ρ' (parseTableFactor r) (parseTableFactor r') := by
  unfold parseTableFactor; rsim [sim_parseKeyword, sim_kw, sim_kwTok, sim_kwOrErr, sim_expectKeyword, sim_consumeToken, sim_expectToken, sim_nextSym, h.query, h.exprList, sim_parseOptionalAlias, sim_parseObjectName h, sim_parseOptionalArgs h]

theorem sim_parseJoinType :
    Sim ρ ρ' (parseJoinType) (parseJoinType) := by
  unfold parseJoinType; rsim [sim_parseKeyword, sim_kw, sim_kwTok, sim_kwOrErr, sim_expectKeyword, sim_consumeToken, sim_expectToken, sim_nextSym]

theorem sim_parseJoinSpec {r r' : Parsers} (h : ParsersSim ρ ρ' r r') :
    Sim ρ ρ' (parseJoinSpec r) (parseJoinSpec r') := by
  unfold parseJoinSpec; rsim [sim_parseKeyword, sim_kw, sim_kwTok, sim_kwOrErr, sim_expectKeyword, sim_consumeToken, sim_expectToken, sim_nextSym, sim_parseExpr h, sim_parseListOfIds h]

theorem sim_parseQualifiedJoin {r r' : Parsers} (h : ParsersSim ρ ρ' r r') :
    Sim ρ ρ' (parseQualifiedJoin r) (parseQualifiedJoin r') := by
  unfold parseQualifiedJoin; rsim [sim_parseKeyword, sim_kw, sim_kwTok, sim_kwOrErr, sim_expectKeyword, sim_consumeToken, sim_expectToken, sim_nextSym, h.tableRef, sim_parseJoinType, sim_parseJoinSpec h]

theorem sim_parseTableReferenceRight {r r' : Parsers} (h : ParsersSim ρ ρ' r r') :
    Sim ρ ρ' (parseTableReferenceRight r) (parseTableReferenceRight r') := by
  unfold parseTableReferenceRight; rsim [sim_parseKeyword, sim_kw, sim_kwTok, sim_kwOrErr, sim_expectKeyword, sim_consumeToken, sim_expectToken, sim_nextSym, h.tableRef, sim_parseJoinType, sim_parseJoinSpec h, sim_parseTableFactor h, sim_parseQualifiedJoin h]

theorem sim_tableRefLoopF {r r' : Parsers} (h : ParsersSim ρ ρ' r r') (l l' : TableFactor) (e e' : TableRef) (hl : er ρ l = er ρ' l') (he : er ρ e = er ρ' e') :
    Sim ρ ρ' (tableRefLoopF r l e) (tableRefLoopF r' l' e') := by
  unfold tableRefLoopF
  refine Sim.bindOpt (sim_parseTableReferenceRight h) (.pure he) fun x y hxy => ?_
  cases x <;> cases y <;> simp [er, joinRight] at hxy
  all_goals apply h.tableRefLoop <;> rn_eq

theorem sim_tableRefF {r r' : Parsers} (h : ParsersSim ρ ρ' r r') :
    Sim ρ ρ' (tableRefF r) (tableRefF r') := by
  unfold tableRefF; rsim [sim_parseKeyword, sim_kw, sim_kwTok, sim_kwOrErr, sim_expectKeyword, sim_consumeToken, sim_expectToken, sim_nextSym, h.tableRefLoop, sim_parseTableFactor h]

theorem sim_defaultLoopF {r r' : Parsers} (h : ParsersSim ρ ρ' r r') (e e' : Expr) (he : er ρ e = er ρ' e') :
    Sim ρ ρ' (defaultLoopF r e) (defaultLoopF r' e') := by
  unfold defaultLoopF; rsim [sim_parseKeyword, sim_kw, sim_kwTok, sim_kwOrErr, sim_expectKeyword, sim_consumeToken, sim_expectToken, sim_nextSym, h.defaultLoop, sim_getNextPrecedence, sim_parseInfix h]

theorem sim_parseDefaultExpr {r r' : Parsers} (h : ParsersSim ρ ρ' r r') :
    Sim ρ ρ' (parseDefaultExpr r) (parseDefaultExpr r') := by
  unfold parseDefaultExpr; rsim [sim_parseKeyword, sim_kw, sim_kwTok, sim_kwOrErr, sim_expectKeyword, sim_consumeToken, sim_expectToken, sim_nextSym, h.prefix_, h.defaultLoop]

theorem sim_parseColumnSpec {r r' : Parsers} (h : ParsersSim ρ ρ' r r') (k a b k' a' b') (hk : TokR ρ ρ' k k') :
    Sim ρ ρ' (parseColumnSpec r ⟨k, a, b⟩) (parseColumnSpec r' ⟨k', a', b'⟩) := by
  unfold parseColumnSpec
  rsim [sim_kwOrErr, sim_parseObjectName h, sim_expectToken, sim_parseColumnNames h, sim_nextSym, sim_parseExpr h]

theorem sim_columnConstraintsF {r r' : Parsers} (h : ParsersSim ρ ρ' r r') :
    Sim ρ ρ' (columnConstraintsF r) (columnConstraintsF r') := by
  unfold columnConstraintsF; rsim [sim_parseKeyword, sim_kw, sim_kwTok, sim_kwOrErr, sim_expectKeyword, sim_consumeToken, sim_expectToken, sim_nextSym, h.columnConstraints, sim_parseIdentifier, sim_parseColumnSpec h]

theorem sim_columnLoopF_parseSpecs {r r' : Parsers} (h : ParsersSim ρ ρ' r r') (d d' : Option Expr) (c c' : List AutoIncrement) (hd : er ρ d = er ρ' d') (hc : er ρ c = er ρ' c') :
    Sim ρ ρ' (columnLoopF.parseSpecs r d c) (columnLoopF.parseSpecs r' d' c') := by
  unfold columnLoopF.parseSpecs; rsim [sim_parseKeyword, sim_kw, sim_kwTok, sim_kwOrErr, sim_expectKeyword, sim_consumeToken, sim_expectToken, sim_nextSym, h.columnConstraints, h.columnLoop]

theorem sim_columnLoopF {r r' : Parsers} (h : ParsersSim ρ ρ' r r') (d d' : Option Expr) (s s' : List ColumnConstraint) (c c' : List AutoIncrement) (hd : er ρ d = er ρ' d') (hs : er ρ s = er ρ' s') (hc : er ρ c = er ρ' c') :
    Sim ρ ρ' (columnLoopF r d s c) (columnLoopF r' d' s' c') := by
  unfold columnLoopF; rsim [sim_parseKeyword, sim_kw, sim_kwTok, sim_kwOrErr, sim_expectKeyword, sim_consumeToken, sim_expectToken, sim_nextSym, h.columnLoop, sim_parseDefaultExpr h, sim_columnLoopF_parseSpecs h]

theorem sim_parseColumnDef {r r' : Parsers} (h : ParsersSim ρ ρ' r r') :
    Sim ρ ρ' (parseColumnDef r) (parseColumnDef r') := by
  unfold parseColumnDef; rsim [sim_parseKeyword, sim_kw, sim_kwTok, sim_kwOrErr, sim_expectKeyword, sim_consumeToken, sim_expectToken, sim_nextSym, h.columnLoop, sim_parseDataType h]

theorem sim_parseTableConstraintSpec {r r' : Parsers} (h : ParsersSim ρ ρ' r r') (k a b k' a' b') (hk : TokR ρ ρ' k k') :
    Sim ρ ρ' (parseTableConstraintSpec r ⟨k, a, b⟩) (parseTableConstraintSpec r' ⟨k', a', b'⟩) := by
  unfold parseTableConstraintSpec
  rsim [sim_parseKeyword, sim_expectKeyword, sim_expectToken, sim_parseColumnNames h, sim_nextSym, sim_parseExpr h,
    h.listOfIds]

theorem sim_parseTableConstraints {r r' : Parsers} (h : ParsersSim ρ ρ' r r') :
    Sim ρ ρ' (parseTableConstraints r) (parseTableConstraints r') := by
  unfold parseTableConstraints; rsim [sim_parseKeyword, sim_kw, sim_kwTok, sim_kwOrErr, sim_expectKeyword, sim_consumeToken, sim_expectToken, sim_nextSym, sim_parseIdentifier, sim_parseTableConstraintSpec h]

theorem sim_parseElement_parseC {r r' : Parsers} (h : ParsersSim ρ ρ' r r') :
    Sim ρ ρ' (parseElement.parseC r) (parseElement.parseC r') := by
  unfold parseElement.parseC; rsim [sim_parseKeyword, sim_kw, sim_kwTok, sim_kwOrErr, sim_expectKeyword, sim_consumeToken, sim_expectToken, sim_nextSym, sim_parseTableConstraints h]

theorem sim_parseElement {r r' : Parsers} (h : ParsersSim ρ ρ' r r') (w w' : SQLWord)
    (hw : kwOf w'.keyword = kwOf w.keyword) :
    Sim ρ ρ' (parseElement r w) (parseElement r' w') := by
  unfold parseElement; rw [hw]; rsim [sim_parseKeyword, sim_kw, sim_kwTok, sim_kwOrErr, sim_expectKeyword, sim_consumeToken, sim_expectToken, sim_nextSym, sim_parseElement_parseC h, sim_parseColumnDef h]

theorem sim_elementsF {r r' : Parsers} (h : ParsersSim ρ ρ' r r') :
    Sim ρ ρ' (elementsF r) (elementsF r') := by
  unfold elementsF; rsim [sim_parseKeyword, sim_kw, sim_kwTok, sim_kwOrErr, sim_expectKeyword, sim_consumeToken, sim_expectToken, sim_nextSym, h.elements, sim_parseElement h]

theorem sim_parseElements {r r' : Parsers} (h : ParsersSim ρ ρ' r r') :
    Sim ρ ρ' (parseElements r) (parseElements r') := by
  unfold parseElements; rsim [sim_parseKeyword, sim_kw, sim_kwTok, sim_kwOrErr, sim_expectKeyword, sim_consumeToken, sim_expectToken, sim_nextSym, h.elements]

theorem sim_parseOptionName :
    Sim ρ ρ' (parseOptionName) (parseOptionName) := by
  unfold parseOptionName; rsim [sim_parseKeyword, sim_kw, sim_kwTok, sim_kwOrErr, sim_expectKeyword, sim_consumeToken, sim_expectToken, sim_nextSym, sim_parseIdentifier]

theorem sim_parseTableOption :
    Sim ρ ρ' (parseTableOption) (parseTableOption) := by
  unfold parseTableOption; rsim [sim_parseKeyword, sim_kw, sim_kwTok, sim_kwOrErr, sim_expectKeyword, sim_consumeToken, sim_expectToken, sim_nextSym, sim_parseOptionName]

theorem sim_tableOptionsF {r r' : Parsers} (h : ParsersSim ρ ρ' r r') :
    Sim ρ ρ' (tableOptionsF r) (tableOptionsF r') := by
  unfold tableOptionsF; rsim [sim_parseKeyword, sim_kw, sim_kwTok, sim_kwOrErr, sim_expectKeyword, sim_consumeToken, sim_expectToken, sim_nextSym, h.tableOptions, sim_parseTableOption]

theorem sim_parseCreateTable {r r' : Parsers} (h : ParsersSim ρ ρ' r r') (t t' : Token) :
    Sim ρ ρ' (parseCreateTable r t) (parseCreateTable r' t') := by
  unfold parseCreateTable; rsim [sim_parseKeyword, sim_kw, sim_kwTok, sim_kwOrErr, sim_expectKeyword, sim_consumeToken, sim_expectToken, sim_nextSym, h.tableOptions, sim_parseObjectName h, sim_parseElements h]

theorem sim_parseCreateView {r r' : Parsers} (h : ParsersSim ρ ρ' r r') (t t' : Token) :
    Sim ρ ρ' (parseCreateView r t) (parseCreateView r' t') := by
  unfold parseCreateView; rsim [sim_parseKeyword, sim_kw, sim_kwTok, sim_kwOrErr, sim_expectKeyword, sim_consumeToken, sim_expectToken, sim_nextSym, h.query, sim_parseObjectName h]

theorem sim_parseCreateIndex {r r' : Parsers} (h : ParsersSim ρ ρ' r r') (u) :
    Sim ρ ρ' (parseCreateIndex r u) (parseCreateIndex r' u) := by
  unfold parseCreateIndex; rsim [sim_parseKeyword, sim_kw, sim_kwTok, sim_kwOrErr, sim_expectKeyword, sim_consumeToken, sim_expectToken, sim_nextSym, sim_parseObjectName h, sim_parseIdentifier, sim_parseColumnNames h, sim_parseExpr h]

theorem sim_parseCreate {r r' : Parsers} (h : ParsersSim ρ ρ' r r') :
    Sim ρ ρ' (parseCreate r) (parseCreate r') := by
  unfold parseCreate; rsim [sim_parseKeyword, sim_kw, sim_kwTok, sim_kwOrErr, sim_expectKeyword, sim_consumeToken, sim_expectToken, sim_nextSym, sim_parseCreateTable h, sim_parseCreateView h, sim_parseCreateIndex h]

theorem sim_parseDelete {r r' : Parsers} (h : ParsersSim ρ ρ' r r') :
    Sim ρ ρ' (parseDelete r) (parseDelete r') := by
  unfold parseDelete; rsim [sim_parseKeyword, sim_kw, sim_kwTok, sim_kwOrErr, sim_expectKeyword, sim_consumeToken, sim_expectToken, sim_nextSym, sim_parseObjectName h, sim_parseExpr h]

theorem sim_assignmentsF {r r' : Parsers} (h : ParsersSim ρ ρ' r r') :
    Sim ρ ρ' (assignmentsF r) (assignmentsF r') := by
  unfold assignmentsF; rsim [sim_parseKeyword, sim_kw, sim_kwTok, sim_kwOrErr, sim_expectKeyword, sim_consumeToken, sim_expectToken, sim_nextSym, h.assignments, sim_parseExpr h]

theorem sim_parseUpdate {r r' : Parsers} (h : ParsersSim ρ ρ' r r') :
    Sim ρ ρ' (parseUpdate r) (parseUpdate r') := by
  unfold parseUpdate; rsim [sim_parseKeyword, sim_kw, sim_kwTok, sim_kwOrErr, sim_expectKeyword, sim_consumeToken, sim_expectToken, sim_nextSym, h.assignments, sim_parseObjectName h, sim_parseExpr h]

theorem sim_rowsF {r r' : Parsers} (h : ParsersSim ρ ρ' r r') :
    Sim ρ ρ' (rowsF r) (rowsF r') := by
  unfold rowsF; rsim [sim_parseKeyword, sim_kw, sim_kwTok, sim_kwOrErr, sim_expectKeyword, sim_consumeToken, sim_expectToken, sim_nextSym, h.exprList, h.rows]

theorem sim_parseInsert {r r' : Parsers} (h : ParsersSim ρ ρ' r r') :
    Sim ρ ρ' (parseInsert r) (parseInsert r') := by
  unfold parseInsert; rsim [sim_parseKeyword, sim_kw, sim_kwTok, sim_kwOrErr, sim_expectKeyword, sim_consumeToken, sim_expectToken, sim_nextSym, h.rows, h.query, h.assignments, sim_parseObjectName h, sim_parseColumnNames h]

theorem sim_parseAlterColumn {r r' : Parsers} (h : ParsersSim ρ ρ' r r') (t t' : Token) :
    Sim ρ ρ' (parseAlterColumn r t) (parseAlterColumn r' t') := by
  unfold parseAlterColumn; rsim [sim_parseKeyword, sim_kw, sim_kwTok, sim_kwOrErr, sim_expectKeyword, sim_consumeToken, sim_expectToken, sim_nextSym, sim_parseIdentifier, sim_parseDefaultExpr h, sim_parseDataType h]

theorem sim_parseCascade :
    Sim ρ ρ' (parseCascade) (parseCascade) := by
  unfold parseCascade; rsim [sim_parseKeyword, sim_kw, sim_kwTok, sim_kwOrErr, sim_expectKeyword, sim_consumeToken, sim_expectToken, sim_nextSym]

theorem sim_parseAlterAction {r r' : Parsers} (h : ParsersSim ρ ρ' r r') :
    Sim ρ ρ' (parseAlterAction r) (parseAlterAction r') := by
  unfold parseAlterAction; rsim [sim_parseKeyword, sim_kw, sim_kwTok, sim_kwOrErr, sim_expectKeyword, sim_consumeToken, sim_expectToken, sim_nextSym, sim_parseColumnDef h, sim_parseTableConstraints h, sim_parseIdentifier, sim_parseCascade, sim_parseAlterColumn h]

theorem sim_parseAlter {r r' : Parsers} (h : ParsersSim ρ ρ' r r') :
    Sim ρ ρ' (parseAlter r) (parseAlter r') := by
  unfold parseAlter; rsim [sim_parseKeyword, sim_kw, sim_kwTok, sim_kwOrErr, sim_expectKeyword, sim_consumeToken, sim_expectToken, sim_nextSym, sim_parseObjectName h, sim_parseAlterAction h]

theorem sim_parseDrop {r r' : Parsers} (h : ParsersSim ρ ρ' r r') :
    Sim ρ ρ' (parseDrop r) (parseDrop r') := by
  unfold parseDrop; rsim [sim_parseKeyword, sim_kw, sim_kwTok, sim_kwOrErr, sim_expectKeyword, sim_consumeToken, sim_expectToken, sim_nextSym, sim_parseObjectName h, sim_parseCascade, sim_parseColumnNames h]

theorem sim_statementF_parseQueryStmt {r r' : Parsers} (h : ParsersSim ρ ρ' r r') :
    Sim ρ ρ' (statementF.parseQueryStmt r) (statementF.parseQueryStmt r') := by
  unfold statementF.parseQueryStmt; rsim [sim_parseKeyword, sim_kw, sim_kwTok, sim_kwOrErr, sim_expectKeyword, sim_consumeToken, sim_expectToken, sim_nextSym, h.query]

theorem sim_statementF {r r' : Parsers} (h : ParsersSim ρ ρ' r r') :
    Sim ρ ρ' (statementF r) (statementF r') := by
  unfold statementF; rsim [sim_parseKeyword, sim_kw, sim_kwTok, sim_kwOrErr, sim_expectKeyword, sim_consumeToken, sim_expectToken, sim_nextSym, h.statement, sim_statementF_parseQueryStmt h, sim_parseCreate h, sim_parseDelete h, sim_parseInsert h, sim_parseAlter h, sim_parseUpdate h, sim_parseDrop h]

theorem sim_step {r r' : Parsers} (h : ParsersSim ρ ρ' r r') (fns : FloatFns) :
    ParsersSim ρ ρ' (Parsers.step fns r) (Parsers.step fns r') where
  subexpr := sim_subexprF h
  subexprLoop := sim_subexprLoopF h
  prefix_ := sim_prefixF h fns
  idParts := sim_idPartsF h
  exprList := sim_exprListF h
  listOfIds := sim_listOfIdsF h
  listOfIdsSep := sim_listOfIdsSepF h
  orderByList := sim_orderByListF h
  caseLoop := sim_caseLoopF h
  query := sim_queryF h
  queryBody := sim_queryBodyF h
  bodyLoop := sim_bodyLoopF h
  cteList := sim_cteListF h
  selectList := sim_selectListF h
  tableRef := sim_tableRefF h
  tableRefLoop := sim_tableRefLoopF h
  fromRest := sim_fromRestF h
  defaultLoop := sim_defaultLoopF h
  columnLoop := sim_columnLoopF h
  columnConstraints := sim_columnConstraintsF h
  elements := sim_elementsF h
  tableOptions := sim_tableOptionsF h
  assignments := sim_assignmentsF h
  rows := sim_rowsF h
  statement := sim_statementF h

theorem sim_at (fns : FloatFns) : ∀ n, ParsersSim ρ ρ' (Parsers.at fns n) (Parsers.at fns n)
  | 0 => by constructor <;> intros <;> exact .oof
  | n + 1 => sim_step (sim_at fns n) fns

/-! ### What this means for runs -/

/-- Results that differ only in positions, in the value and in the tokens of the state. -/
def SameRes (ρ ρ' : Renaming) [Erases α α'] : Res (List Token × List Token) α → Res (List Token × List Token) α → Prop
  | .ok a s, .ok a' s' => er ρ a = er ρ' a' ∧ er ρ s = er ρ' s'
  | .err, .err => True
  | .panic, .panic => True
  | .oof, .oof => True
  | _, _ => False

theorem er_cons {t : Token} {s s' : List Token} (h : er ρ (t :: s) = er ρ' s') :
    ∃ t' r, s' = t' :: r ∧ er ρ t = er ρ' t' ∧ er ρ s = er ρ' r := by
  cases s' with
  | nil => simp [er] at h
  | cons t' r =>
    simp only [er, List.map_cons, List.cons.injEq] at h
    exact ⟨t', r, rfl, h.1, h.2⟩

theorem er_nil {s' : List Token} (h : er ρ ([] : List Token) = er ρ' s') : s' = [] := by
  cases s' with
  | nil => rfl
  | cons t' r => simp [er] at h

theorem takeKws_same (ks : List KW) : ∀ (s s' : List Token), er ρ s = er ρ' s' →
    er ρ (takeKws (ks.map KW.str) s) = er ρ' (takeKws (ks.map KW.str) s') := by
  induction ks with
  | nil => intro s s' h; simp only [List.map_nil, takeKws, er, Option.map_some] at *; rw [h]
  | cons k ks ih =>
    intro s s' h
    cases s with
    | nil => rw [er_nil h]; rfl
    | cons t s =>
      obtain ⟨t', r, rfl, ht, hs⟩ := er_cons h
      have := ih s r hs
      have hm : Token.matchesKw t' k.str = Token.matchesKw t k.str := matches_eq (Sim.tok_eq ht) k _ _ _ _
      simp only [List.map_cons, takeKws, hm]
      by_cases hk : Token.matchesKw t k.str = true
      · rw [if_pos hk, if_pos hk]
        cases h1 : takeKws (ks.map KW.str) s <;> cases h2 : takeKws (ks.map KW.str) r <;> simp_all [er]
      · rw [if_neg hk, if_neg hk]; rfl

theorem sim_runZ [Erases α α'] {p p' : P α} (h : Sim ρ ρ' p p') : ∀ {b b' a a' : List Token}, er ρ b = er ρ' b' →
    er ρ a = er ρ' a' → SameRes ρ ρ' (p.runZ b a) (p'.runZ b' a') := by
  induction h with
  | ret h => intro b b' a a' hb ha; exact ⟨h, by simp only [er] at *; rw [hb, ha]⟩
  | err => intros; trivial
  | panic => intros; trivial
  | oof => intros; trivial
  | next _ ih =>
    intro b b' a a' hb ha
    cases a with
    | nil => rw [er_nil ha]; exact ih _ _ rfl hb rfl
    | cons t a =>
      obtain ⟨t', r, rfl, ht, hs⟩ := er_cons ha
      refine ih _ _ (by simpa [er] using ht) ?_ hs
      simp only [er, List.map_cons] at *
      rw [ht, hb]
  | peek _ ih =>
    intro b b' a a' hb ha
    refine ih _ _ ?_ hb ha
    cases a with
    | nil => rw [er_nil ha]; rfl
    | cons t a =>
      obtain ⟨t', r, rfl, ht, hs⟩ := er_cons ha
      simpa [er] using ht
  | prev _ ih =>
    intro b b' a a' hb ha
    cases b with
    | nil => rw [er_nil hb]; trivial
    | cons t b =>
      obtain ⟨t', r, rfl, ht, hs⟩ := er_cons hb
      refine ih hs ?_
      simp only [er, List.map_cons] at *
      rw [ht, ha]
  | @kws ks k k' _ ih =>
    intro b b' a a' hb ha
    have := takeKws_same ks a a' ha
    unfold P.runZ
    split
    · rename_i ts s' h1
      rw [h1] at this
      cases h2 : takeKws (ks.map KW.str) a' with
      | none => rw [h2] at this; simp [er] at this
      | some x =>
        obtain ⟨ts', s2⟩ := x
        rw [h2] at this
        simp only [er, Option.map_some, Option.some.injEq, Prod.mk.injEq] at this
        refine ih _ _ (by simp only [er, Option.map_some]; rw [this.1]) ?_ this.2
        simp only [er, List.map_append, List.map_reverse] at *
        rw [this.1, hb]
    · rename_i h1
      rw [h1] at this
      cases h2 : takeKws (ks.map KW.str) a' with
      | some x => rw [h2] at this; simp [er] at this
      | none => exact ih none none rfl hb ha

theorem sim_parseSQLLoop {r r' : Parsers} (h : ParsersSim ρ ρ' r r') (mode : Bool) : ∀ n e,
    Sim ρ ρ' (parseSQLLoop mode r n e) (parseSQLLoop mode r' n e)
  | 0, _ => .oof
  | n + 1, e => by
    have ih := sim_parseSQLLoop h mode n
    unfold parseSQLLoop
    cases mode <;> simp only [if_true, Bool.false_eq_true, if_false, pure_bind] <;>
      rsim [sim_consumeToken, h.statement, ih]

end Verif.Ren
