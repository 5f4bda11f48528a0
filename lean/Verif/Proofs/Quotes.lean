import Verif.Proofs.Atoms
import Verif.Proofs.PrintText
import Verif.Proofs.EraseIdem
/-
Counting quotes: how many there are in the text of a tree, and how many there must be in a text from which the tree is
read.
-/
set_option linter.unusedSimpArgs false
set_option linter.unusedSectionVars false
set_option maxRecDepth 100000
namespace Verif
open Spec

/-- The number of single quotes in a text. -/
def quotes (s : Str) : Nat := s.count '\''

@[simp] theorem quotes_nil : quotes [] = 0 := rfl
@[simp] theorem quotes_append (s t : Str) : quotes (s ++ t) = quotes s + quotes t := List.count_append
theorem quotes_cons (c : Char) (s : Str) : quotes (c :: s) = (if c = '\'' then 1 else 0) + quotes s := by
  rw [quotes, quotes, List.count_cons]
  simp only [beq_iff_eq]
  omega

/-- The quotes the printer writes for an atom. -/
def Spec.Atom.printed : Atom → Nat
  | .name i => quotes i.value
  | .single _ _ s => quotes s + 2
  | .national _ _ s => quotes s + 2
  | .raw s => quotes s
  | _ => 0

def printed (as : List Atom) : Nat := (as.map Atom.printed).sum

@[simp] theorem printed_nil : printed [] = 0 := rfl
@[simp] theorem printed_cons (a : Atom) (as : List Atom) : printed (a :: as) = a.printed + printed as := rfl
@[simp] theorem printed_append (as bs : List Atom) : printed (as ++ bs) = printed as + printed bs := by
  simp [printed]

theorem printed_names (is : List Ident) : printed (names is) = ((is.map fun i => quotes i.value).sum) := by
  induction is with
  | nil => rfl
  | cons i is ih =>
    simp only [names, List.map_cons, printed_cons, List.sum_cons] at ih ⊢
    rw [ih]; rfl

theorem printed_names_nil : printed (names []) = 0 := rfl

theorem quotes_natStr (n : Nat) : quotes (natStr n) = 0 := by
  induction n using natStr.induct with
  | case1 n h =>
    rw [natStr, if_pos h]
    have : ∀ m : Fin 10, quotes [Char.ofNat (48 + m.val)] = 0 := by decide
    exact this ⟨n, h⟩
  | case2 n h ih =>
    rw [natStr, if_neg h, quotes_append, ih]
    have : ∀ m : Fin 10, quotes [Char.ofNat (48 + m.val)] = 0 := by decide
    exact (Nat.zero_add _).trans (this ⟨n % 10, Nat.mod_lt _ (by omega)⟩)

theorem quotes_intStr (i : Int) : quotes (intStr i) = 0 := by
  cases i with
  | ofNat n => exact quotes_natStr n
  | negSucc n => simp [intStr, quotes_cons, quotes_natStr]

theorem quotes_join {sep : Str} (hs : quotes sep = 0) (ws : List Wt) :
    quotes (Step.texts (Step.join sep ws)) = (ws.map fun w => quotes w.text).sum := by
  cases ws with
  | nil => rfl
  | cons w ws =>
    rw [join_cons, quotes_append, List.map_cons, List.sum_cons]
    congr 1
    induction ws with
    | nil => rfl
    | cons v ws ih =>
      rw [List.flatMap_cons, texts_append, quotes_append, ih]
      simp [Step.texts, Step.text, hs]

theorem quotes_idents {sep : Str} (hs : quotes sep = 0) (is : List Ident) :
    quotes (Step.text (Step.idents' is sep)) = printed (names is) := by
  rw [text_idents, printed_names]
  cases is with
  | nil => rfl
  | cons i is =>
    rw [List.map_cons, intercalate_cons, quotes_append, List.map_cons, List.sum_cons]
    congr 1
    induction is with
    | nil => rfl
    | cons v ws ih => simp [ih, hs]

/-- The simplification set of this file. -/
macro "qsimp" "[" ls:Lean.Parser.Tactic.simpLemma,* "]" : tactic =>
  `(tactic| (simp [Wt.text, Step.texts, Step.text, texts_append, quotes_idents (sep := str% ".") (by decide),
      quotes_idents (sep := str% ", ") (by decide), quotes_join (sep := str% ", ") (by decide), Step.if_, negated, quotes_cons,
      quotes_natStr, quotes_intStr, Spec.Atom.printed, $ls,*] <;> try omega))

theorem quotes_if (c : Bool) (b : Str) (hb : quotes b = 0) : quotes (Step.texts (Step.if_ c b)) = 0 := by
  cases c <;> simp [Step.if_, Step.texts, Step.text, hb]

theorem quotes_negated (c : Bool) : quotes (Step.texts (negated c)) = 0 := quotes_if c _ (by decide)

theorem Ident.quotes_text (i : Ident) : quotes i.wt.text = quotes i.value := rfl

theorem ObjectName.quotes_text (o : ObjectName) : quotes o.wt.text = printed (names o.idents) := by
  qsimp [ObjectName.wt]

theorem quotes_length (ty : Str) (size : Option Nat) :
    quotes (Step.texts (Step.typeWithOptionalLength ty size)) = quotes ty := by
  cases size <;> qsimp [Step.typeWithOptionalLength, Step.uint]

theorem printed_size (n : Option Nat) : printed (sizeO n) = 0 := by cases n <;> rfl

theorem DataType.quotes_text : (t : DataType) → quotes t.wt.text = printed t.atoms
  | .array ty _ => by qsimp [DataType.wt, DataType.atoms, DataType.quotes_text ty]
  | .custom ty => by rw [DataType.wt, DataType.atoms, ObjectName.quotes_text]
  | .decimal p s _ _ u _ => by
    cases p <;> cases s <;> cases u <;> qsimp [DataType.wt, DataType.atoms, Step.uint, unsignedBytes, printed_size, sizeO]
  | .float s _ _ _ u _ => by
    cases u <;> qsimp [DataType.wt, DataType.atoms, quotes_length, unsignedBytes, printed_size]
  | .smallInt _ _ u _ | .int _ _ u _ | .bigInt _ _ u _ | .real _ _ u _ => by
    cases u <;> qsimp [DataType.wt, DataType.atoms, unsignedBytes]
  | .timestamp u _ _ => by cases u <;> qsimp [DataType.wt, DataType.atoms]
  | .char .. | .varchar .. | .clob .. | .binary .. | .varbinary .. | .blob .. => by
    qsimp [DataType.wt, DataType.atoms, quotes_length, printed_size]
  | .uuid .. | .double .. | .boolean .. | .date .. | .time .. | .regclass .. | .text .. | .bytea .. => by
    qsimp [DataType.wt, DataType.atoms]

theorem Operator.quotes_text (o : Operator) : quotes o.wt.text = 0 := by
  rcases o with ⟨t, a, b⟩
  cases t <;> rfl

theorem FrameBound.quotes_text (b : FrameBound) : quotes b.wt.text = printed b.atoms := by
  cases b <;> qsimp [FrameBound.wt, FrameBound.atoms, Step.uint]

theorem WindowFrameUnit.quotes_text (b : WindowFrameUnit) : quotes b.wt.text = 0 := by
  rcases b with ⟨a, b, t⟩
  cases t <;> rfl

theorem frame_quotes (f : WindowFrame) : quotes f.wt.text = printed (frameAtoms (some f)) := by
  rcases f with ⟨u, s, e⟩
  cases e <;> qsimp [WindowFrame.wt, frameAtoms, FrameBound.quotes_text, WindowFrameUnit.quotes_text]

theorem JoinType.quotes_text (j : JoinType) : quotes j.wt.text = 0 := by
  rcases j with ⟨c, a, b⟩
  cases c <;> rfl

theorem SetOp.quotes_text (o : SetOp) : quotes o.wt.text = 0 := by cases o <;> rfl

theorem limit_quotes (l : LimitExpr) : quotes l.wt.text = printed (limitAtoms (some l)) := by
  rcases l with ⟨c, a, b, o⟩
  cases c <;> cases o <;> qsimp [LimitExpr.wt, LongValue.wt, limitAtoms]

theorem alias_quotes (a : Option Ident) : quotes (Step.texts (aliasSteps a)) = printed (nameO a) := by
  cases a <;> qsimp [aliasSteps, nameO, Ident.wt]

/-- The simplification set for expressions. -/
macro "qsimp2" "[" ls:Lean.Parser.Tactic.simpLemma,* "]" : tactic =>
  `(tactic| (simp [-List.map_map, printed_names_nil, Wt.text, Step.texts, Step.text, texts_append, quotes_idents (sep := str% ".") (by decide),
      quotes_idents (sep := str% ", ") (by decide), quotes_join (sep := str% ", ") (by decide), quotes_if, quotes_negated, quotes_cons,
      quotes_natStr, quotes_intStr, Spec.Atom.printed, Ident.quotes_text, ObjectName.quotes_text, DataType.quotes_text,
      Operator.quotes_text, JoinType.quotes_text, SetOp.quotes_text, alias_quotes, frame_quotes, limit_quotes, LongValue.wt,
      timeWt, Expr.atomsL, OrderByExpr.atomsL, CTE.atomsL, SelectItem.atomsL, TableRef.atomsL, frameAtoms, limitAtoms, $ls,*]
      <;> try omega))

section
variable {fns : FloatFns} (hf : ∀ v, quotes (fns.format v) = 0)
include hf

mutual

theorem Expr.quotes_text : (x : Expr) → quotes (x.wt fns).text = printed x.atoms
  | .ident _ => by
    qsimp2 [Expr.wt, Expr.atoms]
  | .wildcard _ => by
    qsimp2 [Expr.wt, Expr.atoms]
  | .qualifiedWildcard _ => by
    qsimp2 [Expr.wt, Expr.atoms]
  | .compoundIdent _ => by
    qsimp2 [Expr.wt, Expr.atoms]
  | .isNull a0 => by
    qsimp2 [Expr.wt, Expr.atoms, Expr.quotes_text a0]
  | .isNotNull a0 => by
    qsimp2 [Expr.wt, Expr.atoms, Expr.quotes_text a0]
  | .inList a0 a1 _ _ => by
    qsimp2 [Expr.wt, Expr.atoms, Expr.quotes_text a0, Expr.quotes_texts a1]
  | .inSubQuery a0 a1 _ _ => by
    qsimp2 [Expr.wt, Expr.atoms, Expr.quotes_text a0, QueryStmt.quotes_text a1]
  | .between a0 _ a2 a3 => by
    qsimp2 [Expr.wt, Expr.atoms, Expr.quotes_text a0, Expr.quotes_text a2, Expr.quotes_text a3]
  | .binary a0 _ a2 => by
    qsimp2 [Expr.wt, Expr.atoms, Expr.quotes_text a0, Expr.quotes_text a2]
  | .cast a0 _ _ _ => by
    qsimp2 [Expr.wt, Expr.atoms, Expr.quotes_text a0]
  | .nested a0 _ _ => by
    qsimp2 [Expr.wt, Expr.atoms, Expr.quotes_text a0]
  | .unary _ _ a2 => by
    qsimp2 [Expr.wt, Expr.atoms, Expr.quotes_text a2]
  | .function _ a1 _ none _ => by
    qsimp2 [Expr.wt, Expr.atoms, overSteps, Expr.quotes_texts a1]
  | .function _ a1 _ (some a3) _ => by
    qsimp2 [Expr.wt, Expr.atoms, overSteps, Expr.quotes_texts a1, WindowSpec.quotes_text a3]
  | .caseExpr _ _ a2 a3 a4 a5 => by
    qsimp2 [Expr.wt, Expr.atoms, optSteps_quotes a2, Expr.quotes_texts a4, optSteps_quotes a5, caseSteps_quotes a3 a4 (Expr.quotes_each a4)]
  | .exists_ _ a1 _ _ _ => by
    qsimp2 [Expr.wt, Expr.atoms, QueryStmt.quotes_text a1]
  | .subQuery _ _ a2 => by
    qsimp2 [Expr.wt, Expr.atoms, QueryStmt.quotes_text a2]
  | .long _ => by
    qsimp2 [Expr.wt, Expr.atoms]
  | .double _ _ _ => by
    qsimp2 [Expr.wt, Expr.atoms, hf]
  | .singleQuoted _ _ _ => by
    qsimp2 [Expr.wt, Expr.atoms]
  | .national _ _ _ => by
    qsimp2 [Expr.wt, Expr.atoms]
  | .boolean _ _ b => by cases b <;> rfl
  | .null _ _ => by
    qsimp2 [Expr.wt, Expr.atoms]
  | .timeValue _ _ _ _ => by
    qsimp2 [Expr.wt, Expr.atoms]

theorem optSteps_quotes : (x : Option Expr) → ∀ {pre : Str}, quotes pre = 0 →
    quotes (Step.texts (optSteps fns pre x)) = printed (Expr.atomsO x)
  | none, _, _ => rfl
  | some e, _, hp => by simp [optSteps, Expr.atomsO, Step.texts, Step.text, hp, Expr.quotes_text e]

theorem Expr.quotes_each : (rs : List Expr) → ∀ r ∈ rs, quotes (r.wt fns).text = printed r.atoms
  | [], _, h => by cases h
  | e :: es, r, h => by
    rcases List.mem_cons.1 h with h | h
    · rw [h]; exact Expr.quotes_text e
    · exact Expr.quotes_each es r h

theorem caseSteps_quotes : (cs : List Expr) → ∀ rs : List Expr,
    (∀ r ∈ rs, quotes (r.wt fns).text = printed r.atoms) →
    quotes (Step.texts (caseSteps fns cs (Expr.wts fns rs))) = printed (byTurns (Expr.atomsL cs) (Expr.atomsL rs))
  | [], _, _ => by simp [caseSteps, Expr.atomsL, byTurns, Step.texts]
  | _ :: _, [], _ => by simp [caseSteps, Expr.wts, Expr.atomsL, byTurns, Step.texts]
  | c :: cs, r :: rs, h => by
    have h1 := h r List.mem_cons_self
    have h2 := caseSteps_quotes cs rs fun x hx => h x (List.mem_cons_of_mem _ hx)
    simp [caseSteps, Expr.wts, Expr.atomsL, byTurns, Step.texts, Step.text, Expr.quotes_text c, h1, h2, quotes_cons]
    try omega

theorem Expr.quotes_texts : (x : List Expr) → ((Expr.wts fns x).map fun w => quotes w.text).sum = printed (Expr.atomsL x).flatten
  | [] => rfl
  | e :: es => by simp [Expr.wts, Expr.atomsL, Expr.quotes_text e, Expr.quotes_texts es]

theorem WindowSpec.quotes_text : (x : WindowSpec) → quotes (x.wt fns).text = printed x.atoms
  | .mk a0 a1 f _ _ => by
    have h0 := Expr.quotes_texts a0
    have h1 := OrderByExpr.quotes_texts a1
    cases a0 <;> cases a1 <;> cases f <;> qsimp2 [WindowSpec.wt, WindowSpec.atoms, frame_quotes, h0, h1]

theorem OrderByExpr.quotes_text : (x : OrderByExpr) → quotes (x.wt fns).text = printed x.atoms
  | .mk a0 _ asc => by
    have h0 := Expr.quotes_text a0
    rcases asc with _ | _ | _ <;> qsimp2 [OrderByExpr.wt, OrderByExpr.atoms, h0]

theorem OrderByExpr.quotes_texts : (x : List OrderByExpr) → ((OrderByExpr.wts fns x).map fun w => quotes w.text).sum = printed (OrderByExpr.atomsL x).flatten
  | [] => rfl
  | e :: es => by simp [OrderByExpr.wts, OrderByExpr.atomsL, OrderByExpr.quotes_text e, OrderByExpr.quotes_texts es]

theorem QueryStmt.quotes_text : (x : QueryStmt) → quotes (x.wt fns).text = printed x.atoms
  | .mk _ a1 a2 a3 l => by
    have h0 := CTE.quotes_texts a1
    have h1 := SetExpr.quotes_text a2
    have h2 := OrderByExpr.quotes_texts a3
    cases a1 <;> cases a3 <;> cases l <;> qsimp2 [QueryStmt.wt, QueryStmt.atoms, h0, h1, h2]

theorem CTE.quotes_text : (x : CTE) → quotes (x.wt fns).text = printed x.atoms
  | .mk _ a1 _ => by
    have h0 := QueryStmt.quotes_text a1
    qsimp2 [CTE.wt, CTE.atoms, h0]

theorem CTE.quotes_texts : (x : List CTE) → ((CTE.wts fns x).map fun w => quotes w.text).sum = printed (CTE.atomsL x).flatten
  | [] => rfl
  | e :: es => by simp [CTE.wts, CTE.atomsL, CTE.quotes_text e, CTE.quotes_texts es]

theorem SetExpr.quotes_text : (x : SetExpr) → quotes (x.wt fns).text = printed x.atoms
  | .selectExpr a0 => by
    qsimp2 [SetExpr.wt, SetExpr.atoms, SQLSelect.quotes_text a0]
  | .select a0 => by
    qsimp2 [SetExpr.wt, SetExpr.atoms, SQLSelect.quotes_text a0]
  | .query _ _ a2 => by
    qsimp2 [SetExpr.wt, SetExpr.atoms, QueryStmt.quotes_text a2]
  | .setOp _ _ a2 a3 => by
    qsimp2 [SetExpr.wt, SetExpr.atoms, SetExpr.quotes_text a2, SetExpr.quotes_text a3]

theorem SQLSelect.quotes_text : (x : SQLSelect) → quotes (x.wt fns).text = printed x.atoms
  | .mk _ a1 a2 a3 a4 a5 _ => by
    have h0 := SelectItem.quotes_texts a1
    have h1 := TableRef.quotes_texts a2
    have h3 := Expr.quotes_texts a4
    cases a1 <;> cases a2 <;> cases a4 <;> qsimp2 [SQLSelect.wt, SQLSelect.atoms, h0, h1, h3, optSteps_quotes a3, optSteps_quotes a5]

theorem SelectItem.quotes_text : (x : SelectItem) → quotes (x.wt fns).text = printed x.atoms
  | .unnamed a0 => by
    qsimp2 [SelectItem.wt, SelectItem.atoms, Expr.quotes_text a0]
  | .alias a0 _ => by
    qsimp2 [SelectItem.wt, SelectItem.atoms, Expr.quotes_text a0]
  | .qualifiedWildcard _ => by
    qsimp2 [SelectItem.wt, SelectItem.atoms]
  | .wildcard _ _ => by
    qsimp2 [SelectItem.wt, SelectItem.atoms]

theorem SelectItem.quotes_texts : (x : List SelectItem) → ((SelectItem.wts fns x).map fun w => quotes w.text).sum = printed (SelectItem.atomsL x).flatten
  | [] => rfl
  | e :: es => by simp [SelectItem.wts, SelectItem.atomsL, SelectItem.quotes_text e, SelectItem.quotes_texts es]

theorem TableFactor.quotes_text : (x : TableFactor) → quotes (x.wt fns).text = printed x.atoms
  | .table _ _ a2 _ a4 _ => by
    have h0 := Expr.quotes_texts a2
    have h1 := Expr.quotes_texts a4
    cases a2 <;> cases a4 <;> qsimp2 [TableFactor.wt, TableFactor.atoms, h0, h1]
  | .derived _ _ _ _ a4 _ => by
    qsimp2 [TableFactor.wt, TableFactor.atoms, QueryStmt.quotes_text a4]

theorem TableRef.quotes_text : (x : TableRef) → quotes (x.wt fns).text = printed x.atoms
  | .factor a0 => by
    qsimp2 [TableRef.wt, TableRef.atoms, TableFactor.quotes_text a0]
  | .cross a0 a1 => by
    qsimp2 [TableRef.wt, TableRef.atoms, TableRef.quotes_text a0, TableFactor.quotes_text a1]
  | .partitioned a0 _ _ => by
    qsimp2 [TableRef.wt, TableRef.atoms, TableFactor.quotes_text a0]
  | .qualified a0 _ a2 a3 => by
    qsimp2 [TableRef.wt, TableRef.atoms, TableRef.quotes_text a0, TableRef.quotes_text a2, JoinSpec.quotes_text a3]
  | .natural a0 _ a2 => by
    qsimp2 [TableRef.wt, TableRef.atoms, TableRef.quotes_text a0, TableRef.quotes_text a2]

theorem TableRef.quotes_texts : (x : List TableRef) → ((TableRef.wts fns x).map fun w => quotes w.text).sum = printed (TableRef.atomsL x).flatten
  | [] => rfl
  | e :: es => by simp [TableRef.wts, TableRef.atomsL, TableRef.quotes_text e, TableRef.quotes_texts es]

theorem JoinSpec.quotes_text : (x : JoinSpec) → quotes (x.wt fns).text = printed x.atoms
  | .namedColumns _ _ _ => by
    qsimp2 [JoinSpec.wt, JoinSpec.atoms]
  | .condition a0 _ => by
    qsimp2 [JoinSpec.wt, JoinSpec.atoms, Expr.quotes_text a0]

end

theorem map_quotes {β : Type} (f : β → Wt) (g : β → List Atom) (h : ∀ x, quotes (f x).text = printed (g x)) (xs : List β) :
    ((xs.map f).map fun w => quotes w.text).sum = printed (xs.flatMap g) := by
  induction xs with
  | nil => rfl
  | cons x xs ih =>
    rw [List.map_cons, List.map_cons, List.sum_cons, h, ih, List.flatMap_cons, printed_append]

theorem exprs_quotes (es : List Expr) :
    ((es.map (Expr.wt fns)).map fun w => quotes w.text).sum = printed (Expr.atomsL es).flatten := by
  induction es with
  | nil => rfl
  | cons e es ih =>
    rw [List.map_cons, List.map_cons, List.sum_cons, ih, Expr.quotes_text hf e]
    simp [Expr.atomsL]

theorem RowValueExpr.quotes_text (r : RowValueExpr) : quotes (r.wt fns).text = printed (Expr.atomsL r.values).flatten := by
  qsimp2 [RowValueExpr.wt, exprs_quotes hf]

theorem InsertSource.quotes_text (r : InsertSource) : quotes (r.wt fns).text = printed r.atoms := by
  cases r with
  | subQuery s => exact QueryStmt.quotes_text hf s
  | constructor p rows =>
    qsimp2 [InsertSource.wt, InsertSource.atoms]
    exact map_quotes hf _ _ (RowValueExpr.quotes_text hf) rows

theorem Assignment.quotes_text (r : Assignment) : quotes (r.wt fns).text = printed r.atoms := by
  qsimp2 [Assignment.wt, Assignment.atoms, Expr.quotes_text hf]

theorem TableConstraintSpec.quotes_text (r : TableConstraintSpec) : quotes (r.wt fns).text = printed r.atoms := by
  cases r with
  | unique a b c d e => cases a <;> qsimp2 [TableConstraintSpec.wt, TableConstraintSpec.atoms]
  | referential a b c => qsimp2 [TableConstraintSpec.wt, TableConstraintSpec.atoms, ReferenceKeyExpr.wt]
  | check a b c => qsimp2 [TableConstraintSpec.wt, TableConstraintSpec.atoms, Expr.quotes_text hf]

theorem constraintName_quotes (n : Option Ident) : quotes (Step.texts (constraintName n)) = printed (nameO n) := by
  cases n <;> qsimp2 [constraintName, nameO]

theorem TableConstraint.quotes_text (r : TableConstraint) : quotes (r.wt fns).text = printed r.atoms := by
  qsimp2 [TableConstraint.wt, TableConstraint.atoms, constraintName_quotes hf, TableConstraintSpec.quotes_text hf]

theorem ColumnSpec.quotes_text (r : ColumnSpec) : quotes (r.wt fns).text = printed r.atoms := by
  cases r with
  | unique a b c d => cases a <;> qsimp2 [ColumnSpec.wt, ColumnSpec.atoms]
  | notNull a b => qsimp2 [ColumnSpec.wt, ColumnSpec.atoms]
  | references a b c d => qsimp2 [ColumnSpec.wt, ColumnSpec.atoms]
  | check a b c => qsimp2 [ColumnSpec.wt, ColumnSpec.atoms, Expr.quotes_text hf]

theorem ColumnConstraint.quotes_text (r : ColumnConstraint) : quotes (r.wt fns).text = printed r.atoms := by
  qsimp2 [ColumnConstraint.wt, ColumnConstraint.atoms, constraintName_quotes hf, ColumnSpec.quotes_text hf]

theorem decorations_quotes (ds : List AutoIncrement) :
    quotes (Step.texts (ds.flatMap fun m => [.bytes (str% " "), .node m.wt])) = 0 := by
  induction ds with
  | nil => rfl
  | cons d ds ih =>
    rw [List.flatMap_cons, texts_append, quotes_append, ih]
    rfl

theorem constraints_quotes (cs : List ColumnConstraint) :
    quotes (Step.texts (cs.map fun x => .node (x.wt fns))) = printed (cs.flatMap ColumnConstraint.atoms) := by
  induction cs with
  | nil => rfl
  | cons c cs ih => qsimp2 [ih, ColumnConstraint.quotes_text hf]

theorem ColumnDef.quotes_text (c : ColumnDef) : ∀ as ∈ c.arrangements, quotes (c.wt fns).text = printed as := by
  intro as ha
  have : quotes (c.wt fns).text = quotes c.name.value + printed c.dataType.atoms + printed (Expr.atomsO c.default_) +
      printed (c.constraints.flatMap ColumnConstraint.atoms) := by
    rcases c with ⟨n, t, df, dec, cs⟩
    cases df <;> qsimp2 [ColumnDef.wt, Expr.atomsO, Expr.quotes_text hf, decorations_quotes hf, constraints_quotes hf]
  simp only [ColumnDef.arrangements, List.mem_cons, List.not_mem_nil, or_false] at ha
  rcases ha with rfl | rfl <;> simp [this, Spec.Atom.printed] <;> omega

theorem TableElement.quotes_text (c : TableElement) : ∀ as ∈ c.arrangements, quotes (c.wt fns).text = printed as := by
  cases c with
  | constraint c =>
    intro as ha
    rw [List.mem_singleton.1 ha]
    exact TableConstraint.quotes_text hf c
  | column c => exact ColumnDef.quotes_text hf c

theorem arrange_quotes {β : Type} (f : β → Wt) (g : β → List (List Atom))
    (h : ∀ x, ∀ as ∈ g x, quotes (f x).text = printed as) :
    ∀ (xs : List β), ∀ as ∈ arrange (xs.map g), ((xs.map f).map fun w => quotes w.text).sum = printed as
  | [], as, ha => by
    rw [List.mem_singleton.1 ha]
    rfl
  | x :: xs, as, ha => by
    obtain ⟨a, h1, h2⟩ := List.mem_flatMap.1 ha
    obtain ⟨b, h3, rfl⟩ := List.mem_map.1 h2
    rw [List.map_cons, List.map_cons, List.sum_cons, h x a h1, arrange_quotes f g h xs b h3, printed_append]

theorem TableOption.quotes_text (o : TableOption) : quotes o.wt.text = printed o.atoms := by
  cases o <;> qsimp2 [TableOption.wt, TableOption.atoms]

theorem AlterColumnAction.quotes_text (a : AlterColumnAction) : quotes (a.wt fns).text = printed a.atoms := by
  cases a <;> qsimp2 [AlterColumnAction.wt, AlterColumnAction.atoms, Expr.quotes_text hf]

theorem AlterTableAction.quotes_text (a : AlterTableAction) :
    ∀ as ∈ a.arrangements, quotes (a.wt fns).text = printed as := by
  intro as ha
  cases a with
  | addColumn p c =>
    have := ColumnDef.quotes_text hf c as ha
    qsimp2 [AlterTableAction.wt, this]
  | alterColumn n p c =>
    rw [List.mem_singleton.1 ha]
    qsimp2 [AlterTableAction.wt, AlterColumnAction.quotes_text hf]
  | removeColumn n c p q =>
    rw [List.mem_singleton.1 ha]
    qsimp2 [AlterTableAction.wt]
  | addConstraint p c =>
    rw [List.mem_singleton.1 ha]
    qsimp2 [AlterTableAction.wt, TableConstraint.quotes_text hf]
  | dropConstraint n p c q =>
    rw [List.mem_singleton.1 ha]
    qsimp2 [AlterTableAction.wt]

theorem copyValues_quotes : ∀ (b : Bool) (vs : List (Option Str)),
    quotes (Step.texts (copyValues b vs)) = printed (vs.filterMap (·.map Atom.raw))
  | _, [] => rfl
  | b, none :: vs => by cases b <;> qsimp2 [copyValues, copyValues_quotes false vs, Step.if_]
  | b, some v :: vs => by cases b <;> qsimp2 [copyValues, copyValues_quotes false vs, Step.if_]

theorem Stmt.quotes_text : ∀ (s : Stmt), ∀ as ∈ s.arrangements, quotes (s.wt fns).text = printed as
  | .query s, as, ha => by
    rw [Stmt.arrangements, List.mem_singleton] at ha
    rw [ha]
    exact QueryStmt.quotes_text hf s
  | .insert _ name is source assigns, as, ha => by
    rw [Stmt.arrangements, List.mem_singleton] at ha
    subst ha
    have h2 := InsertSource.quotes_text hf source
    have h3 := quotes_idents (sep := str% ", ") (by decide) is
    cases assigns <;> cases is <;> qsimp2 [Stmt.wt, map_quotes hf _ _ (Assignment.quotes_text hf), Assignment.quotes_text hf, h2, h3]
  | .update _ name assigns cond, as, ha => by
    rw [Stmt.arrangements, List.mem_singleton] at ha
    subst ha
    have h1 := map_quotes hf _ _ (Assignment.quotes_text hf) assigns
    cases cond <;> qsimp2 [Stmt.wt, h1, Expr.atomsO, Expr.quotes_text hf]
  | .delete _ name cond, as, ha => by
    rw [Stmt.arrangements, List.mem_singleton] at ha
    subst ha
    cases cond <;> qsimp2 [Stmt.wt, Expr.atomsO, Expr.quotes_text hf]
  | .createView _ name s _, as, ha => by
    rw [Stmt.arrangements, List.mem_singleton] at ha
    subst ha
    qsimp2 [Stmt.wt, QueryStmt.quotes_text hf]
  | .createTable _ name elements _ options, as, ha => by
    rw [Stmt.arrangements, List.mem_map] at ha
    obtain ⟨bs, hb, rfl⟩ := ha
    have h1 := arrange_quotes hf _ _ (TableElement.quotes_text hf) elements bs hb
    have h2 := map_quotes hf _ _ (TableOption.quotes_text hf) options
    qsimp2 [Stmt.wt, h1, h2]
  | .alterTable _ name action, as, ha => by
    rw [Stmt.arrangements, List.mem_map] at ha
    obtain ⟨bs, hb, rfl⟩ := ha
    qsimp2 [Stmt.wt, AlterTableAction.quotes_text hf action bs hb]
  | .dropTable ns _ _ _ _, as, ha => by
    rw [Stmt.arrangements, List.mem_singleton] at ha
    subst ha
    have h1 := map_quotes hf ObjectName.wt (fun n => names n.idents) ObjectName.quotes_text ns
    qsimp2 [Stmt.wt, h1]
  | .createIndex _ name _ i m is _ cond, as, ha => by
    rw [Stmt.arrangements, List.mem_singleton] at ha
    subst ha
    cases cond <;> cases i <;> cases m <;> qsimp2 [Stmt.wt, Expr.atomsO, nameO, Expr.quotes_text hf]
  | .dropIndex _ is, as, ha => by
    rw [Stmt.arrangements, List.mem_singleton] at ha
    subst ha
    qsimp2 [Stmt.wt]
  | .explain s _, as, ha => by
    rw [Stmt.arrangements] at ha
    qsimp2 [Stmt.wt, Stmt.quotes_text s as ha]
  | .copy _ name is values, as, ha => by
    rw [Stmt.arrangements, List.mem_singleton] at ha
    subst ha
    have h3 := quotes_idents (sep := str% ", ") (by decide) is
    have h4 := copyValues_quotes hf true values
    cases is <;> cases values <;> qsimp2 [Stmt.wt, h3, h4]

end

/-! ### Atoms do not depend on positions -/

def Spec.Atom.erase : Atom → Atom
  | .name i => .name i.erase
  | .single _ _ s => .single Pos.zero Pos.zero s
  | .national _ _ s => .national Pos.zero Pos.zero s
  | .integer _ _ v => .integer Pos.zero Pos.zero v
  | .float _ _ v => .float Pos.zero Pos.zero v
  | .limit _ _ v => .limit Pos.zero Pos.zero v
  | .count v => .count v
  | .raw s => .raw s

@[simp] theorem names_erase (is : List Ident) : names (is.map Ident.erase) = (names is).map Atom.erase := by
  simp [names, Atom.erase, Function.comp_def]

@[simp] theorem nameO_erase (i : Option Ident) : nameO (i.map Ident.erase) = (nameO i).map Atom.erase := by
  cases i <;> rfl

@[simp] theorem ObjectName.names_erase (o : ObjectName) : names o.erase.idents = (names o.idents).map Atom.erase := by
  rw [ObjectName.erase, Verif.names_erase]

@[simp] theorem sizeO_erase (n : Option Nat) : (sizeO n).map Atom.erase = sizeO n := by cases n <;> rfl

@[simp] theorem DataType.atoms_erase : (t : DataType) → t.erase.atoms = t.atoms.map Atom.erase
  | .array ty _ => by simp only [DataType.erase, DataType.atoms, DataType.atoms_erase ty]
  | .custom ty => by simp only [DataType.erase, DataType.atoms, ObjectName.names_erase]
  | .char .. | .varchar .. | .uuid .. | .clob .. | .binary .. | .varbinary .. | .blob .. | .decimal .. | .float ..
  | .smallInt .. | .int .. | .bigInt .. | .real .. | .double .. | .boolean .. | .date .. | .time ..
  | .timestamp .. | .regclass .. | .text .. | .bytea .. => by
    simp [DataType.erase, DataType.atoms, Atom.erase]

@[simp] theorem FrameBound.atoms_erase (b : FrameBound) : b.erase.atoms = b.atoms.map Atom.erase := by cases b <;> rfl

@[simp] theorem frameAtoms_erase (f : Option WindowFrame) :
    frameAtoms (f.map WindowFrame.erase) = (frameAtoms f).map Atom.erase := by
  rcases f with _ | ⟨u, s, _ | e⟩ <;> simp [frameAtoms, WindowFrame.erase]

@[simp] theorem limitAtoms_erase (l : Option LimitExpr) :
    limitAtoms (l.map LimitExpr.erase) = (limitAtoms l).map Atom.erase := by
  rcases l with _ | ⟨c, a, b, o⟩
  · rfl
  · cases c <;> cases o <;> rfl

theorem flatten_erase (ls : List (List Atom)) : (ls.map (·.map Atom.erase)).flatten = ls.flatten.map Atom.erase := by
  exact List.map_flatten.symm

@[simp] theorem byTurns_erase : ∀ as bs : List (List Atom),
    byTurns (as.map (·.map Atom.erase)) (bs.map (·.map Atom.erase)) = (byTurns as bs).map Atom.erase
  | [], _ => by simp [byTurns]
  | _ :: _, [] => by simp [byTurns]
  | a :: as, b :: bs => by
    rw [List.map_cons, List.map_cons, byTurns, byTurns, byTurns_erase as bs]
    simp

mutual

theorem Expr.atoms_erase : (x : Expr) → x.erase.atoms = x.atoms.map Atom.erase
  | .ident _ => by
    simp [Expr.erase, Expr.atoms, Atom.erase, flatten_erase, -List.map_flatten]
  | .wildcard _ => by
    simp [Expr.erase, Expr.atoms, Atom.erase, flatten_erase, -List.map_flatten]
  | .qualifiedWildcard _ => by
    simp [Expr.erase, Expr.atoms, Atom.erase, flatten_erase, -List.map_flatten]
  | .compoundIdent _ => by
    simp [Expr.erase, Expr.atoms, Atom.erase, flatten_erase, -List.map_flatten]
  | .isNull a0 => by
    simp [Expr.erase, Expr.atoms, Atom.erase, Expr.atoms_erase a0, flatten_erase, -List.map_flatten]
  | .isNotNull a0 => by
    simp [Expr.erase, Expr.atoms, Atom.erase, Expr.atoms_erase a0, flatten_erase, -List.map_flatten]
  | .inList a0 a1 _ _ => by
    simp [Expr.erase, Expr.atoms, Atom.erase, Expr.atoms_erase a0, Expr.atomsL_erase a1, flatten_erase, -List.map_flatten]
  | .inSubQuery a0 a1 _ _ => by
    simp [Expr.erase, Expr.atoms, Atom.erase, Expr.atoms_erase a0, QueryStmt.atoms_erase a1, flatten_erase, -List.map_flatten]
  | .between a0 _ a2 a3 => by
    simp [Expr.erase, Expr.atoms, Atom.erase, Expr.atoms_erase a0, Expr.atoms_erase a2, Expr.atoms_erase a3, flatten_erase, -List.map_flatten]
  | .binary a0 _ a2 => by
    simp [Expr.erase, Expr.atoms, Atom.erase, Expr.atoms_erase a0, Expr.atoms_erase a2, flatten_erase, -List.map_flatten]
  | .cast a0 _ _ _ => by
    simp [Expr.erase, Expr.atoms, Atom.erase, Expr.atoms_erase a0, flatten_erase, -List.map_flatten]
  | .nested a0 _ _ => by
    simp [Expr.erase, Expr.atoms, Atom.erase, Expr.atoms_erase a0, flatten_erase, -List.map_flatten]
  | .unary _ _ a2 => by
    simp [Expr.erase, Expr.atoms, Atom.erase, Expr.atoms_erase a2, flatten_erase, -List.map_flatten]
  | .function _ a1 _ none _ => by simp [Expr.erase, Expr.atoms, WindowSpec.eraseOpt, Expr.atomsL_erase a1, flatten_erase, -List.map_flatten]
  | .function _ a1 _ (some a3) _ => by
    simp [Expr.erase, Expr.atoms, WindowSpec.eraseOpt, Expr.atomsL_erase a1, WindowSpec.atoms_erase a3, flatten_erase, -List.map_flatten]
  | .caseExpr _ _ a2 a3 a4 a5 => by
    simp [Expr.erase, Expr.atoms, Atom.erase, Expr.atomsO_erase a2, Expr.atomsL_erase a3, Expr.atomsL_erase a4, Expr.atomsO_erase a5, flatten_erase, -List.map_flatten]
  | .exists_ _ a1 _ _ _ => by
    simp [Expr.erase, Expr.atoms, Atom.erase, QueryStmt.atoms_erase a1, flatten_erase, -List.map_flatten]
  | .subQuery _ _ a2 => by
    simp [Expr.erase, Expr.atoms, Atom.erase, QueryStmt.atoms_erase a2, flatten_erase, -List.map_flatten]
  | .long _ => rfl
  | .double _ _ _ => by
    simp [Expr.erase, Expr.atoms, Atom.erase, flatten_erase, -List.map_flatten]
  | .singleQuoted _ _ _ => by
    simp [Expr.erase, Expr.atoms, Atom.erase, flatten_erase, -List.map_flatten]
  | .national _ _ _ => by
    simp [Expr.erase, Expr.atoms, Atom.erase, flatten_erase, -List.map_flatten]
  | .boolean _ _ _ => by
    simp [Expr.erase, Expr.atoms, Atom.erase, flatten_erase, -List.map_flatten]
  | .null _ _ => by
    simp [Expr.erase, Expr.atoms, Atom.erase, flatten_erase, -List.map_flatten]
  | .timeValue _ _ _ _ => by
    simp [Expr.erase, Expr.atoms, Atom.erase, flatten_erase, -List.map_flatten]

theorem Expr.atomsO_erase : (x : Option Expr) → Expr.atomsO (Expr.eraseOpt x) = (Expr.atomsO x).map Atom.erase
  | none => rfl
  | some e => by simp only [Expr.eraseOpt, Expr.atomsO, Expr.atoms_erase e]

theorem Expr.atomsL_erase : (x : List Expr) → Expr.atomsL (Expr.erases x) = (Expr.atomsL x).map (·.map Atom.erase)
  | [] => rfl
  | e :: es => by simp only [Expr.erases, Expr.atomsL, Expr.atoms_erase e, Expr.atomsL_erase es, List.map_cons]

theorem WindowSpec.atoms_erase : (x : WindowSpec) → x.erase.atoms = x.atoms.map Atom.erase
  | .mk a0 a1 f _ _ => by
    simp [WindowSpec.erase, WindowSpec.atoms, Atom.erase, Expr.atomsL_erase a0, OrderByExpr.atomsL_erase a1, flatten_erase, -List.map_flatten]

theorem OrderByExpr.atoms_erase : (x : OrderByExpr) → x.erase.atoms = x.atoms.map Atom.erase
  | .mk a0 _ _ => by
    simp [OrderByExpr.erase, OrderByExpr.atoms, Atom.erase, Expr.atoms_erase a0, flatten_erase, -List.map_flatten]

theorem OrderByExpr.atomsL_erase : (x : List OrderByExpr) → OrderByExpr.atomsL (OrderByExpr.erases x) = (OrderByExpr.atomsL x).map (·.map Atom.erase)
  | [] => rfl
  | e :: es => by simp only [OrderByExpr.erases, OrderByExpr.atomsL, OrderByExpr.atoms_erase e, OrderByExpr.atomsL_erase es, List.map_cons]

theorem QueryStmt.atoms_erase : (x : QueryStmt) → x.erase.atoms = x.atoms.map Atom.erase
  | .mk _ a1 a2 a3 l => by
    simp [QueryStmt.erase, QueryStmt.atoms, Atom.erase, CTE.atomsL_erase a1, SetExpr.atoms_erase a2, OrderByExpr.atomsL_erase a3, flatten_erase, -List.map_flatten]

theorem CTE.atoms_erase : (x : CTE) → x.erase.atoms = x.atoms.map Atom.erase
  | .mk _ a1 _ => by
    simp [CTE.erase, CTE.atoms, Atom.erase, QueryStmt.atoms_erase a1, flatten_erase, -List.map_flatten]

theorem CTE.atomsL_erase : (x : List CTE) → CTE.atomsL (CTE.erases x) = (CTE.atomsL x).map (·.map Atom.erase)
  | [] => rfl
  | e :: es => by simp only [CTE.erases, CTE.atomsL, CTE.atoms_erase e, CTE.atomsL_erase es, List.map_cons]

theorem SetExpr.atoms_erase : (x : SetExpr) → x.erase.atoms = x.atoms.map Atom.erase
  | .selectExpr a0 => by
    simp [SetExpr.erase, SetExpr.atoms, Atom.erase, SQLSelect.atoms_erase a0, flatten_erase, -List.map_flatten]
  | .select a0 => by
    simp [SetExpr.erase, SetExpr.atoms, Atom.erase, SQLSelect.atoms_erase a0, flatten_erase, -List.map_flatten]
  | .query _ _ a2 => by
    simp [SetExpr.erase, SetExpr.atoms, Atom.erase, QueryStmt.atoms_erase a2, flatten_erase, -List.map_flatten]
  | .setOp _ _ a2 a3 => by
    simp [SetExpr.erase, SetExpr.atoms, Atom.erase, SetExpr.atoms_erase a2, SetExpr.atoms_erase a3, flatten_erase, -List.map_flatten]

theorem SQLSelect.atoms_erase : (x : SQLSelect) → x.erase.atoms = x.atoms.map Atom.erase
  | .mk _ a1 a2 a3 a4 a5 _ => by
    simp [SQLSelect.erase, SQLSelect.atoms, Atom.erase, SelectItem.atomsL_erase a1, TableRef.atomsL_erase a2, Expr.atomsO_erase a3, Expr.atomsL_erase a4, Expr.atomsO_erase a5, flatten_erase, -List.map_flatten]

theorem SelectItem.atoms_erase : (x : SelectItem) → x.erase.atoms = x.atoms.map Atom.erase
  | .unnamed a0 => by
    simp [SelectItem.erase, SelectItem.atoms, Atom.erase, Expr.atoms_erase a0, flatten_erase, -List.map_flatten]
  | .alias a0 _ => by
    simp [SelectItem.erase, SelectItem.atoms, Atom.erase, Expr.atoms_erase a0, flatten_erase, -List.map_flatten]
  | .qualifiedWildcard _ => by
    simp [SelectItem.erase, SelectItem.atoms, Atom.erase, flatten_erase, -List.map_flatten]
  | .wildcard _ _ => by
    simp [SelectItem.erase, SelectItem.atoms, Atom.erase, flatten_erase, -List.map_flatten]

theorem SelectItem.atomsL_erase : (x : List SelectItem) → SelectItem.atomsL (SelectItem.erases x) = (SelectItem.atomsL x).map (·.map Atom.erase)
  | [] => rfl
  | e :: es => by simp only [SelectItem.erases, SelectItem.atomsL, SelectItem.atoms_erase e, SelectItem.atomsL_erase es, List.map_cons]

theorem TableFactor.atoms_erase : (x : TableFactor) → x.erase.atoms = x.atoms.map Atom.erase
  | .table _ _ a2 _ a4 _ => by
    simp [TableFactor.erase, TableFactor.atoms, Atom.erase, Expr.atomsL_erase a2, Expr.atomsL_erase a4, flatten_erase, -List.map_flatten]
  | .derived _ _ _ _ a4 _ => by
    simp [TableFactor.erase, TableFactor.atoms, Atom.erase, QueryStmt.atoms_erase a4, flatten_erase, -List.map_flatten]

theorem TableRef.atoms_erase : (x : TableRef) → x.erase.atoms = x.atoms.map Atom.erase
  | .factor a0 => by
    simp [TableRef.erase, TableRef.atoms, Atom.erase, TableFactor.atoms_erase a0, flatten_erase, -List.map_flatten]
  | .cross a0 a1 => by
    simp [TableRef.erase, TableRef.atoms, Atom.erase, TableRef.atoms_erase a0, TableFactor.atoms_erase a1, flatten_erase, -List.map_flatten]
  | .partitioned a0 _ _ => by
    simp [TableRef.erase, TableRef.atoms, Atom.erase, TableFactor.atoms_erase a0, flatten_erase, -List.map_flatten]
  | .qualified a0 _ a2 a3 => by
    simp [TableRef.erase, TableRef.atoms, Atom.erase, TableRef.atoms_erase a0, TableRef.atoms_erase a2, JoinSpec.atoms_erase a3, flatten_erase, -List.map_flatten]
  | .natural a0 _ a2 => by
    simp [TableRef.erase, TableRef.atoms, Atom.erase, TableRef.atoms_erase a0, TableRef.atoms_erase a2, flatten_erase, -List.map_flatten]

theorem TableRef.atomsL_erase : (x : List TableRef) → TableRef.atomsL (TableRef.erases x) = (TableRef.atomsL x).map (·.map Atom.erase)
  | [] => rfl
  | e :: es => by simp only [TableRef.erases, TableRef.atomsL, TableRef.atoms_erase e, TableRef.atomsL_erase es, List.map_cons]

theorem JoinSpec.atoms_erase : (x : JoinSpec) → x.erase.atoms = x.atoms.map Atom.erase
  | .namedColumns _ _ _ => by
    simp [JoinSpec.erase, JoinSpec.atoms, Atom.erase, flatten_erase, -List.map_flatten]
  | .condition a0 _ => by
    simp [JoinSpec.erase, JoinSpec.atoms, Atom.erase, Expr.atoms_erase a0, flatten_erase, -List.map_flatten]

end

theorem exprO_erase (o : Option Expr) : Expr.atomsO (o.map Expr.erase) = (Expr.atomsO o).map Atom.erase := by
  cases o with
  | none => rfl
  | some e => exact Expr.atoms_erase e

theorem map_atoms_erase {β : Type} {f : β → β} {g : β → List Atom} (h : ∀ x, g (f x) = (g x).map Atom.erase) (xs : List β) :
    (xs.map f).flatMap g = (xs.flatMap g).map Atom.erase := by
  induction xs with
  | nil => rfl
  | cons x xs ih => rw [List.map_cons, List.flatMap_cons, ih, h, List.flatMap_cons, List.map_append]

theorem InsertSource.atoms_erase (s : InsertSource) : s.erase.atoms = s.atoms.map Atom.erase := by
  cases s with
  | subQuery s => exact QueryStmt.atoms_erase s
  | constructor p rows =>
    exact map_atoms_erase (fun r => by simp [RowValueExpr.erase, Expr.atomsL_erase, flatten_erase, -List.map_flatten]) rows

theorem Assignment.atoms_erase (a : Assignment) : a.erase.atoms = a.atoms.map Atom.erase := by
  simp [Assignment.erase, Assignment.atoms, Expr.atoms_erase, Atom.erase]

theorem TableConstraintSpec.atoms_erase (s : TableConstraintSpec) : s.erase.atoms = s.atoms.map Atom.erase := by
  cases s <;> simp [TableConstraintSpec.erase, TableConstraintSpec.atoms, Expr.atoms_erase, ReferenceKeyExpr.erase, Atom.erase]

theorem TableConstraint.atoms_erase (s : TableConstraint) : s.erase.atoms = s.atoms.map Atom.erase := by
  simp [TableConstraint.erase, TableConstraint.atoms, TableConstraintSpec.atoms_erase]

theorem ColumnSpec.atoms_erase (s : ColumnSpec) : s.erase.atoms = s.atoms.map Atom.erase := by
  cases s <;> simp [ColumnSpec.erase, ColumnSpec.atoms, Expr.atoms_erase]

theorem ColumnConstraint.atoms_erase (s : ColumnConstraint) : s.erase.atoms = s.atoms.map Atom.erase := by
  simp [ColumnConstraint.erase, ColumnConstraint.atoms, ColumnSpec.atoms_erase]

theorem ColumnDef.arrangements_erase (c : ColumnDef) :
    c.erase.arrangements = c.arrangements.map (·.map Atom.erase) := by
  simp [ColumnDef.erase, ColumnDef.arrangements, map_atoms_erase ColumnConstraint.atoms_erase, exprO_erase, Atom.erase]

theorem TableElement.arrangements_erase (c : TableElement) :
    c.erase.arrangements = c.arrangements.map (·.map Atom.erase) := by
  cases c with
  | constraint c => simp [TableElement.erase, TableElement.arrangements, TableConstraint.atoms_erase]
  | column c => exact ColumnDef.arrangements_erase c

theorem arrange_erase : ∀ xs : List (List (List Atom)),
    arrange (xs.map (·.map (·.map Atom.erase))) = (arrange xs).map (·.map Atom.erase)
  | [] => rfl
  | x :: xs => by
    rw [List.map_cons, arrange, arrange, arrange_erase xs]
    simp [List.flatMap_map, List.map_flatMap, Function.comp_def]

theorem TableOption.atoms_erase (o : TableOption) : o.erase.atoms = o.atoms.map Atom.erase := by cases o <;> rfl

theorem AlterColumnAction.atoms_erase (a : AlterColumnAction) : a.erase.atoms = a.atoms.map Atom.erase := by
  cases a <;> simp [AlterColumnAction.erase, AlterColumnAction.atoms, Expr.atoms_erase]

theorem AlterTableAction.arrangements_erase (a : AlterTableAction) :
    a.erase.arrangements = a.arrangements.map (·.map Atom.erase) := by
  cases a <;> simp [AlterTableAction.erase, AlterTableAction.arrangements, AlterColumnAction.atoms_erase,
    ColumnDef.arrangements_erase, TableConstraint.atoms_erase, Atom.erase]

theorem Stmt.arrangements_erase : ∀ s : Stmt, s.erase.arrangements = s.arrangements.map (·.map Atom.erase)
  | .explain s _ => by simp only [Stmt.erase, Stmt.arrangements, Stmt.arrangements_erase s]
  | .createTable _ _ es _ os => by
    have : (es.map TableElement.erase).map TableElement.arrangements =
        (es.map TableElement.arrangements).map (·.map (·.map Atom.erase)) := by
      simp [Function.comp_def, TableElement.arrangements_erase]
    simp only [Stmt.erase, Stmt.arrangements, this, arrange_erase, map_atoms_erase TableOption.atoms_erase,
      ObjectName.names_erase]
    simp [Function.comp_def]
  | .copy _ _ _ vs => by
    have : (vs.filterMap (·.map Atom.raw)).map Atom.erase = vs.filterMap (·.map Atom.raw) := by
      induction vs with
      | nil => rfl
      | cons v vs ih => cases v <;> simp [ih, Atom.erase]
    simp [Stmt.erase, Stmt.arrangements, this]
  | .dropTable ns _ _ _ _ => by
    simp [Stmt.erase, Stmt.arrangements, map_atoms_erase (g := fun n : ObjectName => names n.idents) ObjectName.names_erase]
  | .query .. | .insert .. | .update .. | .delete .. | .createView .. | .alterTable ..
  | .createIndex .. | .dropIndex .. => by
    simp [Stmt.erase, Stmt.arrangements, QueryStmt.atoms_erase, InsertSource.atoms_erase,
      map_atoms_erase Assignment.atoms_erase, exprO_erase, AlterTableAction.arrangements_erase, Function.comp_def]

/-! ### Quotes that must be in the text -/

/-- The quotes in a text from which the atom is read. -/
def Spec.Atom.needed : Atom → Nat
  | .name i => quotes i.value
  | .single _ _ s => 2 * quotes s + 2
  | .national _ _ s => 2 * quotes s + 2
  | .raw s => quotes s
  | _ => 0

def needed (as : List Atom) : Nat := (as.map Atom.needed).sum

/-- The quotes in the spelling of a token, or less. -/
def tokenQuotes (t : Token) : Nat :=
  match t.tok with
  | .single s => 2 * quotes s + 2
  | .national s => 2 * quotes s + 2
  | .word w => quotes w.string
  | _ => 0

theorem quotes_escape (s : Str) : quotes (escape s) = 2 * quotes s := by
  induction s with
  | nil => rfl
  | cons c s ih =>
    rw [escape]
    split <;> simp_all [quotes_cons] <;> omega

theorem tokenQuotes_le {d : Dialect} {t : Token} {p : Str} (h : Spells d t.tok p) : tokenQuotes t ≤ quotes p := by
  rcases t with ⟨tok, f, e⟩
  simp only at h
  cases h
  case delim =>
    simp only [tokenQuotes, SQLWord.string]
    split <;> simp [quotes_cons]
  all_goals simp [tokenQuotes, quotes_cons, quotes_escape, SQLWord.string] <;> omega

theorem needed_of {fns : FloatFns} {a : Atom} {t : Token} (h : a.of fns t) : a.needed ≤ tokenQuotes t := by
  cases a <;> simp only [Atom.of] at h
  · obtain ⟨w, rfl, hw⟩ := h; simp [Atom.needed, tokenQuotes, hw]
  · subst h; simp [Atom.needed, tokenQuotes]
  · subst h; simp [Atom.needed, tokenQuotes]
  · simp [Atom.needed]
  · simp [Atom.needed]
  · simp [Atom.needed]
  · simp [Atom.needed]

theorem Spec.Covers.needed {fns : FloatFns} {b : Bool} {as : List Atom} {ts : List Token} (h : Covers fns b as ts) :
    Verif.needed as ≤ (ts.map tokenQuotes).sum := by
  induction h with
  | nil => exact Nat.le_refl _
  | skip t _ _ ih => simp; omega
  | take a t ha _ ih =>
    have := needed_of ha
    simp only [Verif.needed, List.map_cons, List.sum_cons] at ih ⊢
    omega

theorem sum_sublist {xs ys : List Token} (h : xs.Sublist ys) : (xs.map tokenQuotes).sum ≤ (ys.map tokenQuotes).sum := by
  induction h with
  | slnil => exact Nat.le_refl _
  | cons a _ ih => simp; omega
  | cons_cons a _ ih => simp; omega

theorem tokens_quotes {d : Dialect} : ∀ tps : List (Token × Str), (∀ x ∈ tps, Spells d x.1.tok x.2) →
    ((tps.map (·.1)).map tokenQuotes).sum ≤ quotes (tps.flatMap (·.2))
  | [], _ => Nat.le_refl _
  | x :: tps, h => by
    have h1 := tokenQuotes_le (h x List.mem_cons_self)
    have h2 := tokens_quotes tps fun y hy => h y (List.mem_cons_of_mem _ hy)
    simp only [List.map_cons, List.sum_cons, List.flatMap_cons, quotes_append]
    omega

/-- The text of a literal has no quote. -/
def Spec.Atom.quoteFree (a : Atom) : Prop := ∀ s, a.text = some s → '\'' ∉ s

theorem needed_le {as : List Atom} (h : needed as ≤ printed as) : ∀ a ∈ as, a.quoteFree := by
  have hp : ∀ a : Atom, a.printed ≤ a.needed := by
    intro a; cases a <;> simp [Atom.printed, Atom.needed] <;> omega
  have hs : ∀ as : List Atom, printed as ≤ needed as := by
    intro as
    induction as with
    | nil => exact Nat.le_refl _
    | cons a as ih =>
      have := hp a
      simp only [needed, printed, List.map_cons, List.sum_cons] at ih ⊢
      omega
  induction as with
  | nil => simp
  | cons a as ih =>
    have h1 := hp a
    have h2 := hs as
    simp only [needed, printed, List.map_cons, List.sum_cons] at h h2 ih
    intro x hx
    rcases List.mem_cons.1 hx with rfl | hx
    · have hx' : x.needed ≤ x.printed := by omega
      intro s hs
      cases x <;> simp only [Atom.text, Option.some.injEq, reduceCtorEq] at hs
      all_goals
        subst hs
        simp only [Atom.needed, Atom.printed] at hx'
        exact List.count_eq_zero.1 (by unfold quotes at hx'; omega)
    · exact ih (by omega) x hx

theorem quoteFree_erase {as : List Atom} (h : ∀ a ∈ as.map Atom.erase, a.quoteFree) : ∀ a ∈ as, a.quoteFree := by
  intro a ha s hs
  refine h _ (List.mem_map_of_mem ha) s ?_
  cases a <;> simp_all [Atom.text, Atom.erase]

/-! ### The arrangements of a statement have the same atoms -/

/-- All the lists are permutations of each other. -/
def Alike (ls : List (List Atom)) : Prop := ∀ as ∈ ls, ∀ bs ∈ ls, as.Perm bs

theorem Alike.one (as : List Atom) : Alike [as] := by
  intro as ha bs hb
  rw [List.mem_singleton.1 ha, List.mem_singleton.1 hb]

theorem Alike.map {ls : List (List Atom)} (h : Alike ls) {f : List Atom → List Atom}
    (hf : ∀ as bs, as.Perm bs → (f as).Perm (f bs)) : Alike (ls.map f) := by
  intro as ha bs hb
  obtain ⟨as, ha', rfl⟩ := List.mem_map.1 ha
  obtain ⟨bs, hb', rfl⟩ := List.mem_map.1 hb
  exact hf _ _ (h _ ha' _ hb')

theorem alike_arrange : ∀ ps : List (List (List Atom)), (∀ p ∈ ps, Alike p) → Alike (arrange ps)
  | [], _ => .one []
  | p :: ps, h => by
    have ih := alike_arrange ps fun q hq => h q (List.mem_cons_of_mem _ hq)
    intro as ha bs hb
    simp only [arrange, List.mem_flatMap, List.mem_map] at ha hb
    obtain ⟨a, ha, as, ha', rfl⟩ := ha
    obtain ⟨b, hb, bs, hb', rfl⟩ := hb
    exact (h p List.mem_cons_self _ ha _ hb).append (ih _ ha' _ hb')

theorem ColumnDef.alike (c : ColumnDef) : Alike c.arrangements := by
  intro as ha bs hb
  simp only [ColumnDef.arrangements, List.mem_cons, List.not_mem_nil, or_false] at ha hb
  rcases ha with rfl | rfl <;> rcases hb with rfl | rfl
  · exact .refl _
  · exact List.perm_append_comm.append_left _
  · exact List.perm_append_comm.append_left _
  · exact .refl _

theorem TableElement.alike (c : TableElement) : Alike c.arrangements := by
  cases c with
  | constraint c => exact .one _
  | column c => exact c.alike

theorem Stmt.alike : ∀ s : Stmt, Alike s.arrangements
  | .explain s _ => Stmt.alike s
  | .createTable _ _ es _ _ => by
    refine Alike.map (alike_arrange _ fun p hp => ?_) fun _ _ h => (h.append_left _).append_right _
    obtain ⟨e, -, rfl⟩ := List.mem_map.1 hp
    exact e.alike
  | .alterTable _ _ a => by
    refine Alike.map ?_ fun _ _ h => h.append_left _
    cases a with
    | addColumn _ c => exact c.alike
    | _ => exact .one _
  | .query .. | .insert .. | .update .. | .delete .. | .createView .. | .dropTable ..
  | .createIndex .. | .dropIndex .. | .copy .. => .one _

end Verif
