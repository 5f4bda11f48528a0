import Verif.Proofs.Kept
import Verif.Spec.Atoms
/-
The text of a tree, as far as one character is counted, is what it would be without its floating point numbers and what
is printed for these.
-/
set_option linter.unusedSimpArgs false
set_option maxRecDepth 100000
namespace Verif
open Spec

/-- Nothing is printed for a number. -/
def noFloats : FloatFns := ⟨fun _ => none, fun _ => []⟩

@[simp] theorem noFloats_format (v : F64) : noFloats.format v = [] := rfl

def Spec.Atom.floatCnt (κ : Kept) (fns : FloatFns) : Atom → Nat
  | .float _ _ v => κ.cnt (fns.format v)
  | _ => 0

def floats (κ : Kept) (fns : FloatFns) (as : List Atom) : Nat := (as.map (Atom.floatCnt κ fns)).sum

section
variable {κ : Kept} {fns : FloatFns}

@[simp] theorem floats_nil : floats κ fns [] = 0 := rfl
@[simp] theorem floats_cons (a : Atom) (as : List Atom) : floats κ fns (a :: as) = a.floatCnt κ fns + floats κ fns as := rfl
@[simp] theorem floats_append (as bs : List Atom) : floats κ fns (as ++ bs) = floats κ fns as + floats κ fns bs := by
  simp [floats]
@[simp] theorem floats_names (is : List Ident) : floats κ fns (names is) = 0 := by
  induction is with
  | nil => rfl
  | cons i is ih =>
    simp only [names, List.map_cons, floats_cons] at ih ⊢
    rw [ih]; rfl
@[simp] theorem floats_nameO (i : Option Ident) : floats κ fns (nameO i) = 0 := by cases i <;> rfl
@[simp] theorem floats_sizeO (n : Option Nat) : floats κ fns (sizeO n) = 0 := by cases n <;> rfl
@[simp] theorem floatCnt_name (i : Ident) : (Atom.name i).floatCnt κ fns = 0 := rfl
@[simp] theorem floatCnt_raw (s : Str) : (Atom.raw s).floatCnt κ fns = 0 := rfl
@[simp] theorem floatCnt_float (f t : Pos) (v : F64) : (Atom.float f t v).floatCnt κ fns = κ.cnt (fns.format v) := rfl

@[simp] theorem floats_dataType : (t : DataType) → floats κ fns t.atoms = 0
  | .array ty _ => by rw [DataType.atoms, floats_dataType ty]
  | .custom ty => by rw [DataType.atoms, floats_names]
  | .decimal p s _ _ u _ => by cases p <;> cases s <;> rfl
  | .char n _ _ _ | .varchar n _ _ _ => by cases n <;> rfl
  | .float n _ _ _ _ _ => by cases n <;> rfl
  | .uuid .. | .clob .. | .binary .. | .varbinary .. | .blob .. | .smallInt .. | .int .. | .bigInt .. | .real .. | .double .. | .boolean .. | .date .. |
    .time .. | .timestamp .. | .regclass .. | .text .. | .bytea .. => rfl

@[simp] theorem floats_frame (f : Option WindowFrame) : floats κ fns (frameAtoms f) = 0 := by
  rcases f with _ | ⟨u, s, e⟩
  · rfl
  · have hb : ∀ b : FrameBound, floats κ fns b.atoms = 0 := by
      intro b
      cases b <;> simp [FrameBound.atoms] <;> rfl
    cases e <;> simp [frameAtoms, hb]

@[simp] theorem floats_limit (l : Option LimitExpr) : floats κ fns (limitAtoms l) = 0 := by
  rcases l with _ | ⟨c, a, b, o⟩
  · rfl
  · cases c <;> cases o <;> rfl

theorem cnt_texts_nil : κ.cnt (Step.texts []) = 0 := rfl
theorem cnt_texts_cons (s : Step) (ss : List Step) : κ.cnt (Step.texts (s :: ss)) = κ.cnt s.text + κ.cnt (Step.texts ss) := by
  simp [Step.texts]
theorem cnt_texts_append (ss ss' : List Step) :
    κ.cnt (Step.texts (ss ++ ss')) = κ.cnt (Step.texts ss) + κ.cnt (Step.texts ss') := by simp [texts_append]

theorem cnt_join {sep : Str} (hs : κ.cnt sep = 0) (ws : List Wt) :
    κ.cnt (Step.texts (Step.join sep ws)) = (ws.map fun w => κ.cnt w.text).sum := by
  cases ws with
  | nil => rfl
  | cons w ws =>
    induction ws generalizing w with
    | nil => simp [Step.join, Step.texts, Step.text]
    | cons v ws ih =>
      rw [cnt_join_cons, hs, ih]
      simp

end

/-- The simplification set for trees. -/
macro "fsimp" "[" ls:Lean.Parser.Tactic.simpLemma,* "]" : tactic =>
  `(tactic| (simp [-List.map_map, -cnt_cons, Wt.text, cnt_texts_nil, cnt_texts_cons, cnt_texts_append, Step.text, cnt_join cnt_comma, Spec.Atom.floatCnt,
      LongValue.wt, timeWt, Expr.atomsL, OrderByExpr.atomsL, CTE.atomsL, SelectItem.atomsL, TableRef.atomsL,
      $ls,*]
      <;> try omega))


section
variable {κ : Kept} {fns : FloatFns}

mutual

theorem Expr.floats_text : (x : Expr) → κ.cnt (x.wt fns).text = κ.cnt (x.wt noFloats).text + floats κ fns x.atoms
  | .ident _ => by
    fsimp [Expr.wt, Expr.atoms]
  | .wildcard _ => by
    fsimp [Expr.wt, Expr.atoms]
  | .qualifiedWildcard _ => by
    fsimp [Expr.wt, Expr.atoms]
  | .compoundIdent _ => by
    fsimp [Expr.wt, Expr.atoms]
  | .isNull a0 => by
    fsimp [Expr.wt, Expr.atoms, Expr.floats_text a0]
  | .isNotNull a0 => by
    fsimp [Expr.wt, Expr.atoms, Expr.floats_text a0]
  | .inList a0 a1 _ _ => by
    fsimp [Expr.wt, Expr.atoms, Expr.floats_text a0, Expr.floats_texts a1]
  | .inSubQuery a0 a1 _ _ => by
    fsimp [Expr.wt, Expr.atoms, Expr.floats_text a0, QueryStmt.floats_text a1]
  | .between a0 _ a2 a3 => by
    fsimp [Expr.wt, Expr.atoms, Expr.floats_text a0, Expr.floats_text a2, Expr.floats_text a3]
  | .binary a0 _ a2 => by
    fsimp [Expr.wt, Expr.atoms, Expr.floats_text a0, Expr.floats_text a2]
  | .cast a0 _ _ _ => by
    fsimp [Expr.wt, Expr.atoms, Expr.floats_text a0]
  | .nested a0 _ _ => by
    fsimp [Expr.wt, Expr.atoms, Expr.floats_text a0]
  | .unary _ _ a2 => by
    fsimp [Expr.wt, Expr.atoms, Expr.floats_text a2]
  | .function _ a1 _ none _ => by
    fsimp [Expr.wt, Expr.atoms, overSteps, Expr.floats_texts a1]
  | .function _ a1 _ (some a3) _ => by
    fsimp [Expr.wt, Expr.atoms, overSteps, Expr.floats_texts a1, WindowSpec.floats_text a3]
  | .caseExpr _ _ a2 a3 a4 a5 => by
    fsimp [Expr.wt, Expr.atoms, optSteps_floats a2, Expr.floats_texts a4, optSteps_floats a5, caseSteps_floats a3 a4 (Expr.floats_each a4)]
  | .exists_ _ a1 _ _ _ => by
    fsimp [Expr.wt, Expr.atoms, QueryStmt.floats_text a1]
  | .subQuery _ _ a2 => by
    fsimp [Expr.wt, Expr.atoms, QueryStmt.floats_text a2]
  | .long _ => by
    fsimp [Expr.wt, Expr.atoms]
  | .double _ _ _ => by
    fsimp [Expr.wt, Expr.atoms]
  | .singleQuoted _ _ _ => by
    fsimp [Expr.wt, Expr.atoms]
  | .national _ _ _ => by
    fsimp [Expr.wt, Expr.atoms]
  | .boolean _ _ b => by cases b <;> rfl
  | .null _ _ => by
    fsimp [Expr.wt, Expr.atoms]
  | .timeValue _ _ _ _ => by
    fsimp [Expr.wt, Expr.atoms]

theorem optSteps_floats : (x : Option Expr) → ∀ {pre : Str},
    κ.cnt (Step.texts (optSteps fns pre x)) = κ.cnt (Step.texts (optSteps noFloats pre x)) + floats κ fns (Expr.atomsO x)
  | none, _ => rfl
  | some e, _ => by simp [optSteps, Expr.atomsO, Step.texts, Step.text, Expr.floats_text e]; omega

theorem Expr.floats_each : (rs : List Expr) → ∀ r ∈ rs, κ.cnt (r.wt fns).text = κ.cnt (r.wt noFloats).text + floats κ fns r.atoms
  | [], _, h => by cases h
  | e :: es, r, h => by
    rcases List.mem_cons.1 h with h | h
    · rw [h]; exact Expr.floats_text e
    · exact Expr.floats_each es r h

theorem caseSteps_floats : (cs : List Expr) → ∀ rs : List Expr,
    (∀ r ∈ rs, κ.cnt (r.wt fns).text = κ.cnt (r.wt noFloats).text + floats κ fns r.atoms) →
    κ.cnt (Step.texts (caseSteps fns cs (Expr.wts fns rs))) =
      κ.cnt (Step.texts (caseSteps noFloats cs (Expr.wts noFloats rs))) + floats κ fns (byTurns (Expr.atomsL cs) (Expr.atomsL rs))
  | [], _, _ => by simp [caseSteps, Expr.atomsL, byTurns, Step.texts]
  | _ :: _, [], _ => by simp [caseSteps, Expr.wts, Expr.atomsL, byTurns, Step.texts]
  | c :: cs, r :: rs, h => by
    have h1 := h r List.mem_cons_self
    have h2 := caseSteps_floats cs rs fun x hx => h x (List.mem_cons_of_mem _ hx)
    simp [caseSteps, Expr.wts, Expr.atomsL, byTurns, Step.texts, Step.text, Expr.floats_text c, h1, h2]
    try omega

theorem Expr.floats_texts : (x : List Expr) → ((Expr.wts fns x).map fun w => κ.cnt w.text).sum = ((Expr.wts noFloats x).map fun w => κ.cnt w.text).sum + floats κ fns (Expr.atomsL x).flatten
  | [] => rfl
  | e :: es => by simp [Expr.wts, Expr.atomsL, Expr.floats_text e, Expr.floats_texts es]; omega

theorem WindowSpec.floats_text : (x : WindowSpec) → κ.cnt (x.wt fns).text = κ.cnt (x.wt noFloats).text + floats κ fns x.atoms
  | .mk a0 a1 f _ _ => by
    have h0 := Expr.floats_texts a0
    have h1 := OrderByExpr.floats_texts a1
    cases a0 <;> cases a1 <;> cases f <;> fsimp [WindowSpec.wt, WindowSpec.atoms, h0, h1]

theorem OrderByExpr.floats_text : (x : OrderByExpr) → κ.cnt (x.wt fns).text = κ.cnt (x.wt noFloats).text + floats κ fns x.atoms
  | .mk a0 _ asc => by
    have h0 := Expr.floats_text a0
    rcases asc with _ | _ | _ <;> fsimp [OrderByExpr.wt, OrderByExpr.atoms, h0]

theorem OrderByExpr.floats_texts : (x : List OrderByExpr) → ((OrderByExpr.wts fns x).map fun w => κ.cnt w.text).sum = ((OrderByExpr.wts noFloats x).map fun w => κ.cnt w.text).sum + floats κ fns (OrderByExpr.atomsL x).flatten
  | [] => rfl
  | e :: es => by simp [OrderByExpr.wts, OrderByExpr.atomsL, OrderByExpr.floats_text e, OrderByExpr.floats_texts es]; omega

theorem QueryStmt.floats_text : (x : QueryStmt) → κ.cnt (x.wt fns).text = κ.cnt (x.wt noFloats).text + floats κ fns x.atoms
  | .mk _ a1 a2 a3 l => by
    have h0 := CTE.floats_texts a1
    have h1 := SetExpr.floats_text a2
    have h2 := OrderByExpr.floats_texts a3
    cases a1 <;> cases a3 <;> cases l <;> fsimp [QueryStmt.wt, QueryStmt.atoms, h0, h1, h2]

theorem CTE.floats_text : (x : CTE) → κ.cnt (x.wt fns).text = κ.cnt (x.wt noFloats).text + floats κ fns x.atoms
  | .mk _ a1 _ => by
    have h0 := QueryStmt.floats_text a1
    fsimp [CTE.wt, CTE.atoms, h0]

theorem CTE.floats_texts : (x : List CTE) → ((CTE.wts fns x).map fun w => κ.cnt w.text).sum = ((CTE.wts noFloats x).map fun w => κ.cnt w.text).sum + floats κ fns (CTE.atomsL x).flatten
  | [] => rfl
  | e :: es => by simp [CTE.wts, CTE.atomsL, CTE.floats_text e, CTE.floats_texts es]; omega

theorem SetExpr.floats_text : (x : SetExpr) → κ.cnt (x.wt fns).text = κ.cnt (x.wt noFloats).text + floats κ fns x.atoms
  | .selectExpr a0 => by
    fsimp [SetExpr.wt, SetExpr.atoms, SQLSelect.floats_text a0]
  | .select a0 => by
    fsimp [SetExpr.wt, SetExpr.atoms, SQLSelect.floats_text a0]
  | .query _ _ a2 => by
    fsimp [SetExpr.wt, SetExpr.atoms, QueryStmt.floats_text a2]
  | .setOp _ _ a2 a3 => by
    fsimp [SetExpr.wt, SetExpr.atoms, SetExpr.floats_text a2, SetExpr.floats_text a3]

theorem SQLSelect.floats_text : (x : SQLSelect) → κ.cnt (x.wt fns).text = κ.cnt (x.wt noFloats).text + floats κ fns x.atoms
  | .mk _ a1 a2 a3 a4 a5 _ => by
    have h0 := SelectItem.floats_texts a1
    have h1 := TableRef.floats_texts a2
    have h3 := Expr.floats_texts a4
    cases a1 <;> cases a2 <;> cases a4 <;> fsimp [SQLSelect.wt, SQLSelect.atoms, h0, h1, h3, optSteps_floats a3, optSteps_floats a5]

theorem SelectItem.floats_text : (x : SelectItem) → κ.cnt (x.wt fns).text = κ.cnt (x.wt noFloats).text + floats κ fns x.atoms
  | .unnamed a0 => by
    fsimp [SelectItem.wt, SelectItem.atoms, Expr.floats_text a0]
  | .alias a0 _ => by
    fsimp [SelectItem.wt, SelectItem.atoms, Expr.floats_text a0]
  | .qualifiedWildcard _ => by
    fsimp [SelectItem.wt, SelectItem.atoms]
  | .wildcard _ _ => by
    fsimp [SelectItem.wt, SelectItem.atoms]

theorem SelectItem.floats_texts : (x : List SelectItem) → ((SelectItem.wts fns x).map fun w => κ.cnt w.text).sum = ((SelectItem.wts noFloats x).map fun w => κ.cnt w.text).sum + floats κ fns (SelectItem.atomsL x).flatten
  | [] => rfl
  | e :: es => by simp [SelectItem.wts, SelectItem.atomsL, SelectItem.floats_text e, SelectItem.floats_texts es]; omega

theorem TableFactor.floats_text : (x : TableFactor) → κ.cnt (x.wt fns).text = κ.cnt (x.wt noFloats).text + floats κ fns x.atoms
  | .table _ _ a2 _ a4 _ => by
    have h0 := Expr.floats_texts a2
    have h1 := Expr.floats_texts a4
    cases a2 <;> cases a4 <;> fsimp [TableFactor.wt, TableFactor.atoms, h0, h1]
  | .derived _ _ _ _ a4 _ => by
    fsimp [TableFactor.wt, TableFactor.atoms, QueryStmt.floats_text a4]

theorem TableRef.floats_text : (x : TableRef) → κ.cnt (x.wt fns).text = κ.cnt (x.wt noFloats).text + floats κ fns x.atoms
  | .factor a0 => by
    fsimp [TableRef.wt, TableRef.atoms, TableFactor.floats_text a0]
  | .cross a0 a1 => by
    fsimp [TableRef.wt, TableRef.atoms, TableRef.floats_text a0, TableFactor.floats_text a1]
  | .partitioned a0 _ _ => by
    fsimp [TableRef.wt, TableRef.atoms, TableFactor.floats_text a0]
  | .qualified a0 _ a2 a3 => by
    fsimp [TableRef.wt, TableRef.atoms, TableRef.floats_text a0, TableRef.floats_text a2, JoinSpec.floats_text a3]
  | .natural a0 _ a2 => by
    fsimp [TableRef.wt, TableRef.atoms, TableRef.floats_text a0, TableRef.floats_text a2]

theorem TableRef.floats_texts : (x : List TableRef) → ((TableRef.wts fns x).map fun w => κ.cnt w.text).sum = ((TableRef.wts noFloats x).map fun w => κ.cnt w.text).sum + floats κ fns (TableRef.atomsL x).flatten
  | [] => rfl
  | e :: es => by simp [TableRef.wts, TableRef.atomsL, TableRef.floats_text e, TableRef.floats_texts es]; omega

theorem JoinSpec.floats_text : (x : JoinSpec) → κ.cnt (x.wt fns).text = κ.cnt (x.wt noFloats).text + floats κ fns x.atoms
  | .namedColumns _ _ _ => by
    fsimp [JoinSpec.wt, JoinSpec.atoms]
  | .condition a0 _ => by
    fsimp [JoinSpec.wt, JoinSpec.atoms, Expr.floats_text a0]

end

theorem map_floats {β : Type} (f f' : β → Wt) (g : β → List Atom)
    (h : ∀ x, κ.cnt (f x).text = κ.cnt (f' x).text + floats κ fns (g x)) (xs : List β) :
    ((xs.map f).map fun w => κ.cnt w.text).sum = ((xs.map f').map fun w => κ.cnt w.text).sum + floats κ fns (xs.flatMap g) := by
  induction xs with
  | nil => rfl
  | cons x xs ih =>
    simp only [List.map_cons, List.sum_cons, h, ih, List.flatMap_cons, floats_append]
    omega

theorem exprs_floats (es : List Expr) :
    ((es.map (Expr.wt fns)).map fun w => κ.cnt w.text).sum =
      ((es.map (Expr.wt noFloats)).map fun w => κ.cnt w.text).sum + floats κ fns (Expr.atomsL es).flatten := by
  induction es with
  | nil => rfl
  | cons e es ih =>
    simp only [List.map_cons, List.sum_cons, ih, Expr.floats_text (κ := κ) (fns := fns) e, Expr.atomsL, List.flatten_cons, floats_append]
    omega

theorem RowValueExpr.floats_text (r : RowValueExpr) : κ.cnt (r.wt fns).text = κ.cnt (r.wt noFloats).text + floats κ fns (Expr.atomsL r.values).flatten := by
  fsimp [RowValueExpr.wt, exprs_floats (κ := κ) (fns := fns)]

theorem InsertSource.floats_text (r : InsertSource) : κ.cnt (r.wt fns).text = κ.cnt (r.wt noFloats).text + floats κ fns r.atoms := by
  cases r with
  | subQuery s => exact QueryStmt.floats_text (κ := κ) (fns := fns) s
  | constructor p rows =>
    fsimp [InsertSource.wt, InsertSource.atoms]
    have := map_floats (κ := κ) (fns := fns) _ _ _ (RowValueExpr.floats_text (κ := κ) (fns := fns)) rows
    omega

theorem Assignment.floats_text (r : Assignment) : κ.cnt (r.wt fns).text = κ.cnt (r.wt noFloats).text + floats κ fns r.atoms := by
  fsimp [Assignment.wt, Assignment.atoms, Expr.floats_text (κ := κ) (fns := fns)]

theorem TableConstraintSpec.floats_text (r : TableConstraintSpec) : κ.cnt (r.wt fns).text = κ.cnt (r.wt noFloats).text + floats κ fns r.atoms := by
  cases r with
  | unique a b c d e => cases a <;> fsimp [TableConstraintSpec.wt, TableConstraintSpec.atoms]
  | referential a b c => fsimp [TableConstraintSpec.wt, TableConstraintSpec.atoms, ReferenceKeyExpr.wt]
  | check a b c => fsimp [TableConstraintSpec.wt, TableConstraintSpec.atoms, Expr.floats_text (κ := κ) (fns := fns)]

theorem TableConstraint.floats_text (r : TableConstraint) : κ.cnt (r.wt fns).text = κ.cnt (r.wt noFloats).text + floats κ fns r.atoms := by
  fsimp [TableConstraint.wt, TableConstraint.atoms, TableConstraintSpec.floats_text (κ := κ) (fns := fns)]

theorem ColumnSpec.floats_text (r : ColumnSpec) : κ.cnt (r.wt fns).text = κ.cnt (r.wt noFloats).text + floats κ fns r.atoms := by
  cases r with
  | unique a b c d => cases a <;> fsimp [ColumnSpec.wt, ColumnSpec.atoms]
  | notNull a b => fsimp [ColumnSpec.wt, ColumnSpec.atoms]
  | references a b c d => fsimp [ColumnSpec.wt, ColumnSpec.atoms]
  | check a b c => fsimp [ColumnSpec.wt, ColumnSpec.atoms, Expr.floats_text (κ := κ) (fns := fns)]

theorem ColumnConstraint.floats_text (r : ColumnConstraint) : κ.cnt (r.wt fns).text = κ.cnt (r.wt noFloats).text + floats κ fns r.atoms := by
  fsimp [ColumnConstraint.wt, ColumnConstraint.atoms, ColumnSpec.floats_text (κ := κ) (fns := fns)]

theorem constraints_floats (cs : List ColumnConstraint) :
    κ.cnt (Step.texts (cs.map fun x => .node (x.wt fns))) =
      κ.cnt (Step.texts (cs.map fun x => .node (x.wt noFloats))) + floats κ fns (cs.flatMap ColumnConstraint.atoms) := by
  induction cs with
  | nil => rfl
  | cons c cs ih => fsimp [ih, ColumnConstraint.floats_text (κ := κ) (fns := fns)]

theorem ColumnDef.floats_text (c : ColumnDef) : ∀ as ∈ c.arrangements,
    κ.cnt (c.wt fns).text = κ.cnt (c.wt noFloats).text + floats κ fns as := by
  intro as ha
  have : κ.cnt (c.wt fns).text = κ.cnt (c.wt noFloats).text + (floats κ fns (Expr.atomsO c.default_) +
      floats κ fns (c.constraints.flatMap ColumnConstraint.atoms)) := by
    rcases c with ⟨n, t, df, dec, cs⟩
    cases df <;> fsimp [ColumnDef.wt, Expr.atomsO, Expr.floats_text (κ := κ) (fns := fns), constraints_floats (κ := κ) (fns := fns)]
  simp only [ColumnDef.arrangements, List.mem_cons, List.not_mem_nil, or_false] at ha
  rcases ha with rfl | rfl <;> simp [this, floats_dataType] <;> omega

theorem TableElement.floats_text (c : TableElement) : ∀ as ∈ c.arrangements, κ.cnt (c.wt fns).text = κ.cnt (c.wt noFloats).text + floats κ fns as := by
  cases c with
  | constraint c =>
    intro as ha
    rw [List.mem_singleton.1 ha]
    exact TableConstraint.floats_text (κ := κ) (fns := fns) c
  | column c => exact ColumnDef.floats_text (κ := κ) (fns := fns) c

theorem arrange_floats {β : Type} (f f' : β → Wt) (g : β → List (List Atom))
    (h : ∀ x, ∀ as ∈ g x, κ.cnt (f x).text = κ.cnt (f' x).text + floats κ fns as) :
    ∀ (xs : List β), ∀ as ∈ arrange (xs.map g), ((xs.map f).map fun w => κ.cnt w.text).sum =
      ((xs.map f').map fun w => κ.cnt w.text).sum + floats κ fns as
  | [], as, ha => by
    rw [List.mem_singleton.1 ha]
    rfl
  | x :: xs, as, ha => by
    obtain ⟨a, h1, h2⟩ := List.mem_flatMap.1 ha
    obtain ⟨b, h3, rfl⟩ := List.mem_map.1 h2
    simp only [List.map_cons, List.sum_cons, h x a h1, arrange_floats f f' g h xs b h3, floats_append]
    omega

theorem floats_options (os : List TableOption) : floats κ fns (os.flatMap TableOption.atoms) = 0 := by
  induction os with
  | nil => rfl
  | cons o os ih => cases o <;> simp [TableOption.atoms, ih]

theorem AlterColumnAction.floats_text (a : AlterColumnAction) : κ.cnt (a.wt fns).text = κ.cnt (a.wt noFloats).text + floats κ fns a.atoms := by
  cases a <;> fsimp [AlterColumnAction.wt, AlterColumnAction.atoms, Expr.floats_text (κ := κ) (fns := fns)]

theorem AlterTableAction.floats_text (a : AlterTableAction) :
    ∀ as ∈ a.arrangements, κ.cnt (a.wt fns).text = κ.cnt (a.wt noFloats).text + floats κ fns as := by
  intro as ha
  cases a with
  | addColumn p c =>
    have := ColumnDef.floats_text (κ := κ) (fns := fns) c as ha
    fsimp [AlterTableAction.wt, this]
  | alterColumn n p c =>
    rw [List.mem_singleton.1 ha]
    fsimp [AlterTableAction.wt, AlterColumnAction.floats_text (κ := κ) (fns := fns)]
  | removeColumn n c p q =>
    rw [List.mem_singleton.1 ha]
    fsimp [AlterTableAction.wt]
  | addConstraint p c =>
    rw [List.mem_singleton.1 ha]
    fsimp [AlterTableAction.wt, TableConstraint.floats_text (κ := κ) (fns := fns)]
  | dropConstraint n p c q =>
    rw [List.mem_singleton.1 ha]
    fsimp [AlterTableAction.wt]

theorem floats_raw (vs : List (Option Str)) : floats κ fns (vs.filterMap (·.map Atom.raw)) = 0 := by
  induction vs with
  | nil => rfl
  | cons v vs ih => cases v <;> simp [ih]

theorem floats_objectNames (ns : List ObjectName) : floats κ fns (ns.flatMap fun n => names n.idents) = 0 := by
  induction ns with
  | nil => rfl
  | cons n ns ih => simp [ih]

theorem Stmt.floats_text : ∀ (s : Stmt), ∀ as ∈ s.arrangements, κ.cnt (s.wt fns).text = κ.cnt (s.wt noFloats).text + floats κ fns as
  | .query s, as, ha => by
    rw [Stmt.arrangements, List.mem_singleton] at ha
    rw [ha]
    exact QueryStmt.floats_text (κ := κ) (fns := fns) s
  | .insert _ name is source assigns, as, ha => by
    rw [Stmt.arrangements, List.mem_singleton] at ha
    subst ha
    have h2 := InsertSource.floats_text (κ := κ) (fns := fns) source
    cases assigns <;> cases is <;> fsimp [Stmt.wt, map_floats (κ := κ) (fns := fns) _ _ _ (Assignment.floats_text (κ := κ) (fns := fns)), Assignment.floats_text (κ := κ) (fns := fns), h2]
  | .update _ name assigns cond, as, ha => by
    rw [Stmt.arrangements, List.mem_singleton] at ha
    subst ha
    have h1 := map_floats (κ := κ) (fns := fns) _ _ _ (Assignment.floats_text (κ := κ) (fns := fns)) assigns
    cases cond <;> fsimp [Stmt.wt, h1, Expr.atomsO, Expr.floats_text (κ := κ) (fns := fns)]
  | .delete _ name cond, as, ha => by
    rw [Stmt.arrangements, List.mem_singleton] at ha
    subst ha
    cases cond <;> fsimp [Stmt.wt, Expr.atomsO, Expr.floats_text (κ := κ) (fns := fns)]
  | .createView _ name s _, as, ha => by
    rw [Stmt.arrangements, List.mem_singleton] at ha
    subst ha
    fsimp [Stmt.wt, QueryStmt.floats_text (κ := κ) (fns := fns)]
  | .createTable _ name elements _ options, as, ha => by
    rw [Stmt.arrangements, List.mem_map] at ha
    obtain ⟨bs, hb, rfl⟩ := ha
    have h1 := arrange_floats (κ := κ) (fns := fns) _ _ _ (TableElement.floats_text (κ := κ) (fns := fns)) elements bs hb
    have h2 := floats_options (κ := κ) (fns := fns) options
    fsimp [Stmt.wt, h1, h2]
  | .alterTable _ name action, as, ha => by
    rw [Stmt.arrangements, List.mem_map] at ha
    obtain ⟨bs, hb, rfl⟩ := ha
    fsimp [Stmt.wt, AlterTableAction.floats_text (κ := κ) (fns := fns) action bs hb]
  | .dropTable ns _ _ _ _, as, ha => by
    rw [Stmt.arrangements, List.mem_singleton] at ha
    subst ha
    have h1 := floats_objectNames (κ := κ) (fns := fns) ns
    fsimp [Stmt.wt, h1]
  | .createIndex _ name _ i m is _ cond, as, ha => by
    rw [Stmt.arrangements, List.mem_singleton] at ha
    subst ha
    cases cond <;> cases i <;> cases m <;> fsimp [Stmt.wt, Expr.atomsO, nameO, Expr.floats_text (κ := κ) (fns := fns)]
  | .dropIndex _ is, as, ha => by
    rw [Stmt.arrangements, List.mem_singleton] at ha
    subst ha
    fsimp [Stmt.wt]
  | .explain s _, as, ha => by
    rw [Stmt.arrangements] at ha
    fsimp [Stmt.wt, Stmt.floats_text s as ha]
  | .copy _ name is values, as, ha => by
    rw [Stmt.arrangements, List.mem_singleton] at ha
    subst ha
    have h4 := floats_raw (κ := κ) (fns := fns) values
    cases is <;> cases values <;> fsimp [Stmt.wt, h4]

end
end Verif
