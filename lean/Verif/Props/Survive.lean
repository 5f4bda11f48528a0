import Verif.Proofs.ShapeErase
import Verif.Props.Soundness
/-
Property theorems C57: exactly which trees survive printing and parsing.  A tree that is read back as itself,
up to positions, has the shape of a parsed tree (`shape`, Verif/Spec/Shape.lean: operators respect the levels,
no list that must not be empty is empty, and so on), whatever its parts; and among the trees with `plain` parts
(names that are none of the 18 keywords of C64, literals that the printer writes correctly, no clause that the printer loses)
those of the right shape are exactly the ones that survive.
-/
set_option maxRecDepth 100000
namespace Verif
open Spec

/-- Some successful tokenization of `src`, read by `run` within some budget, gives a result that is `good`. -/
def CanRead (d : Dialect) (src : Str) (run : Nat → List Token → Res Unit α) (good : α → Prop) : Prop :=
  ∃ fuel toks n x, tokenize d true fuel src = .ok toks ∧ run n toks = .ok x () ∧ good x

theorem Reads.can {d : Dialect} {src : Str} {run : Nat → List Token → Res Unit α} {good : α → Prop}
    (h : Reads d src run good) : CanRead d src run good := by
  obtain ⟨toks, ht, h⟩ := h
  obtain ⟨x, hx, hg⟩ := h _ (Nat.le_refl _)
  exact ⟨_, toks, _, x, ht, hx, hg⟩

/-- C57: an expression that is printed to a text that is read as the same expression has the right shape. -/
theorem C57_expr_shape {d : Dialect} (hd : BuiltIn d) (fns : FloatFns) (mode : Bool) {e : Expr}
    (h : CanRead d (Node.toSQLString fns (.expr e)) (fun n => runExpr fns n mode) fun e' => e'.erase = e.erase) :
    e.shape (spelled d) = true := by
  obtain ⟨fuel, toks, n, e', ht, h, he⟩ := h
  have := C49_expr_shape fns n mode _ toks (tokenizeFrom_kwOK ht) (spelled_words hd ht) e' h
  rwa [← Expr.shape_erase, he, Expr.shape_erase] at this

/-- C57: among the plain expressions, those of the right shape are exactly the ones that survive. -/
theorem C57_expr_survives_iff {d : Dialect} (hd : BuiltIn d) (fns : FloatFns) (mode : Bool) {e : Expr}
    (hp : e.plain fns = true) :
    Reads d (Node.toSQLString fns (.expr e)) (fun n => runExpr fns n mode) (fun e' => e'.erase = e.erase) ↔
      e.shape (spelled d) = true :=
  ⟨fun h => C57_expr_shape hd fns mode h.can,
    fun h => C23_expr_roundtrip_partial hd fns mode (e.wf_of h hp)⟩

/-- C57 for statements. -/
theorem C57_statement_shape {d : Dialect} (hd : BuiltIn d) (fns : FloatFns) (mode : Bool) {s : Stmt}
    (h : CanRead d (Node.toSQLString fns (.stmt s) ++ str% ";") (fun n => runStatement fns n mode)
      fun s' => s'.erase = s.erase) :
    s.shape (spelled d) = true := by
  obtain ⟨fuel, toks, n, s', ht, h, hs⟩ := h
  have := C49_statement_shape fns n mode _ toks (tokenizeFrom_kwOK ht) (spelled_words hd ht) s' h
  rwa [← Stmt.shape_erase, hs, Stmt.shape_erase] at this

/-- C57 for statements: among the plain ones, those of the right shape are exactly the ones that survive. -/
theorem C57_statement_survives_iff {d : Dialect} (hd : BuiltIn d) (fns : FloatFns) (mode : Bool) {s : Stmt}
    (hp : s.plain fns = true) :
    Reads d (Node.toSQLString fns (.stmt s) ++ str% ";") (fun n => runStatement fns n mode)
      (fun s' => s'.erase = s.erase) ↔ s.shape (spelled d) = true :=
  ⟨fun h => C57_statement_shape hd fns mode h.can, fun h => stmt_reads hd fns mode (s.wf_of h hp)⟩

/-- C57 for lists of statements, each followed by a semicolon. -/
theorem C57_statements_survive_iff {d : Dialect} (hd : BuiltIn d) (fns : FloatFns) (mode : Bool) {ss : List Stmt}
    (hp : ∀ s ∈ ss, s.plain fns = true) :
    Reads d (statementsText fns ss) (fun n => runSQL fns n mode)
      (fun ss' => ss'.map Stmt.erase = ss.map Stmt.erase) ↔ ∀ s ∈ ss, s.shape (spelled d) = true := by
  refine ⟨fun h => ?_, fun h => C26_statements_roundtrip hd fns mode fun s hs => s.wf_of (h s hs) (hp s hs)⟩
  obtain ⟨fuel, toks, n, ss', ht, h, he⟩ := h.can
  have := C49_statements_shape fns n mode _ toks (tokenizeFrom_kwOK ht) (spelled_words hd ht) ss' h
  intro s hs
  obtain ⟨s', hs', he'⟩ := List.mem_map.1 (he ▸ List.mem_map_of_mem hs : s.erase ∈ ss'.map Stmt.erase)
  have := this s' hs'
  rwa [← Stmt.shape_erase, he', Stmt.shape_erase] at this

/-- C57 for the types. -/
theorem C57_type_survives_iff {d : Dialect} (hd : BuiltIn d) (fns : FloatFns) (mode : Bool) {t : DataType}
    (hp : t.plain = true) :
    Reads d (Node.toSQLString fns (.dataType t) ++ str% ";") (fun n => runDataType fns n mode)
      (fun t' => t'.erase = t.erase) ↔ t.shape (spelled d) = true := by
  refine ⟨fun h => ?_, fun h => C25_type_roundtrip_partial hd fns mode (DataType.wf_of h hp)⟩
  obtain ⟨fuel, toks, n, t', ht, h, he⟩ := h.can
  have hk : KwOK toks := tokenizeFrom_kwOK ht
  obtain ⟨-, this⟩ := outcome_pc (p := parseDataType (Parsers.at fns n)) (Q := fun t _ => t.shape (spelled d) = true) h
    fun i => sh_parseDataType ((spelled_words hd ht).filter _) (sh_at fns hk.filter ((spelled_words hd ht).filter _) n)
  rwa [← DataType.shape_erase, he, DataType.shape_erase] at this

/-- C57: without `Nested`, an operator of the same or a lower level in the right operand does not survive,
whatever the operands are. -/
theorem C57_right_operand {d : Dialect} (hd : BuiltIn d) (fns : FloatFns) (mode : Bool) (a b c : Expr)
    (op op' : Operator) (hl : op'.type.level ≤ op.type.level) :
    ¬ CanRead d (Node.toSQLString fns (.expr (.binary a op (.binary b op' c)))) (fun n => runExpr fns n mode)
      fun e' => e'.erase = (Expr.binary a op (.binary b op' c)).erase := by
  intro h
  have := C57_expr_shape hd fns mode h
  simp only [Expr.shape, Expr.lp, Bool.and_eq_true, decide_eq_true_eq] at this
  have := of_decide_eq_true this.2
  omega

/-- C57: without `Nested`, an operator of a lower level in the left operand does not survive. -/
theorem C57_left_operand {d : Dialect} (hd : BuiltIn d) (fns : FloatFns) (mode : Bool) (a b c : Expr)
    (op op' : Operator) (hl : op'.type.level < op.type.level) :
    ¬ CanRead d (Node.toSQLString fns (.expr (.binary (.binary a op' b) op c))) (fun n => runExpr fns n mode)
      fun e' => e'.erase = (Expr.binary (.binary a op' b) op c).erase := by
  intro h
  have := C57_expr_shape hd fns mode h
  simp only [Expr.shape, Expr.rp, Bool.and_eq_true, decide_eq_true_eq] at this
  have := of_decide_eq_true this.1.2
  omega

/-! ### Examples -/

/-- `a - (b - c)`, without and with the parentheses as a node of the tree. -/
def sub3 (nested : Bool) : Expr :=
  let i (c : Char) : Expr := .ident ⟨[c], Pos.zero, Pos.zero⟩
  let m (l r : Expr) : Expr := .binary l ⟨.Minus, Pos.zero, Pos.zero⟩ r
  m (i 'a') (if nested then .nested (m (i 'b') (i 'c')) Pos.zero Pos.zero else m (i 'b') (i 'c'))

/-- Both trees are plain; the first is printed as `a - b - c`, has not the right shape, and is not read back;
the second is. -/
example (fns : FloatFns) :
    ((sub3 false).plain fns = true ∧ Node.toSQLString fns (.expr (sub3 false)) = str% "a - b - c" ∧
      (sub3 false).shape (spelled genericDialect) = false) ∧
    ((sub3 true).plain fns = true ∧ Node.toSQLString fns (.expr (sub3 true)) = str% "a - (b - c)" ∧
      (sub3 true).shape (spelled genericDialect) = true) :=
  ⟨⟨by kernel_rfl, by kernel_rfl, by kernel_rfl⟩, by kernel_rfl, by kernel_rfl, by kernel_rfl⟩

/-- Trees that survive: the hypotheses of the theorems for statements are met. -/
example (fns : FloatFns) : CanRead genericDialect (Node.toSQLString fns (.stmt Sample.createTable) ++ str% ";")
    (fun n => runStatement fns n true) (fun s' => s'.erase = Sample.createTable.erase) :=
  (stmt_reads (.inl rfl) fns true (Sample.createTable_wf fns)).can
example (fns : FloatFns) : Sample.createTable.plain fns = true ∧ Sample.insert.plain fns = true ∧
    Sample.update.plain fns = true :=
  ⟨by kernel_rfl, by kernel_rfl, by kernel_rfl⟩
/-- Types: DECIMAL without a precision is a type of the package that does not survive. -/
example : (DataType.decimal none none Pos.zero Pos.zero false Pos.zero).plain = true ∧
    (DataType.decimal none none Pos.zero Pos.zero false Pos.zero).shape (spelled genericDialect) = false ∧
    (DataType.decimal (some 5) none Pos.zero Pos.zero false Pos.zero).shape (spelled genericDialect) = true :=
  ⟨rfl, rfl, rfl⟩
/-- Levels: minus after minus, and plus under times. -/
example : OpType.Minus.level ≤ OpType.Minus.level ∧ OpType.Plus.level < OpType.Multiply.level := by decide

end Verif
