import Verif.Proofs.Param
import Verif.Props.Stream
import Verif.Proofs.KernelRfl
/-
Property theorem C47: source positions are carried along by the parser but never influence it.  Two token
lists whose significant tokens have the same kinds and texts are parsed to the same outcome, and the trees
differ at most in the positions stored in them.

`erase` (Verif/Spec/Erase.lean) replaces every position in a tree by the zero position.
-/
namespace Verif

/-- The outcome with a function applied to the value of a successful parse. -/
def Res.mapVal (f : α → β) : Res σ α → Res σ β
  | .ok a s => .ok (f a) s
  | .err => .err
  | .panic => .panic
  | .oof => .oof

theorem sig_tok (t : Token) (k : Tok) (h : t.tok = k) (p q : Pos) : t.sig = Token.sig ⟨k, p, q⟩ := by
  subst h; rfl

theorem er_filter_sig : ∀ {ts ts' : List Token},
    (ts.filter Token.sig).map (·.tok) = (ts'.filter Token.sig).map (·.tok) →
    er (ts.filter Token.sig) = er (ts'.filter Token.sig) := by
  intro ts ts' h
  have := congrArg (List.map fun k => (⟨k, Pos.zero, Pos.zero⟩ : Token)) h
  simp only [List.map_map] at this
  exact this

theorem same_outcome [Erases α] {p : P α} (hp : P.Sim p p) (mode : Bool) {toks toks' : List Token}
    (h : (toks.filter Token.sig).map (·.tok) = (toks'.filter Token.sig).map (·.tok)) :
    (p.run mode (newParser toks)).outcome.mapVal er = (p.run mode (newParser toks')).outcome.mapVal er := by
  rw [outcome_runZ, outcome_runZ]
  have := sim_runZ hp (rfl : er ([] : List Token) = er []) (er_filter_sig h)
  cases h1 : p.runZ [] (toks.filter Token.sig) <;> cases h2 : p.runZ [] (toks'.filter Token.sig) <;>
    simp only [h1, h2, Res.Same] at this <;> simp only [Res.outcome, Res.mapVal]
  rw [this.1]

/-! ### C47 -/

/-- C47 for `ParseStatement`. -/
theorem C47_statement (fns : FloatFns) (n : Nat) (mode : Bool) {toks toks' : List Token}
    (h : (toks.filter Token.sig).map (·.tok) = (toks'.filter Token.sig).map (·.tok)) :
    (runStatement fns n mode toks).mapVal Stmt.erase = (runStatement fns n mode toks').mapVal Stmt.erase :=
  same_outcome (sim_at fns n).statement mode h

/-- C47 for `ParseExpr`. -/
theorem C47_expr (fns : FloatFns) (n : Nat) (mode : Bool) {toks toks' : List Token}
    (h : (toks.filter Token.sig).map (·.tok) = (toks'.filter Token.sig).map (·.tok)) :
    (runExpr fns n mode toks).mapVal Expr.erase = (runExpr fns n mode toks').mapVal Expr.erase :=
  same_outcome ((sim_at fns n).subexpr 0) mode h

/-- C47 for `ParseDataType`. -/
theorem C47_data_type (fns : FloatFns) (n : Nat) (mode : Bool) {toks toks' : List Token}
    (h : (toks.filter Token.sig).map (·.tok) = (toks'.filter Token.sig).map (·.tok)) :
    (runDataType fns n mode toks).mapVal DataType.erase =
      (runDataType fns n mode toks').mapVal DataType.erase :=
  same_outcome (sim_parseDataType (sim_at fns n)) mode h

/-- C47 for `ParseSQL` and `ParseFile`. -/
theorem C47_sql (fns : FloatFns) (n : Nat) (mode : Bool) {toks toks' : List Token}
    (h : (toks.filter Token.sig).map (·.tok) = (toks'.filter Token.sig).map (·.tok)) :
    (runSQL fns n mode toks).mapVal (List.map Stmt.erase) =
      (runSQL fns n mode toks').mapVal (List.map Stmt.erase) ∧
    (runFile fns n mode toks).mapVal (List.map Stmt.erase) =
      (runFile fns n mode toks').mapVal (List.map Stmt.erase) := by
  have := same_outcome (sim_parseSQLLoop (sim_at fns n) mode n false) mode h
  rw [runFile_eq, runFile_eq]
  exact ⟨this, this⟩

/-- Two layouts of one expression: the significant tokens agree, the trees are equal after erasing the
positions, and the trees themselves are different. -/
def layout1 : List Token :=
  [⟨.word ⟨str% "a", none, str% "A"⟩, ⟨1, 1⟩, ⟨1, 2⟩⟩, ⟨.sym .Plus (str% "+"), ⟨1, 2⟩, ⟨1, 3⟩⟩,
   ⟨.word ⟨str% "b", none, str% "B"⟩, ⟨1, 3⟩, ⟨1, 4⟩⟩, ⟨.sym .Semicolon (str% ";"), ⟨1, 4⟩, ⟨1, 5⟩⟩]
def layout2 : List Token :=
  [⟨.word ⟨str% "a", none, str% "A"⟩, ⟨1, 1⟩, ⟨1, 2⟩⟩, ⟨.whitespace (str% "\n"), ⟨1, 2⟩, ⟨2, 1⟩⟩,
   ⟨.sym .Plus (str% "+"), ⟨2, 1⟩, ⟨2, 2⟩⟩, ⟨.comment (str% "c"), ⟨2, 2⟩, ⟨2, 7⟩⟩,
   ⟨.word ⟨str% "b", none, str% "B"⟩, ⟨2, 7⟩, ⟨2, 8⟩⟩, ⟨.sym .Semicolon (str% ";"), ⟨2, 8⟩, ⟨2, 9⟩⟩]

set_option maxRecDepth 100000 in
example (fns : FloatFns) :
    (layout1.filter Token.sig).map (·.tok) = (layout2.filter Token.sig).map (·.tok) ∧
    runExpr fns 9 true layout1 = .ok (.binary (.ident ⟨str% "a", ⟨1, 1⟩, ⟨1, 2⟩⟩) ⟨.Plus, ⟨1, 2⟩, ⟨1, 3⟩⟩
      (.ident ⟨str% "b", ⟨1, 3⟩, ⟨1, 4⟩⟩)) () ∧
    runExpr fns 9 true layout2 = .ok (.binary (.ident ⟨str% "a", ⟨1, 1⟩, ⟨1, 2⟩⟩) ⟨.Plus, ⟨2, 1⟩, ⟨2, 2⟩⟩
      (.ident ⟨str% "b", ⟨2, 7⟩, ⟨2, 8⟩⟩)) () :=
  ⟨by decide, by kernel_rfl, by kernel_rfl⟩

end Verif
