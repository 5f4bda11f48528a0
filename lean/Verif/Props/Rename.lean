import Verif.Proofs.Rename
import Verif.Props.Param
/-
Property theorems C51 and C52.

C51: keywords may be written in any letter case.  Two token lists that differ only in the case of ASCII letters
of unquoted keywords have the same outcome, and the trees differ at most in positions and in the letter case of
identifiers that spell a keyword.

C52: the parser never looks inside identifiers and string literals.  Renaming the identifiers that are no
keywords and replacing the texts of string literals commutes with parsing.

`rename`, `Renaming.Tok` and `CaseVariant` are in Verif/Spec/Rename.lean.
-/
namespace Verif

namespace Ren

theorem outcome [Erases α α'] {ρ ρ' : Renaming} {p p' : P α} (hp : Sim ρ ρ' p p') (mode : Bool)
    {toks toks' : List Token}
    (h : er ρ (toks.filter Token.sig) = er ρ' (toks'.filter Token.sig)) :
    (p.run mode (newParser toks)).outcome.mapVal (er ρ) =
      (p'.run mode (newParser toks')).outcome.mapVal (er ρ') := by
  rw [outcome_runZ, outcome_runZ]
  have := sim_runZ hp (b := []) (b' := []) rfl h
  cases h1 : p.runZ [] (toks.filter Token.sig) <;> cases h2 : p'.runZ [] (toks'.filter Token.sig) <;>
    simp only [h1, h2, SameRes] at this <;> simp only [Res.outcome, Res.mapVal]
  rw [this.1]

theorem er_of_forall {ρ ρ' : Renaming} {R : Tok → Tok → Prop} (hR : ∀ k k', R k k' → TokR ρ ρ' k k') :
    ∀ {ts ts' : List Token}, Pairwise₂ (fun t t' => R t.tok t'.tok) ts ts' → er ρ ts = er ρ' ts' := by
  intro ts ts' h
  induction h with
  | nil => rfl
  | cons h _ ih =>
    simp only [er, List.map_cons] at *
    rw [ih, tokR_iff.1 (hR _ _ h)]

theorem sameFold (c : Char) : foldC (asciiUpper c) = foldC c := by
  unfold asciiUpper
  by_cases h1 : 'a' ≤ c ∧ c ≤ 'z'
  · rw [if_pos h1]
    have h2 : 97 ≤ c.toNat ∧ c.toNat ≤ 122 := h1
    have h3 : ∀ n : Fin 26, foldC (Char.ofNat (n.1 + 97)) = foldC (Char.ofNat (n.1 + 97 - 32)) := by decide
    have h4 := h3 ⟨c.toNat - 97, by omega⟩
    simp only at h4
    rw [show c.toNat - 97 + 97 = c.toNat by omega, Char.ofNat_toNat] at h4
    exact h4.symm
  · rw [if_neg h1]

theorem of_renamed {ρ : Renaming} {k k' : Tok} (h : ρ.Tok k k') : TokR ρ .id k k' := by
  cases h with
  | word h h' hs =>
    refine .word _ _ (h'.1.trans h.1.symm) (funext fun k => (h'.2 k).trans (h.2 k).symm) hs.symm
  | keyword h => exact .word _ _ rfl rfl h
  | single => exact .single _ _ rfl
  | national => exact .national _ _ rfl
  | number => exact .number _
  | char => exact .char _
  | sym => exact .sym _ _

theorem of_case {k k' : Tok} (h : CaseVariant k k') : TokR .keywordCase .keywordCase k k' := by
  cases h with
  | same => exact tokR_iff.2 rfl
  | @keyword k v v' h h' =>
    have hf : ∀ {v : Str}, v.map asciiUpper = k.str → v.map foldC = k.str.map foldC := by
      intro v h
      rw [← h, List.map_map]
      exact List.map_congr_left fun c _ => (sameFold c).symm
    refine .word _ _ rfl (funext fun j => ?_) ?_
    · simp only [equalFold, hf h, hf h']
    · simp [Renaming.keywordCase, SQLWord.string, h, h']

end Ren


/-! ### C51 -/

/-- C51 for `ParseStatement`. -/
theorem C51_statement (fns : FloatFns) (n : Nat) (mode : Bool) {toks toks' : List Token}
    (h : Pairwise₂ (fun t t' => CaseVariant t.tok t'.tok) (toks.filter Token.sig) (toks'.filter Token.sig)) :
    (runStatement fns n mode toks).mapVal (Stmt.rename .keywordCase) =
      (runStatement fns n mode toks').mapVal (Stmt.rename .keywordCase) :=
  Ren.outcome (Ren.sim_at fns n).statement mode (Ren.er_of_forall (fun _ _ => Ren.of_case) h)

/-- C51 for `ParseExpr`. -/
theorem C51_expr (fns : FloatFns) (n : Nat) (mode : Bool) {toks toks' : List Token}
    (h : Pairwise₂ (fun t t' => CaseVariant t.tok t'.tok) (toks.filter Token.sig) (toks'.filter Token.sig)) :
    (runExpr fns n mode toks).mapVal (Expr.rename .keywordCase) =
      (runExpr fns n mode toks').mapVal (Expr.rename .keywordCase) :=
  Ren.outcome ((Ren.sim_at fns n).subexpr 0) mode (Ren.er_of_forall (fun _ _ => Ren.of_case) h)

/-- C51 for `ParseDataType`. -/
theorem C51_data_type (fns : FloatFns) (n : Nat) (mode : Bool) {toks toks' : List Token}
    (h : Pairwise₂ (fun t t' => CaseVariant t.tok t'.tok) (toks.filter Token.sig) (toks'.filter Token.sig)) :
    (runDataType fns n mode toks).mapVal (DataType.rename .keywordCase) =
      (runDataType fns n mode toks').mapVal (DataType.rename .keywordCase) :=
  Ren.outcome (Ren.sim_parseDataType (Ren.sim_at fns n)) mode (Ren.er_of_forall (fun _ _ => Ren.of_case) h)

/-- C51 for `ParseSQL` and `ParseFile`. -/
theorem C51_sql (fns : FloatFns) (n : Nat) (mode : Bool) {toks toks' : List Token}
    (h : Pairwise₂ (fun t t' => CaseVariant t.tok t'.tok) (toks.filter Token.sig) (toks'.filter Token.sig)) :
    (runSQL fns n mode toks).mapVal (List.map (Stmt.rename .keywordCase)) =
      (runSQL fns n mode toks').mapVal (List.map (Stmt.rename .keywordCase)) ∧
    (runFile fns n mode toks).mapVal (List.map (Stmt.rename .keywordCase)) =
      (runFile fns n mode toks').mapVal (List.map (Stmt.rename .keywordCase)) := by
  have := Ren.outcome (Ren.sim_parseSQLLoop (Ren.sim_at fns n) mode n false) mode (Ren.er_of_forall (fun _ _ => Ren.of_case) h)
  rw [runFile_eq, runFile_eq]
  exact ⟨this, this⟩

/-! ### C52 -/

/-- C52 for `ParseStatement`. -/
theorem C52_statement (fns : FloatFns) (n : Nat) (mode : Bool) (ρ : Renaming) {toks toks' : List Token}
    (h : Pairwise₂ (fun t t' => ρ.Tok t.tok t'.tok) (toks.filter Token.sig) (toks'.filter Token.sig)) :
    (runStatement fns n mode toks').mapVal (Stmt.rename .id) =
      (runStatement fns n mode toks).mapVal (Stmt.rename ρ) :=
  (Ren.outcome (Ren.sim_at fns n).statement mode (Ren.er_of_forall (fun _ _ => Ren.of_renamed) h)).symm

/-- C52 for `ParseExpr`. -/
theorem C52_expr (fns : FloatFns) (n : Nat) (mode : Bool) (ρ : Renaming) {toks toks' : List Token}
    (h : Pairwise₂ (fun t t' => ρ.Tok t.tok t'.tok) (toks.filter Token.sig) (toks'.filter Token.sig)) :
    (runExpr fns n mode toks').mapVal (Expr.rename .id) =
      (runExpr fns n mode toks).mapVal (Expr.rename ρ) :=
  (Ren.outcome ((Ren.sim_at fns n).subexpr 0) mode (Ren.er_of_forall (fun _ _ => Ren.of_renamed) h)).symm

/-- C52 for `ParseDataType`. -/
theorem C52_data_type (fns : FloatFns) (n : Nat) (mode : Bool) (ρ : Renaming) {toks toks' : List Token}
    (h : Pairwise₂ (fun t t' => ρ.Tok t.tok t'.tok) (toks.filter Token.sig) (toks'.filter Token.sig)) :
    (runDataType fns n mode toks').mapVal (DataType.rename .id) =
      (runDataType fns n mode toks).mapVal (DataType.rename ρ) :=
  (Ren.outcome (Ren.sim_parseDataType (Ren.sim_at fns n)) mode (Ren.er_of_forall (fun _ _ => Ren.of_renamed) h)).symm

/-- C52 for `ParseSQL` and `ParseFile`. -/
theorem C52_sql (fns : FloatFns) (n : Nat) (mode : Bool) (ρ : Renaming) {toks toks' : List Token}
    (h : Pairwise₂ (fun t t' => ρ.Tok t.tok t'.tok) (toks.filter Token.sig) (toks'.filter Token.sig)) :
    (runSQL fns n mode toks').mapVal (List.map (Stmt.rename .id)) =
      (runSQL fns n mode toks).mapVal (List.map (Stmt.rename ρ)) ∧
    (runFile fns n mode toks').mapVal (List.map (Stmt.rename .id)) =
      (runFile fns n mode toks).mapVal (List.map (Stmt.rename ρ)) := by
  have := Ren.outcome (Ren.sim_parseSQLLoop (Ren.sim_at fns n) mode n false) mode (Ren.er_of_forall (fun _ _ => Ren.of_renamed) h)
  rw [runFile_eq, runFile_eq]
  exact ⟨this.symm, this.symm⟩

/-! ### Cases that meet the hypotheses -/

/-- `Select a From t;` and `SELECT a from t;` -/
def case1 : List Token :=
  [⟨.word ⟨str% "Select", none, str% "SELECT"⟩, ⟨1, 1⟩, ⟨1, 7⟩⟩, ⟨.whitespace (str% " "), ⟨1, 7⟩, ⟨1, 8⟩⟩,
   ⟨.word ⟨str% "a", none, str% "A"⟩, ⟨1, 8⟩, ⟨1, 9⟩⟩, ⟨.word ⟨str% "From", none, str% "FROM"⟩, ⟨1, 10⟩, ⟨1, 14⟩⟩,
   ⟨.word ⟨str% "t", none, str% "T"⟩, ⟨1, 15⟩, ⟨1, 16⟩⟩, ⟨.sym .Semicolon (str% ";"), ⟨1, 16⟩, ⟨1, 17⟩⟩]
def case2 : List Token :=
  [⟨.word ⟨str% "SELECT", none, str% "SELECT"⟩, ⟨1, 1⟩, ⟨1, 7⟩⟩, ⟨.word ⟨str% "a", none, str% "A"⟩, ⟨1, 8⟩, ⟨1, 9⟩⟩,
   ⟨.word ⟨str% "from", none, str% "FROM"⟩, ⟨1, 10⟩, ⟨1, 14⟩⟩,
   ⟨.word ⟨str% "t", none, str% "T"⟩, ⟨1, 15⟩, ⟨1, 16⟩⟩, ⟨.sym .Semicolon (str% ";"), ⟨1, 16⟩, ⟨1, 17⟩⟩]
/-- `SELECT longer from other;`: `case2` after a renaming. -/
def case3 : List Token :=
  [⟨.word ⟨str% "SELECT", none, str% "SELECT"⟩, ⟨1, 1⟩, ⟨1, 7⟩⟩,
   ⟨.word ⟨str% "longer", none, str% "LONGER"⟩, ⟨1, 8⟩, ⟨1, 14⟩⟩,
   ⟨.word ⟨str% "from", none, str% "FROM"⟩, ⟨1, 15⟩, ⟨1, 19⟩⟩,
   ⟨.word ⟨str% "other", none, str% "OTHER"⟩, ⟨1, 20⟩, ⟨1, 25⟩⟩, ⟨.sym .Semicolon (str% ";"), ⟨1, 25⟩, ⟨1, 26⟩⟩]
def toLonger : Renaming :=
  ⟨fun s => if s = str% "a" then str% "longer" else if s = str% "t" then str% "other" else s, fun s => s⟩

def caseStmt (a t : Str) : Stmt :=
  .query (.mk Pos.zero [] (.select (.mk false [.unnamed (.ident ⟨a, Pos.zero, Pos.zero⟩)]
    [.factor (.table ⟨[⟨t, Pos.zero, Pos.zero⟩]⟩ none [] Pos.zero [] Pos.zero)] none [] none Pos.zero)) [] none)

example : Pairwise₂ (fun t t' => CaseVariant t.tok t'.tok) (case1.filter Token.sig) (case2.filter Token.sig) := by
  refine .cons (.keyword (k := .SELECT) (by decide) (by decide)) (.cons .same (.cons
    (.keyword (k := .FROM) (by decide) (by decide)) (.cons .same (.cons .same .nil))))

theorem plain_of (v k : Str) (q : Option Char) (h : KW.all.all (fun x => x.str != k && !equalFold v x.str) = true) :
    SQLWord.plain ⟨v, q, k⟩ := by
  rw [List.all_eq_true] at h
  constructor
  · cases hk : kwOf k with
    | none => rfl
    | some x =>
      have := h x (KW.mem_all x)
      rw [kwOf_eq_some.1 hk] at this
      simp at this
  · intro x
    have := h x (KW.mem_all x)
    simp at this
    exact this.2

example : Pairwise₂ (fun t t' => toLonger.Tok t.tok t'.tok) (case2.filter Token.sig) (case3.filter Token.sig) := by
  refine .cons (.keyword (by decide)) (.cons (.word (plain_of _ _ _ (by decide +kernel))
    (plain_of _ _ _ (by decide +kernel)) (by decide)) (.cons (.keyword (by decide)) (.cons
      (.word (plain_of _ _ _ (by decide +kernel)) (plain_of _ _ _ (by decide +kernel)) (by decide))
      (.cons .sym .nil))))

set_option maxRecDepth 100000 in
/-- What the theorems relate: the three statements are parsed, to trees with these identifiers. -/
example (fns : FloatFns) :
    (runStatement fns 20 false case1).mapVal (Stmt.rename .keywordCase) = .ok (caseStmt (str% "a") (str% "t")) () ∧
    (runStatement fns 20 false case2).mapVal (Stmt.rename .keywordCase) = .ok (caseStmt (str% "a") (str% "t")) () ∧
    (runStatement fns 20 false case2).mapVal (Stmt.rename toLonger) =
      .ok (caseStmt (str% "longer") (str% "other")) () ∧
    (runStatement fns 20 false case3).mapVal (Stmt.rename .id) =
      .ok (caseStmt (str% "longer") (str% "other")) () :=
  ⟨by kernel_rfl, by kernel_rfl, by kernel_rfl, by kernel_rfl⟩

end Verif
