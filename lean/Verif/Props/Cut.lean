import Verif.Proofs.Cut
import Verif.Proofs.Alphabet
import Verif.Props.Complete
import Verif.Props.Grammar
/-
C29: exactly what CROSS JOIN drops.
-/
namespace Verif
open Spec

theorem Thin.script (fns : FloatFns) (q : Quirks) (ss : List Stmt) : Thin (scriptLang fns q ss) (scriptLang fns q.noCross ss) := by
  unfold scriptLang
  thin [fun s => Thin.cat (Stmt.thin fns q s) (Thin.refl _)]

/-- C29, in part: what is lost stands directly before CROSS, and the tree is one of what remains when it is cut out.  What is
missing: that nothing is lost, which is false. -/
theorem C29_cut_partial (fns : FloatFns) (n : Nat) (mode : Bool) (toks : List Token) (hk : KwOK toks) (ss : List Stmt)
    (h : runSQL fns n mode toks = .ok ss ()) :
    ∃ us, Cut (significant toks) us ∧ scriptLang fns ⟨false, false, true⟩ ss us :=
  Thin.script fns ⟨true, false, true⟩ ss _ (C50_script_grammar fns n mode toks hk ss h)

/-- The text that remains is read to the same tree, if in the reading of the text no other quirk of the grammar occurs:
what CROSS JOIN drops might as well not have been written. -/
theorem C29_same_tree (fns : FloatFns) (mode : Bool) (toks : List Token) (hk : KwOK toks) (ho : NoOddLetters toks)
    (ss : List Stmt) (hs : ∀ s ∈ ss, s.shape freeWord = true) (h : scriptLang fns ⟨true, false, false⟩ ss (significant toks))
    (n : Nat) (hn : 3 * toks.length + 3 ≤ n) :
    ∃ us, Cut (significant toks) us ∧ ∃ ss', runSQL fns n mode us = .ok ss' () ∧ ss'.map Stmt.erase = ss.map Stmt.erase := by
  obtain ⟨us, h1, h2⟩ := Thin.script fns ⟨true, false, false⟩ ss _ h
  have hsub : us.Sublist toks := h1.sublist.trans List.filter_sublist
  have hsig : significant us = us := List.filter_eq_self.2 fun t ht => (List.mem_filter.1 (h1.sublist.subset ht)).2
  refine ⟨us, h1, C54_script_complete fns mode us (fun t ht => hk t (hsub.subset ht)) (fun t ht => ho t (hsub.subset ht)) ss hs
    (by rw [hsig]; exact h2) n ?_⟩
  have := hsub.length_le
  omega

/-! ### A case that meets the hypotheses -/

def cutWord (s u : Str) : Token := ⟨.word ⟨s, none, u⟩, Pos.zero, Pos.zero⟩

/-- `SELECT a FROM t` -/
def cutHead : List Token :=
  [cutWord (str% "SELECT") (str% "SELECT"), cutWord ['a'] ['A'], cutWord (str% "FROM") (str% "FROM"), cutWord ['t'] ['T']]

/-- `JOIN u ON b`, which is dropped -/
def cutBlock : List Token :=
  [cutWord (str% "JOIN") (str% "JOIN"), cutWord ['u'] ['U'], cutWord (str% "ON") (str% "ON"), cutWord ['b'] ['B']]

/-- `CROSS JOIN v;` -/
def cutTail : List Token :=
  [cutWord (str% "CROSS") (str% "CROSS"), cutWord (str% "JOIN") (str% "JOIN"), cutWord ['v'] ['V'], ⟨.sym .Semicolon [';'], Pos.zero, Pos.zero⟩]

def cutTable (s : Str) : TableFactor := .table ⟨[⟨s, Pos.zero, Pos.zero⟩]⟩ none [] Pos.zero [] Pos.zero

def cutStmt : Stmt :=
  .query (.mk Pos.zero [] (.select (.mk false [.unnamed (.ident ⟨['a'], Pos.zero, Pos.zero⟩)]
    [.cross (.factor (cutTable ['t'])) (cutTable ['v'])] none [] none Pos.zero)) [] none)

theorem cutTable_lang (fns : FloatFns) (q : Quirks) (hq : q = ⟨true, false, false⟩) (s u : Str) (hs : SQLWord.string ⟨s, none, u⟩ = s) :
    (cutTable s).lang fns q [cutWord s u] := by
  subst hq
  exact ⟨[_], [], rfl, ⟨_, _, rfl, rfl, hs.symm, rfl, rfl, by simp⟩, [], [], rfl, rfl, [], [], rfl, rfl, [], [], rfl, rfl,
    [], [], rfl, ⟨rfl, rfl⟩, rfl, rfl⟩

theorem cutStmt_lang (fns : FloatFns) : scriptLang fns ⟨true, false, false⟩ [cutStmt] (cutHead ++ (cutBlock ++ cutTail)) := by
  have hb : anything cutBlock := ⟨by decide +kernel, fun s => nested_of_none (by
    have : cutBlock.all (fun t => (opens t.tok).isNone && (closes t.tok).isNone) = true := by decide +kernel
    intro t ht
    simpa using List.all_eq_true.1 this t ht) s⟩
  have e : cutHead ++ (cutBlock ++ cutTail) = [] ++ ((([] ++ (([cutHead[0]] ++ ([] ++ ([cutHead[1]] ++ (([cutHead[2]] ++
      ([cutHead[3]] ++ (cutBlock ++ ([cutTail[0]] ++ ([cutTail[1]] ++ [cutTail[2]]))))) ++ ([] ++ ([] ++ [])))))) ++
        ([] ++ ([] ++ [])))) ++ [cutTail[3]]) ++ []) := rfl
  rw [e]
  exact ⟨_, _, rfl, .inl rfl, _, _, rfl, ⟨_, _, rfl, ⟨_, _, rfl, rfl, _, _, rfl, ⟨_, _, rfl, ⟨⟨_, _, rfl, rfl, .inr rfl⟩, _, _, rfl, rfl⟩, _, _, rfl, rfl, _, _, rfl,
    ⟨_, _, rfl, rfl, rfl, rfl, rfl, by decide⟩, _, _, rfl, ⟨_, _, rfl, ⟨_, _, rfl, rfl, .inr rfl⟩, _, _, rfl,
      cutTable_lang fns _ rfl _ _ rfl, _, _, rfl, .inr hb, _, _, rfl, ⟨_, _, rfl, rfl, .inr rfl⟩, _, _, rfl, ⟨_, _, rfl, rfl, .inr rfl⟩,
      cutTable_lang fns _ rfl _ _ rfl⟩, _, _, rfl, rfl,
    _, _, rfl, rfl, rfl⟩, _, _, rfl, rfl, _, _, rfl, rfl, rfl, rfl⟩, _, _, rfl, rfl⟩, rfl⟩

example (fns : FloatFns) : (∀ s ∈ [cutStmt], s.shape freeWord = true) ∧ significant (cutHead ++ (cutBlock ++ cutTail)) = cutHead ++ (cutBlock ++ cutTail) ∧
    scriptLang fns ⟨true, false, false⟩ [cutStmt] (cutHead ++ (cutBlock ++ cutTail)) ∧ Cut (cutHead ++ (cutBlock ++ cutTail)) (cutHead ++ cutTail) :=
  ⟨by simp; decide +kernel, rfl, cutStmt_lang fns, (cut_refl _).append (.drop _ _ (by
    refine ⟨by decide +kernel, fun s => nested_of_none ?_ s⟩
    have : cutBlock.all (fun t => (opens t.tok).isNone && (closes t.tok).isNone) = true := by decide +kernel
    intro t ht
    simpa using List.all_eq_true.1 this t ht) ⟨_, _, rfl, rfl, .inr rfl⟩ (cut_refl _))⟩

end Verif
