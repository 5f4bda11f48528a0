import Verif.Proofs.Term
import Verif.Props.Stream
/-
Property theorem C20: the parser terminates.

The parser functions call each other recursively and loop; the model gives them a budget `n` of nested calls
and loop iterations, and `Res.oof` is the outcome when the budget does not suffice.  C20 says that a budget
linear in the number of tokens left always suffices, so that the Go code, which has no budget, always returns,
reports an error or panics, and that the outcome does not depend on the budget.
-/
namespace Verif

/-- The significant tokens of a parser, and where it stands in them. -/
theorem wp_run {p : P α} {Q : α → Nat → Prop} {s : PState} (hs : s.idx ≤ s.toks.length)
    (h : wp (s.toks.filter Token.sig) p ((s.toks.take s.idx).filter Token.sig).length Q) (mode : Bool) :
    p.run mode s ≠ .oof := by
  intro ho
  have h1 := run_view mode p s hs
  rw [ho] at h1
  have hT : s.toks.filter Token.sig =
      (s.toks.take s.idx).filter Token.sig ++ (s.toks.drop s.idx).filter Token.sig := by
    rw [← List.filter_append, List.take_append_drop]
  have h2 := (runZ_runI (s.toks.filter Token.sig) p ((s.toks.take s.idx).filter Token.sig).length
    (by rw [hT]; simp)).1
  rw [hT, List.take_left, List.drop_left] at h2
  rw [← hT] at h2
  simp only [PState.before, PState.after] at h1
  rw [← h1] at h2
  simp only [Res.mapState] at h2
  unfold wp at h
  rw [← h2] at h
  exact h

theorem KwOK.filter {T : List Token} (h : KwOK T) : KwOK (T.filter Token.sig) :=
  fun t ht => h t (List.mem_filter.1 ht).1

/-- The significant tokens not yet read. -/
def PState.left (s : PState) : Nat := ((s.toks.drop s.idx).filter Token.sig).length

/-- C20: wherever a parser stands in a token list whose words carry the keyword the tokenizer gives them, a
budget of three calls per token left and three more suffices for `ParseStatement`, `ParseExpr`,
`ParseDataType` and `ParseSQL`, with and without comments. -/
theorem C20_terminates (fns : FloatFns) (mode : Bool) (s : PState) (n m : Nat) (hs : s.idx ≤ s.toks.length)
    (hk : KwOK s.toks) (hn : 3 * s.left + 3 ≤ n) (hm : s.left + 1 ≤ m) :
    (Parsers.at fns n).statement.run mode s ≠ .oof ∧
    (parseExpr (Parsers.at fns n)).run mode s ≠ .oof ∧
    (parseDataType (Parsers.at fns n)).run mode s ≠ .oof ∧
    (parseSQL mode (Parsers.at fns n) m).run mode s ≠ .oof := by
  have H := term_at fns hk.filter n
  have hT : s.toks.filter Token.sig =
      (s.toks.take s.idx).filter Token.sig ++ (s.toks.drop s.idx).filter Token.sig := by
    rw [← List.filter_append, List.take_append_drop]
  have hl : (s.toks.filter Token.sig).length = ((s.toks.take s.idx).filter Token.sig).length + s.left := by
    rw [hT, List.length_append]; rfl
  refine ⟨wp_run hs (H.statement _ ?_ ?_) mode, wp_run hs (term_parseExpr H ?_ ?_) mode,
    wp_run hs (term_parseDataType H ?_ ?_) mode, wp_run hs (term_parseSQLLoop H mode m false _ ?_ ?_ ?_) mode⟩ <;>
    omega

theorem parseSQLLoop_le {r r' : Parsers} (h : Parsers.Le r r') (mode : Bool) : ∀ {m m' : Nat}, m ≤ m' →
    ∀ e, P.Le (parseSQLLoop mode r m e) (parseSQLLoop mode r' m' e)
  | 0, _, _, _ => .oof _
  | m + 1, 0, hm, _ => by omega
  | m + 1, m' + 1, hm, e => by
    unfold parseSQLLoop
    refine P.Le.bind (P.Le.refl _) fun ok => ?_
    split
    · exact .err
    · have hrest : P.Le (do
          let s ← r.statement
          let ss ← parseSQLLoop mode r m true
          pure (s :: ss)) (do
          let s ← r'.statement
          let ss ← parseSQLLoop mode r' m' true
          pure (s :: ss)) :=
        P.Le.bind h.statement fun s =>
          P.Le.bind (parseSQLLoop_le h mode (by omega) true) fun ss => P.Le.refl _
      cases mode with
      | false =>
        refine P.Le.bind (P.Le.refl _) fun t => ?_
        cases t with
        | none => exact .ret _
        | some t => exact hrest
      | true =>
        refine P.Le.bind (P.Le.refl _) fun t => ?_
        cases t with
        | none => exact .ret _
        | some t => exact P.Le.bind (P.Le.refl _) fun _ => hrest

theorem outcome_le {p q : P α} (h : P.Le p q) (mode : Bool) (s : PState) (ho : p.run mode s ≠ .oof) :
    (p.run mode s).outcome = (q.run mode s).outcome := by rw [run_le h mode s ho]

theorem left_le (toks : List Token) : (newParser toks).left ≤ toks.length := by
  simp only [PState.left, newParser, List.drop_zero]
  exact List.length_filter_le ..

theorem budget_le (fns : FloatFns) (mode : Bool) (toks : List Token) {n n' : Nat}
    (hk : KwOK toks) (hn : 3 * toks.length + 3 ≤ n) (hn' : n ≤ n') :
    runStatement fns n mode toks = runStatement fns n' mode toks ∧
    runExpr fns n mode toks = runExpr fns n' mode toks ∧
    runDataType fns n mode toks = runDataType fns n' mode toks ∧
    runSQL fns n mode toks = runSQL fns n' mode toks := by
  have hl := left_le toks
  obtain ⟨h1, h2, h3, h4⟩ := C20_terminates fns mode (newParser toks) n n (Nat.zero_le _) hk
    (by omega) (by omega)
  have hle := at_mono fns hn'
  refine ⟨outcome_le hle.statement mode _ h1, outcome_le ?_ mode _ h2, outcome_le ?_ mode _ h3,
    outcome_le (parseSQLLoop_le hle mode hn' false) mode _ h4⟩
  · exact mono_parseExpr (r := fun r => r) (fun _ _ h => h) _ _ hle
  · exact mono_parseDataType (r := fun r => r) (fun _ _ h => h) _ _ hle

/-- C20: the outcome does not depend on the budget once it suffices. -/
theorem C20_budget_irrelevant (fns : FloatFns) (mode : Bool) (toks : List Token) (n n' : Nat)
    (hk : KwOK toks) (hn : 3 * toks.length + 3 ≤ n) (hn' : 3 * toks.length + 3 ≤ n') :
    runStatement fns n mode toks = runStatement fns n' mode toks ∧
    runExpr fns n mode toks = runExpr fns n' mode toks ∧
    runDataType fns n mode toks = runDataType fns n' mode toks ∧
    runSQL fns n mode toks = runSQL fns n' mode toks ∧
    runFile fns n mode toks = runFile fns n' mode toks := by
  rw [runFile_eq, runFile_eq]
  rcases Nat.le_total n n' with h | h
  · obtain ⟨h1, h2, h3, h4⟩ := budget_le fns mode toks hk hn h
    exact ⟨h1, h2, h3, h4, h4⟩
  · obtain ⟨h1, h2, h3, h4⟩ := budget_le fns mode toks hk hn' h
    exact ⟨h1.symm, h2.symm, h3.symm, h4.symm, h4.symm⟩

theorem next_kwOK {d : Dialect} {fuel : Nat} {s s' : TState} {w : SQLWord}
    (h : next d fuel s = .tok (.word w) s') : w.keyword = upper w.value := by
  have := next_rel h
  cases this <;> rfl

theorem tokenizeFrom_kwOK {d : Dialect} {keep : Bool} : ∀ {fuel : Nat} {s : TState} {ts : List Token},
    tokenizeFrom d keep fuel s = .ok ts → KwOK ts
  | 0, _, _, h => by cases h
  | fuel + 1, s, ts, h => by
    unfold tokenizeFrom at h
    split at h
    · cases h; intro t ht; simp at ht
    · cases h
    · cases h
    · exact tokenizeFrom_kwOK h
    · rename_i t s' hs
      split at h
      · rename_i ts' hts
        cases h
        intro t' ht' w hw
        rcases List.mem_cons.1 ht' with rfl | ht'
        · unfold scan at hs
          split at hs
          · cases hs
          · cases hs
          · cases hs
          · rename_i hn
            split at hs
            · cases hs
            · cases hs
              subst hw
              exact next_kwOK hn
        · exact tokenizeFrom_kwOK hts t' ht' w hw
      · exact absurd h (by rename_i hne; exact hne _)

/-- C20 for source texts: whatever the tokenizer returns, in whatever dialect, with or without comments, the
parser terminates on it. -/
theorem C20_source (d : Dialect) (keep : Bool) (fuel : Nat) (src : Str) (toks : List Token)
    (ht : tokenize d keep fuel src = .ok toks) (fns : FloatFns) (mode : Bool) (n : Nat)
    (hn : 3 * toks.length + 3 ≤ n) :
    runStatement fns n mode toks ≠ .oof ∧ runExpr fns n mode toks ≠ .oof ∧
    runDataType fns n mode toks ≠ .oof ∧ runSQL fns n mode toks ≠ .oof ∧ runFile fns n mode toks ≠ .oof := by
  have hl := left_le toks
  obtain ⟨h1, h2, h3, h4⟩ := C20_terminates fns mode (newParser toks) n n (Nat.zero_le _)
    (tokenizeFrom_kwOK ht) (by omega) (by omega)
  have ho : ∀ {α : Type} {r : Res PState α}, r ≠ .oof → r.outcome ≠ .oof := by
    intro α r hr
    cases r <;> simp_all [Res.outcome]
  rw [runFile_eq]
  exact ⟨ho h1, ho h2, ho h3, ho h4, ho h4⟩

example : tokenize genericDialect true 100 sampleText = .ok sampleToks ∧ sampleToks.length = 21 ∧
    3 * sampleToks.length + 3 = 66 := by decide +kernel

end Verif
