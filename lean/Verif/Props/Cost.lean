import Verif.Proofs.Cost
import Verif.Props.Termination
/-
Property theorem C56: the parser does linear work.

The parser backtracks: it steps back over tokens it has read (`prevToken`), resets the index after a failed
`parseKeywords`, and looks ahead before it decides.  C56 says that all this happens a bounded number of times
per token: no text makes the parser read the same tokens over and over again, whether it is accepted or not.
`P.ops` of Spec/Cost.lean counts the calls; the constants are upper bounds, not exact.
-/
namespace Verif

theorem wpc_ops {p : P α} {Q : α → Nat → Nat → Prop} {s : PState} {B : Nat} (hs : s.idx ≤ s.toks.length)
    (h : wpc (s.toks.filter Token.sig) B p ((s.toks.take s.idx).filter Token.sig).length 0 Q) (mode : Bool)
    (hQ : ∀ x j d, Q x j d → d ≤ B) : p.ops mode s ≤ B := by
  have hT : s.toks.filter Token.sig =
      (s.toks.take s.idx).filter Token.sig ++ (s.toks.drop s.idx).filter Token.sig := by
    rw [← List.filter_append, List.take_append_drop]
  have h2 := opsZ_opsI (s.toks.filter Token.sig) p ((s.toks.take s.idx).filter Token.sig).length
    (by rw [hT]; simp)
  rw [hT, List.take_left, List.drop_left] at h2
  rw [← hT] at h2
  rw [ops_view mode p s hs]
  simp only [PState.before, PState.after]
  rw [h2]
  unfold wpc at h
  split at h
  · have := hQ _ _ _ h; omega
  · omega

/-- C56: wherever a parser stands in a token list whose words carry the keyword the tokenizer gives them,
`ParseStatement`, `ParseExpr`, `ParseDataType` and `ParseSQL` make no more than 200 cursor operations for
every significant token left, and 150 more, with and without comments, however the run ends. -/
theorem C56_linear (fns : FloatFns) (mode : Bool) (s : PState) (n m : Nat) (hs : s.idx ≤ s.toks.length)
    (hk : KwOK s.toks) :
    (Parsers.at fns n).statement.ops mode s ≤ 200 * s.left + 150 ∧
    (parseExpr (Parsers.at fns n)).ops mode s ≤ 200 * s.left + 150 ∧
    (parseDataType (Parsers.at fns n)).ops mode s ≤ 200 * s.left + 150 ∧
    (parseSQL mode (Parsers.at fns n) m).ops mode s ≤ 200 * s.left + 150 := by
  have H := cost_at fns hk.filter (200 * s.left + 150) n
  have hT : s.toks.filter Token.sig =
      (s.toks.take s.idx).filter Token.sig ++ (s.toks.drop s.idx).filter Token.sig := by
    rw [← List.filter_append, List.take_append_drop]
  have hl : (s.toks.filter Token.sig).length = ((s.toks.take s.idx).filter Token.sig).length + s.left := by
    rw [hT, List.length_append]; rfl
  refine ⟨wpc_ops hs (H.statement _ 0 ?_ ?_) mode ?_, wpc_ops hs (cost_parseExpr H ?_ ?_) mode ?_,
    wpc_ops hs (cost_parseDataType H ?_ ?_) mode ?_,
    wpc_ops hs (cost_parseSQLLoop H mode m false _ 0 ?_ ?_) mode ?_⟩ <;> (try intro _ _ _ _) <;> omega

/-- A run that succeeds has made at least one operation for every token it moved past. -/
theorem opsI_ge (T : List Token) : ∀ (p : P α) (i : Nat) {x : α} {j : Nat}, p.runI T i = .ok x j →
    j ≤ i + p.opsI T i
  | .ret a, i, x, j, h => by simp only [P.runI, Res.ok.injEq] at h; omega
  | .err, _, _, _, h => by cases h
  | .panic, _, _, _, h => by cases h
  | .oof, _, _, _, h => by cases h
  | .next k, i, x, j, h => by
    simp only [P.runI, P.opsI] at h ⊢
    cases ht : T[i]? with
    | none => rw [ht] at h; have := opsI_ge T _ _ h; simp only; omega
    | some t => rw [ht] at h; have := opsI_ge T _ _ h; simp only; omega
  | .peek k, i, x, j, h => by
    simp only [P.runI, P.opsI] at h ⊢
    have := opsI_ge T _ _ h
    omega
  | .prev k, i, x, j, h => by
    simp only [P.runI, P.opsI] at h ⊢
    split at h
    · cases h
    · have := opsI_ge T _ _ h
      rw [if_neg ‹_›]
      omega
  | .kws ks k, i, x, j, h => by
    simp only [P.runI, P.opsI] at h ⊢
    cases htk : takeKws ks (T.drop i) with
    | none => rw [htk] at h; have := opsI_ge T _ _ h; simp only; omega
    | some r =>
      rw [htk] at h
      have h1 := opsI_ge T _ _ h
      have h2 := (takeKws_append htk).2
      simp only at h1 ⊢
      omega

/-- C56, the other way: a program that succeeds has made at least as many cursor operations as it has left
significant tokens behind, so that the linear bound is tight up to its constants. -/
theorem C56_at_least (p : P α) (mode : Bool) (s s' : PState) (x : α) (hs : s.idx ≤ s.toks.length)
    (h : p.run mode s = .ok x s') : s.left ≤ s'.left + p.ops mode s := by
  have hT : s.toks.filter Token.sig =
      (s.toks.take s.idx).filter Token.sig ++ (s.toks.drop s.idx).filter Token.sig := by
    rw [← List.filter_append, List.take_append_drop]
  have hi : ((s.toks.take s.idx).filter Token.sig).length ≤ (s.toks.filter Token.sig).length := by
    rw [hT]; simp
  have h1 := run_view mode p s hs
  have h2 := runZ_runI (s.toks.filter Token.sig) p _ hi
  have h3 := opsZ_opsI (s.toks.filter Token.sig) p _ hi
  rw [hT, List.take_left, List.drop_left] at h2 h3
  rw [← hT] at h2 h3
  rw [ops_view mode p s hs]
  simp only [PState.before, PState.after] at h1 ⊢
  rw [h3]
  rw [h] at h1
  simp only [Res.mapState] at h1
  obtain ⟨h4, h5⟩ := h2
  obtain ⟨j, hj, hb, ha⟩ := h5 _ _ _ h1.symm
  rw [← h1] at h4
  simp only [Res.mapState] at h4
  have h6 := opsI_ge _ _ _ h4.symm
  have hl : (s.toks.filter Token.sig).length = ((s.toks.take s.idx).filter Token.sig).length + s.left := by
    rw [hT, List.length_append]; rfl
  have hl' : s'.left = (s.toks.filter Token.sig).length - j := by
    show ((s'.toks.drop s'.idx).filter Token.sig).length = _
    rw [show (s'.toks.drop s'.idx).filter Token.sig = _ from ha, List.length_drop]
  have hb' : s'.before.length = j := by
    rw [show s'.before = _ from hb]; simp; omega
  simp only [PState.view] at h6
  omega

theorem Scans.length_le {d : Dialect} {s s' : TState} {ts : List Token} (h : Scans d s ts s') :
    ts.length + s'.rest.length ≤ s.rest.length := by
  induction h with
  | refl s => simp
  | step h1 _ ih => have := h1.length_lt; simp only [List.length_cons]; omega

/-- There are no more tokens than characters. -/
theorem tokenize_length_le {d : Dialect} {keep : Bool} {fuel : Nat} {src : Str} {toks : List Token}
    (h : tokenize d keep fuel src = .ok toks) : toks.length ≤ src.length := by
  have hi := tokenizeFrom_inv (d := d) (keep := keep) (fuel := fuel) (s := ⟨src, 1, 1⟩)
  unfold tokenize at h
  rw [h] at hi
  obtain ⟨all, s', h1, -, rfl⟩ := hi
  have h2 := h1.length_le
  simp only at h2
  have h3 : (filterTok keep all).length ≤ all.length := by
    cases keep
    · exact List.length_filter_le ..
    · exact Nat.le_refl _
  omega

/-- C56 for source texts: parsing a text, in whatever dialect, takes no more than 200 cursor operations per
character and 150 more. -/
theorem C56_source (d : Dialect) (keep : Bool) (fuel : Nat) (src : Str) (toks : List Token)
    (ht : tokenize d keep fuel src = .ok toks) (fns : FloatFns) (mode : Bool) (n m : Nat) :
    (Parsers.at fns n).statement.ops mode (newParser toks) ≤ 200 * src.length + 150 ∧
    (parseExpr (Parsers.at fns n)).ops mode (newParser toks) ≤ 200 * src.length + 150 ∧
    (parseDataType (Parsers.at fns n)).ops mode (newParser toks) ≤ 200 * src.length + 150 ∧
    (parseSQL mode (Parsers.at fns n) m).ops mode (newParser toks) ≤ 200 * src.length + 150 := by
  have hl := left_le toks
  have hl' := tokenize_length_le ht
  obtain ⟨h1, h2, h3, h4⟩ := C56_linear fns mode (newParser toks) n m (Nat.zero_le _) (tokenizeFrom_kwOK ht)
  exact ⟨by omega, by omega, by omega, by omega⟩

/-- The sample text of 21 tokens, 5 of them significant, needs 49 operations. -/
example : tokenize genericDialect true 100 sampleText = .ok sampleToks ∧
    (newParser sampleToks).left = 5 ∧
    (parseSQL true (Parsers.at sampleFns 30) 30).ops true (newParser sampleToks) = 49 ∧
    (match (parseSQL true (Parsers.at sampleFns 30) 30).run true (newParser sampleToks) with
      | .ok _ s => s.left == 0
      | _ => false) = true := by decide +kernel

end Verif
