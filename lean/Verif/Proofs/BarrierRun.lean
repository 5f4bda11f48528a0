import Verif.Proofs.Barrier
import Verif.Proofs.Script
/-
From runs on significant tokens to runs of the parser: going back too far, and asking beyond the end.
-/
set_option linter.unusedVariables false
namespace Verif

theorem kwsAskEnd_false (mode : Bool) : ∀ (ks : List Str) (s : PState), s.idx ≤ s.toks.length →
    (∃ t ∈ s.after, t.word? = none) → s.kwsAskEnd mode ks = false
  | [], _, _, _ => rfl
  | k :: ks, s, hl, ⟨t, ht, hw⟩ => by
    rw [PState.kwsAskEnd, peek_view]
    rcases next_view mode s with ⟨h1, h2, h3, h4⟩ | ⟨t', rest, h1, h2, h3, h4⟩
    · rw [h1] at ht; simp at ht
    · rw [h1]
      simp only [List.head?_cons]
      split
      · rename_i hm
        refine kwsAskEnd_false mode ks _ (next_idx_le mode s hl) ⟨t, ?_, hw⟩
        rw [h4]
        rw [h1] at ht
        rcases List.mem_cons.1 ht with rfl | ht
        · unfold Token.matchesKw at hm; unfold Token.word? at hw
          split at hm <;> simp_all
        · exact ht
      · rfl

theorem within_state (mode : Bool) {T : List Token} {lo L : Nat} {d : Bool} (E : Rim T L d) : ∀ (p : P α) (s : PState) (i : Nat),
    i ≤ T.length → s.idx ≤ s.toks.length → s.before = (T.take i).reverse → s.after = T.drop i →
    p.within T lo L d i →
    p.backsOut mode s = false ∧ (d = true → p.asksEnd mode s = false)
  | .ret _, _, _, _, _, _, _, _ => ⟨rfl, fun _ => rfl⟩
  | .err, _, _, _, _, _, _, _ => ⟨rfl, fun _ => rfl⟩
  | .panic, _, _, _, _, _, _, _ => ⟨rfl, fun _ => rfl⟩
  | .oof, _, _, _, _, _, _, _ => ⟨rfl, fun _ => rfl⟩
  | .next k, s, i, hi, hl, hb, ha, hw => by
    simp only [P.within] at hw
    obtain ⟨h0, hw⟩ := hw
    rw [P.backsOut, P.asksEnd]
    have hle := next_idx_le mode s hl
    rcases next_view mode s with ⟨h1, h2, h3, h4⟩ | ⟨t, rest, h1, h2, h3, h4⟩
    · rw [ha] at h1
      have hge : T.length ≤ i := List.drop_eq_nil_iff.1 h1
      rw [List.getElem?_eq_none hge] at hw
      have ih := within_state mode E (k none) (s.next mode).2 i hi hle (by rw [h3, hb]) (by rw [h4, h1]) hw
      rw [h2]
      refine ⟨ih.1, fun hd => ?_⟩
      obtain ⟨sx, f, g, hs⟩ := E.semi hd
      have hlt := (List.getElem?_eq_some_iff.1 hs).1
      have := h0 hd
      omega
    · rw [ha] at h1
      have hlt : i < T.length := by
        rcases Nat.lt_or_ge i T.length with h | h
        · exact h
        · rw [List.drop_eq_nil_of_le h] at h1; cases h1
      rw [List.drop_eq_getElem_cons hlt] at h1
      cases h1
      rw [List.getElem?_eq_getElem hlt] at hw
      have htk : T.take (i + 1) = T.take i ++ [T[i]] := by rw [List.take_add_one]; simp [hlt]
      have ih := within_state mode E (k (some T[i])) (s.next mode).2 (i + 1) hlt hle
        (by rw [h3, hb, htk, List.reverse_append]; rfl) h4 hw
      rw [h2]
      simp only [Option.isNone_some, Bool.false_or]
      exact ih
  | .peek k, s, i, hi, hl, hb, ha, hw => by
    simp only [P.within] at hw
    obtain ⟨h0, hw⟩ := hw
    rw [P.backsOut, P.asksEnd, peek_view, ha, List.head?_drop]
    have ih := within_state mode E _ s i hi hl hb ha hw
    refine ⟨ih.1, fun hd => ?_⟩
    obtain ⟨sx, f, g, hs⟩ := E.semi hd
    have hlt := (List.getElem?_eq_some_iff.1 hs).1
    have := h0 hd
    rw [ih.2 hd, List.getElem?_eq_getElem (by omega)]
    rfl
  | .prev k, s, i, hi, hl, hb, ha, hw => by
    simp only [P.within] at hw
    obtain ⟨h0, hw⟩ := hw
    rw [P.backsOut, P.asksEnd]
    obtain ⟨i, rfl⟩ : ∃ j, i = j + 1 := ⟨i - 1, by omega⟩
    have hlt : i < T.length := hi
    have htk : (T.take (i + 1)).reverse = T[i] :: (T.take i).reverse := by rw [List.take_add_one]; simp [hlt]
    rcases prev_view s hl with ⟨h1, h2⟩ | ⟨t, rest, s', h1, h2, h3, h4, h5, h6, -, -⟩
    · rw [hb, htk] at h1; cases h1
    · rw [hb, htk] at h1
      cases h1
      rw [h2]
      exact within_state mode E k s' i (by omega) (by rw [h6]; omega) h3
        (by rw [h4, ha, List.drop_eq_getElem_cons hlt]) hw
  | .kws ks k, s, i, hi, hl, hb, ha, hw => by
    simp only [P.within] at hw
    obtain ⟨h0, hw⟩ := hw
    rw [P.backsOut, P.asksEnd]
    have hv := kws_view mode ks s hl
    have hask : d = true → s.kwsAskEnd mode ks = false := by
      intro hd
      obtain ⟨sx, f, g, hs⟩ := E.semi hd
      have := h0 hd
      refine kwsAskEnd_false mode ks s hl ⟨⟨.sym .Semicolon sx, f, g⟩, ?_, rfl⟩
      rw [ha]
      apply List.mem_of_getElem? (i := L - i)
      rw [List.getElem?_drop, show i + (L - i) = L by omega, hs]
    rw [ha] at hv
    have hle : (s.kws mode ks).2.idx ≤ (s.kws mode ks).2.toks.length := by rw [hv.1]; exact hv.2.1
    cases htk : takeKws ks (T.drop i) with
    | none =>
      rw [htk] at hv hw
      obtain ⟨-, -, h3, h4, h5⟩ := hv
      rw [h3]
      have ih := within_state mode E (k none) _ i hi hle (by rw [h4, hb]) h5 hw
      exact ⟨ih.1, fun hd => by rw [hask hd, ih.2 hd]; rfl⟩
    | some r =>
      obtain ⟨ts, s'⟩ := r
      rw [htk] at hv hw
      obtain ⟨-, -, h3, h4, h5⟩ := hv
      have h := (takeKws_append htk).1
      have hll := congrArg List.length h
      simp at hll
      have h1 : T.drop (i + ts.length) = s' := by rw [← List.drop_drop, h]; simp
      have h2 : T.take (i + ts.length) = T.take i ++ ts := by rw [List.take_add, h]; simp
      rw [h3]
      have ih := within_state mode E (k (some ts)) _ (i + ts.length) (by omega) hle
        (by rw [h4, hb, h2]; simp) (by rw [h5, h1]) hw
      exact ⟨ih.1, fun hd => by rw [hask hd, ih.2 hd]; rfl⟩

theorem bw_consumeToken_open {T : List Token} {lo L i : Nat} {k : Sym} {Q : Bool → Nat → Prop} (E : Rim T L false)
    (hi : i ≤ L) (h1 : i + 1 ≤ L → Q true (i + 1)) (h2 : Q false i) : bw T lo L false (consumeToken k) i Q := by
  have hL := E.open_ rfl
  unfold consumeToken
  refine bw_bind ⟨⟨fun h => (by cases h), trivial⟩, ?_⟩
  show bw T lo L false (match T[i]? with | none => _ | some t => _) i Q
  cases ht : T[i]? with
  | none => exact bw_ret h2
  | some t =>
    have hlt := (List.getElem?_eq_some_iff.1 ht).1
    simp only
    split
    · refine bw_bind (bw_nextOrErr E hi ?_ ?_)
      · intro _ _ h; exact bw_ret (h1 h)
      · intro _ _ _ _ _; exact bw_ret (h1 (by omega))
    · exact bw_ret h2

theorem bar_parseSQLLoop {T : List Token} {lo L : Nat} {r : Parsers} (E : Rim T L false) (H : Bar T lo L false r)
    (mode : Bool) : ∀ (m : Nat) (e : Bool) (i : Nat), i ≤ L → lo ≤ i →
    bw T lo L false (parseSQLLoop mode r m e) i fun _ j => i ≤ j ∧ j ≤ L
  | 0, _, _, _, _ => bw_oof
  | m + 1, e, i, hi, hlo => by
    have hrest : ∀ j, i ≤ j → j ≤ L → bw T lo L false (do
        let s ← r.statement
        let ss ← parseSQLLoop mode r m true
        pure (s :: ss)) j fun _ k => i ≤ k ∧ k ≤ L := by
      intro j hj1 hj2
      refine bw_bind (bw_mono (H.statement j hj2 (by omega)) ?_)
      rintro s k ⟨h1, h2⟩
      refine bw_bind (bw_mono (bar_parseSQLLoop E H mode m true k h2 (by omega)) ?_)
      rintro ss l ⟨h3, h4⟩
      exact bw_ret ⟨by omega, h4⟩
    unfold parseSQLLoop
    have key : ∀ j, i ≤ j → j ≤ L → bw T lo L false (do
        let t ← if mode then nextToken else peekToken
        match t with
        | none => pure []
        | some _ => do
          if mode then prevToken
          let s ← r.statement
          let ss ← parseSQLLoop mode r m true
          pure (s :: ss)) j fun _ k => i ≤ k ∧ k ≤ L := by
      intro j hj1 hj2
      cases mode with
      | false =>
        refine bw_bind (bw_peekToken E hj2 ?_ ?_ ?_)
        · intro t _ _; exact hrest j hj1 hj2
        · intro s f g _ _; exact hrest j hj1 hj2
        · intro _; exact bw_ret ⟨hj1, hj2⟩
      | true =>
        refine bw_bind (bw_nextToken E hj2 ?_ ?_ ?_)
        · intro t _ _
          refine bw_bind (bw_prevToken (by omega) ?_)
          intro k hk
          cases hk
          exact hrest j hj1 hj2
        · intro s f g _ _
          refine bw_bind (bw_prevToken (by omega) ?_)
          intro k hk
          cases hk
          exact hrest j hj1 hj2
        · intro _; exact bw_ret ⟨hj1, hj2⟩
    refine bw_bind (bw_consumeToken_open E hi ?_ ?_)
    · intro hlt
      exact key (i + 1) (by omega) (by omega)
    · cases e with
      | true => exact bw_err
      | false => exact key i (Nat.le_refl _) hi

end Verif
