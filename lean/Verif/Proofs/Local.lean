import Verif.Proofs.Comments
/-
Running a program on a token slice and on an extension of it.
-/
set_option linter.unusedSimpArgs false
namespace Verif

/-- `parseKeywords` asked for a token when there was none left. -/
def PState.kwsAskEnd (mode : Bool) : List Str → PState → Bool
  | [], _ => false
  | k :: ks, s =>
    match s.peek with
    | some t => if t.matchesKw k then PState.kwsAskEnd mode ks (s.next mode).2 else false
    | none => true

/-- Did the run ask for a token when no significant token was left? -/
def P.asksEnd (mode : Bool) : P α → PState → Bool
  | .next k, s => (s.next mode).1.isNone || (k (s.next mode).1).asksEnd mode (s.next mode).2
  | .peek k, s => s.peek.isNone || (k s.peek).asksEnd mode s
  | .prev k, s =>
    match s.prev with
    | none => false
    | some s' => k.asksEnd mode s'
  | .kws ks k, s => s.kwsAskEnd mode ks || (k (s.kws mode ks).1).asksEnd mode (s.kws mode ks).2
  | _, _ => false

def PState.extend (ext : List Token) (s : PState) : PState := { s with toks := s.toks ++ ext }

theorem nextLoop_extend {ts : List Token} {i : Nat} (ext : List Token) (h : (nextLoop ts i).1.isNone = false) :
    nextLoop (ts ++ ext) i = nextLoop ts i := by
  induction ts generalizing i with
  | nil => simp [nextLoop] at h
  | cons t ts ih =>
    simp only [List.cons_append, nextLoop] at h ⊢
    split
    · rfl
    · rename_i hs; rw [if_neg hs] at h; exact ih h

theorem commentLoop_extend {cm : List (Pos × CommentGroup)} {ts before : List Token} {i : Nat} {skip : Bool}
    {groups : List CommentGroup} {m : List Comment} (ext : List Token)
    (h : (commentLoop cm ts before i skip groups m).1.isNone = false) :
    commentLoop cm (ts ++ ext) before i skip groups m = commentLoop cm ts before i skip groups m := by
  induction ts generalizing before i skip groups m with
  | nil => simp [commentLoop] at h
  | cons t ts ih =>
    rcases tok_cases t with ⟨s, h1, -, h2⟩ | ⟨s, h1, -, h2⟩ | ⟨h1, h2, -⟩
    · simp only [List.cons_append, commentLoop, h1] at h ⊢
      split
      · rename_i hc; rw [if_pos hc] at h; exact ih h
      · rename_i hc
        rw [if_neg hc] at h
        split
        · rename_i hc; rw [if_pos hc] at h; exact ih h
        · rename_i hc; rw [if_neg hc] at h; exact ih h
    · simp only [List.cons_append, commentLoop, h1] at h ⊢
      split
      · rename_i hc; rw [if_pos hc] at h; exact ih h
      · rename_i hc
        rw [if_neg hc] at h
        split
        · rename_i hc; rw [if_pos hc] at h; exact ih h
        · rename_i hc; rw [if_neg hc] at h; exact ih h
    · rw [List.cons_append, commentLoop_sig h1, commentLoop_sig h1]

theorem next_extend {mode : Bool} {s : PState} (ext : List Token) (hl : s.idx ≤ s.toks.length)
    (h : (s.next mode).1.isNone = false) :
    (s.extend ext).next mode = ((s.next mode).1, (s.next mode).2.extend ext) := by
  have hd : (s.toks ++ ext).drop s.idx = s.toks.drop s.idx ++ ext := List.drop_append_of_le_length hl
  have ht : (s.toks ++ ext).take s.idx = s.toks.take s.idx := List.take_append_of_le_length hl
  cases mode with
  | true =>
    simp only [PState.next, PState.extend, if_true] at h ⊢
    rw [hd, ht, commentLoop_extend ext h]
  | false =>
    simp only [PState.next, PState.extend, Bool.false_eq_true, if_false] at h ⊢
    rw [hd, nextLoop_extend ext h]

theorem peek_extend {s : PState} (ext : List Token) (hl : s.idx ≤ s.toks.length)
    (h : s.peek.isNone = false) : (s.extend ext).peek = s.peek := by
  have hd : (s.toks ++ ext).drop s.idx = s.toks.drop s.idx ++ ext := List.drop_append_of_le_length hl
  simp only [PState.peek, PState.extend] at h ⊢
  rw [hd, List.find?_append]
  cases he : List.find? Token.sig (List.drop s.idx s.toks) with
  | none => rw [he] at h; simp at h
  | some t => rfl

theorem prev_extend {s : PState} (ext : List Token) (hl : s.idx ≤ s.toks.length) :
    (s.extend ext).prev = s.prev.map (PState.extend ext) := by
  have ht : (s.toks ++ ext).take s.idx = s.toks.take s.idx := List.take_append_of_le_length hl
  simp only [PState.prev, PState.extend]
  rw [ht]
  cases prevLoop (s.toks.take s.idx).reverse s.idx <;> rfl

theorem keywords_extend {mode : Bool} (ext : List Token) : ∀ (ks : List Str) (s : PState) (acc : List Token),
    s.idx ≤ s.toks.length → s.kwsAskEnd mode ks = false →
    PState.keywords mode ks (s.extend ext) acc =
      ((PState.keywords mode ks s acc).1, (PState.keywords mode ks s acc).2.extend ext)
  | [], s, acc, _, _ => rfl
  | k :: ks, s, acc, hl, h => by
    have hp := peek_view s
    rw [PState.kwsAskEnd] at h
    rw [PState.keywords, PState.keywords]
    cases hpk : s.peek with
    | none => rw [hpk] at h; simp at h
    | some t =>
      rw [hpk] at h
      rw [peek_extend ext hl (by rw [hpk]; rfl), hpk]
      simp only at h ⊢
      by_cases hm : t.matchesKw k = true
      · rw [if_pos hm] at h
        rw [if_pos hm, if_pos hm]
        have hn : (s.next mode).1.isNone = false := by
          rcases next_view mode s with ⟨h1, h2, -⟩ | ⟨t', rest, h1, h2, -⟩
          · rw [hp, h1] at hpk; simp at hpk
          · rw [h2]; rfl
        rw [next_extend ext hl hn]
        exact keywords_extend ext ks (s.next mode).2 (t :: acc) (next_idx_le mode s hl) h
      · rw [if_neg hm, if_neg hm]

theorem kws_extend {mode : Bool} (ext : List Token) (ks : List Str) (s : PState)
    (hl : s.idx ≤ s.toks.length) (h : s.kwsAskEnd mode ks = false) :
    (s.extend ext).kws mode ks = ((s.kws mode ks).1, (s.kws mode ks).2.extend ext) := by
  have := keywords_extend (mode := mode) ext ks s [] hl h
  unfold PState.kws
  rw [this]
  rcases PState.keywords mode ks s [] with ⟨r, s'⟩
  cases r <;> rfl

/-- A run that does not ask beyond the end is the same on every extension of the token slice. -/
theorem run_extend (mode : Bool) (ext : List Token) : ∀ (p : P α) (s : PState), s.idx ≤ s.toks.length →
    p.asksEnd mode s = false →
    p.run mode (s.extend ext) = (p.run mode s).mapState (PState.extend ext)
  | .ret a, s, _, _ => rfl
  | .err, _, _, _ => by simp [P.run, Res.mapState]
  | .panic, _, _, _ => by simp [P.run, Res.mapState]
  | .oof, _, _, _ => by simp [P.run, Res.mapState]
  | .next k, s, hl, h => by
    simp only [P.asksEnd, Bool.or_eq_false_iff] at h
    rw [P.run, P.run, next_extend ext hl h.1]
    exact run_extend mode ext _ _ (next_idx_le mode s hl) h.2
  | .peek k, s, hl, h => by
    simp only [P.asksEnd, Bool.or_eq_false_iff] at h
    rw [P.run, P.run, peek_extend ext hl h.1]
    exact run_extend mode ext _ _ hl h.2
  | .prev k, s, hl, h => by
    rw [P.asksEnd] at h
    rw [P.run, P.run, prev_extend ext hl]
    rcases prev_view s hl with ⟨-, h2⟩ | ⟨t, rest, s'', -, h2, -, -, h5, h6, -⟩
    · rw [h2]; rfl
    · rw [h2] at h ⊢
      exact run_extend mode ext k s'' (by rw [h6]; omega) h
  | .kws ks k, s, hl, h => by
    simp only [P.asksEnd, Bool.or_eq_false_iff] at h
    rw [P.run, P.run, kws_extend ext ks s hl h.1]
    have hv := kws_view mode ks s hl
    exact run_extend mode ext _ _ (by rw [hv.1]; exact hv.2.1) h.2

end Verif
