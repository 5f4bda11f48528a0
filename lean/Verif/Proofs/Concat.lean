import Verif.Proofs.Tokenize
import Verif.Spec.Concat
/-
The tokenizer on two texts, one behind the other, for C74.
-/
namespace Verif
open Spec

/-! ### More text behind -/

theorem takeComment_step {n : Char} {cs : List Char} (h : n = '\r' → cs.head? ≠ some '\n') (closing : Bool)
    (acc : List Char) (line col : Nat) :
    takeComment (n :: cs) closing acc line col =
      if closing ∧ n = '/' then
        .ok (acc.reverse, ⟨cs, if n = '\r' ∨ n = '\n' then line + 1 else line, if n = '\r' ∨ n = '\n' then 1 else col + 1⟩)
      else if n = '*' then takeComment cs true (if closing then n :: acc else acc)
        (if n = '\r' ∨ n = '\n' then line + 1 else line) (if n = '\r' ∨ n = '\n' then 1 else col + 1)
      else takeComment cs false (n :: if closing then n :: acc else acc)
        (if n = '\r' ∨ n = '\n' then line + 1 else line) (if n = '\r' ∨ n = '\n' then 1 else col + 1) := by
  rw [takeComment]
  · by_cases hn : n = '\r' ∨ n = '\n' <;> simp [hn]
  · rintro cs' rfl rfl
    exact h rfl rfl

theorem takeComment_more (b : List Char) : ∀ (k : Nat) (cs : List Char), cs.length ≤ k →
    ∀ (closing : Bool) (acc : List Char) (line col : Nat) (str r : Str) (l c : Nat),
    takeComment cs closing acc line col = .ok (str, ⟨r, l, c⟩) →
    takeComment (cs ++ b) closing acc line col = .ok (str, ⟨r ++ b, l, c⟩) := by
  intro k
  induction k with
  | zero =>
    intro cs hk closing acc line col str r l c h
    cases cs with
    | nil => simp [takeComment] at h
    | cons => simp at hk
  | succ k ih =>
    intro cs hk closing acc line col str r l c h
    match cs with
    | [] => simp [takeComment] at h
    | n :: cs =>
      by_cases hn : n = '\r' ∧ cs.head? = some '\n'
      · obtain ⟨rfl, hc⟩ := hn
        obtain ⟨cs, rfl⟩ := head?_eq_some hc
        simp only [List.cons_append, takeComment] at h ⊢
        exact ih cs (by simp at hk; omega) _ _ _ _ _ _ _ _ h
      · cases cs with
        | nil =>
          rw [takeComment_step (by simp)] at h
          rw [List.cons_append, takeComment_step]
          · split at h
            · rename_i hc
              rw [if_pos hc]
              simp only [Except.ok.injEq, Prod.mk.injEq, TState.mk.injEq] at h ⊢
              obtain ⟨h1, rfl, h3⟩ := h
              exact ⟨h1, rfl, h3⟩
            · split at h <;> simp [takeComment] at h
          · rintro rfl
            simp [takeComment] at h
        | cons x cs =>
          have hn' : n = '\r' → (x :: cs).head? ≠ some '\n' := fun h1 h2 => hn ⟨h1, h2⟩
          rw [takeComment_step hn'] at h
          rw [List.cons_append, takeComment_step (by simpa using hn')]
          split at h
          · rename_i hc
            rw [if_pos hc]
            simp only [Except.ok.injEq, Prod.mk.injEq, TState.mk.injEq] at h ⊢
            obtain ⟨h1, rfl, h3⟩ := h
            exact ⟨h1, rfl, h3⟩
          · rename_i hc
            rw [if_neg hc]
            split at h
            · rename_i hs
              rw [if_pos hs]
              exact ih _ (by simp at hk ⊢; omega) _ _ _ _ _ _ _ _ h
            · rename_i hs
              rw [if_neg hs]
              exact ih _ (by simp at hk ⊢; omega) _ _ _ _ _ _ _ _ h

/-- A text behind a token that it does not continue. -/
theorem NextRel.more {d : Dialect} {s s' : TState} {t : Tok} (h : NextRel d s t s') (b : Str)
    (hb : s'.rest = [] → Stops d t s.rest b.head?) :
    NextRel d { s with rest := s.rest ++ b } t { s' with rest := s'.rest ++ b } := by
  have head : ∀ (r : Str) (P : Option Char → Prop), P r.head? → (r = [] → P b.head?) → P (r ++ b).head? := by
    intro r P h1 h2
    cases r with
    | nil => exact h2 rfl
    | cons x r => exact h1
  cases h with
  | space cs l c => exact .space _ l c
  | tab cs l c => exact .tab _ l c
  | lf cs l c => exact .lf _ l c
  | cr cs l c h =>
    refine .cr _ l c (head cs (· ≠ some '\n') h fun h0 => ?_)
    exact hb h0 (by simp [h0])
  | crlf cs l c => exact .crlf _ l c
  | national s r l c h =>
    have := NextRel.national (d := d) s (r ++ b) l c (head r (· ≠ some '\'') h hb)
    simpa using this
  | single s r l c h =>
    have := NextRel.single (d := d) s (r ++ b) l c (head r (· ≠ some '\'') h hb)
    simpa using this
  | word x w r l c h1 h2 h3 h4 h5 h6 h7 =>
    have := NextRel.word (d := d) x w (r ++ b) l c h1 h2 h3 h4 h5 (fun hx => by
      cases w with
      | nil => exact head r (· ≠ some '\'') (h6 hx) fun h0 => (hb h0).2 (by rw [hx])
      | cons y w => simpa using h6 hx) (head r (fun o => ∀ y, o = some y → d.isIdentPart y = false) h7 fun h0 => (hb h0).1)
    simpa using this
  | delim q w r l c h1 h2 h3 h4 h5 h6 h7 =>
    have := NextRel.delim (d := d) q w (r ++ b) l c h1 h2 h3 h4 h5 h6 h7
    simpa using this
  | number x w r l c h1 h2 h3 h4 h5 h6 =>
    have := NextRel.number (d := d) x w (r ++ b) l c h1 h2 h3 h4 h5
      (head r (fun o => ∀ y, o = some y → isDigit y = false ∧ y ≠ '.') h6 hb)
    simpa using this
  | line w r l c h1 h2 =>
    have := NextRel.line (d := d) w (r ++ b) l c h1 (head r (fun o => ∀ y, o = some y → y = '\n') h2 fun h0 y hy => by
      rcases hb h0 with h | h | h
      · simp at h
      · rw [h] at hy; cases hy
      · rw [h] at hy; cases hy; rfl)
    simpa using this
  | block cs str s' l c h =>
    obtain ⟨r, l', c'⟩ := s'
    exact .block _ _ _ l c (takeComment_more b _ cs (Nat.le_refl _) _ _ _ _ _ _ _ _ h)
  | sym k text r l c h h2 =>
    have := NextRel.sym (d := d) k text (r ++ b) l c h (head r (fun o => SymEnds text o) h2 hb)
    simpa using this
  | char x r l c h1 h2 h3 h4 h5 =>
    exact .char x (r ++ b) l c h1 h2 h3 h4 h5

theorem Scans.rest_le {d : Dialect} {s s' : TState} {ts : List Token} (h : Scans d s ts s') :
    s'.rest.length ≤ s.rest.length := by
  induction h with
  | refl => exact Nat.le_refl _
  | step h1 _ ih => exact Nat.le_trans ih (Nat.le_of_lt h1.length_lt)

/-- Text behind a part of a text that has not been read to its end. -/
theorem Scans.more {d : Dialect} {s s' : TState} {ts : List Token} (h : Scans d s ts s') (b : Str) (hr : s'.rest ≠ []) :
    Scans d { s with rest := s.rest ++ b } ts { s' with rest := s'.rest ++ b } := by
  induction h with
  | refl s => exact .refl _
  | step h1 h2 ih =>
    have := Scans.step (h1.more b fun h0 => ?_) (ih hr)
    · exact this
    · have := h2.rest_le
      rw [h0] at this
      exact absurd (List.length_eq_zero_iff.1 (by simpa using this)) hr

theorem Scans.trans {d : Dialect} {s s' s'' : TState} {ts us : List Token} (h : Scans d s ts s') (h' : Scans d s' us s'') :
    Scans d s (ts ++ us) s'' := by
  induction h with
  | refl => exact h'
  | step h1 _ ih => exact .step h1 (ih h')

/-- The last token of a run. -/
theorem Scans.last {d : Dialect} {s s' : TState} {ts : List Token} (h : Scans d s ts s') :
    (ts = [] ∧ s = s') ∨ ∃ us t s1, ts = us ++ [⟨t, s1.pos, s'.pos⟩] ∧ Scans d s us s1 ∧ NextRel d s1 t s' := by
  induction h with
  | refl => exact .inl ⟨rfl, rfl⟩
  | @step s t s1 ts s2 h1 h2 ih =>
    right
    rcases ih with ⟨rfl, rfl⟩ | ⟨us, t', s3, rfl, h3, h4⟩
    · exact ⟨[], t, s, rfl, .refl _, h1⟩
    · exact ⟨_, t', s3, rfl, .step h1 h3, h4⟩

/-! ### Another starting position -/

def TState.shift (o : Pos) (s : TState) : TState := ⟨s.rest, (Pos.shift o s.pos).line, (Pos.shift o s.pos).col⟩

theorem shift_col (o : Pos) (l c n : Nat) :
    (Pos.shift o ⟨l, c + n⟩) = ⟨(Pos.shift o ⟨l, c⟩).line, (Pos.shift o ⟨l, c⟩).col + n⟩ := by
  unfold Pos.shift
  by_cases hl : l = 1 <;> simp [hl]
  omega

theorem shift_line (o : Pos) (l c : Nat) (hl : 1 ≤ l) :
    Pos.shift o ⟨l + 1, 1⟩ = ⟨(Pos.shift o ⟨l, c⟩).line + 1, 1⟩ := by
  unfold Pos.shift
  simp
  refine ⟨by omega, fun h => by omega⟩

theorem takeComment_shift (o : Pos) : ∀ (k : Nat) (cs : List Char), cs.length ≤ k →
    ∀ (closing : Bool) (acc : List Char) (line col : Nat) (str r : Str) (l c : Nat), 1 ≤ line →
    takeComment cs closing acc line col = .ok (str, ⟨r, l, c⟩) →
    1 ≤ l ∧ takeComment cs closing acc (Pos.shift o ⟨line, col⟩).line (Pos.shift o ⟨line, col⟩).col =
      .ok (str, ⟨r, (Pos.shift o ⟨l, c⟩).line, (Pos.shift o ⟨l, c⟩).col⟩) := by
  intro k
  induction k with
  | zero =>
    intro cs hk closing acc line col str r l c hl h
    cases cs with
    | nil => simp [takeComment] at h
    | cons => simp at hk
  | succ k ih =>
    intro cs hk closing acc line col str r l c hl h
    match cs with
    | [] => simp [takeComment] at h
    | n :: cs =>
      by_cases hn : n = '\r' ∧ cs.head? = some '\n'
      · obtain ⟨rfl, hc⟩ := hn
        obtain ⟨cs, rfl⟩ := head?_eq_some hc
        simp only [takeComment] at h ⊢
        have := ih cs (by simp at hk; omega) _ _ _ _ _ _ _ _ (by omega) h
        rw [shift_line o line col hl] at this
        exact this
      · have hn' : n = '\r' → cs.head? ≠ some '\n' := fun h1 h2 => hn ⟨h1, h2⟩
        rw [takeComment_step hn'] at h ⊢
        have key : Pos.shift o ⟨if n = '\r' ∨ n = '\n' then line + 1 else line, if n = '\r' ∨ n = '\n' then 1 else col + 1⟩ =
            ⟨if n = '\r' ∨ n = '\n' then (Pos.shift o ⟨line, col⟩).line + 1 else (Pos.shift o ⟨line, col⟩).line,
             if n = '\r' ∨ n = '\n' then 1 else (Pos.shift o ⟨line, col⟩).col + 1⟩ := by
          by_cases hx : n = '\r' ∨ n = '\n'
          · simp only [hx, if_true]; exact shift_line o line col hl
          · simp only [hx, if_false]; exact shift_col o line col 1
        have hline : 1 ≤ if n = '\r' ∨ n = '\n' then line + 1 else line := by split <;> omega
        split at h
        · rename_i hc
          rw [if_pos hc]
          simp only [Except.ok.injEq, Prod.mk.injEq, TState.mk.injEq] at h ⊢
          obtain ⟨h1, rfl, rfl, rfl⟩ := h
          rw [key]
          exact ⟨hline, h1, rfl, rfl, rfl⟩
        · rename_i hc
          rw [if_neg hc]
          split at h
          · rename_i hs
            rw [if_pos hs]
            have := ih _ (by simp at hk ⊢; omega) _ _ _ _ _ _ _ _ hline h
            rw [key] at this
            exact this
          · rename_i hs
            rw [if_neg hs]
            have := ih _ (by simp at hk ⊢; omega) _ _ _ _ _ _ _ _ hline h
            rw [key] at this
            exact this

theorem NextRel.shift {d : Dialect} {s s' : TState} {t : Tok} (o : Pos) (h : NextRel d s t s') (hl : 1 ≤ s.line) :
    1 ≤ s'.line ∧ NextRel d (s.shift o) t (s'.shift o) := by
  cases h with
  | block cs str s' l c h =>
    obtain ⟨r, l', c'⟩ := s'
    obtain ⟨h1, h2⟩ := takeComment_shift o _ cs (Nat.le_refl _) _ _ _ _ _ _ _ _ hl h
    rw [shift_col] at h2
    exact ⟨h1, .block _ _ _ _ _ h2⟩
  | lf cs l c =>
    refine ⟨Nat.le_add_left _ _, ?_⟩
    simp only [TState.shift, TState.pos, shift_line o l c hl]
    exact .lf _ _ _
  | cr cs l c h =>
    refine ⟨Nat.le_add_left _ _, ?_⟩
    simp only [TState.shift, TState.pos, shift_line o l c hl]
    exact .cr _ _ _ h
  | crlf cs l c =>
    refine ⟨Nat.le_add_left _ _, ?_⟩
    simp only [TState.shift, TState.pos, shift_line o l c hl]
    exact .crlf _ _ _
  | national s r l c h =>
    refine ⟨hl, ?_⟩
    simp only [TState.shift, TState.pos, shift_col]
    exact .national _ _ _ _ h
  | single s r l c h => refine ⟨hl, ?_⟩; simp only [TState.shift, TState.pos, shift_col]; exact .single _ _ _ _ h
  | word x w r l c h1 h2 h3 h4 h5 h6 h7 =>
    refine ⟨hl, ?_⟩; simp only [TState.shift, TState.pos, shift_col]; exact .word _ _ _ _ _ h1 h2 h3 h4 h5 h6 h7
  | delim q w r l c h1 h2 h3 h4 h5 h6 h7 =>
    refine ⟨hl, ?_⟩; simp only [TState.shift, TState.pos, shift_col]; exact .delim _ _ _ _ _ h1 h2 h3 h4 h5 h6 h7
  | number x w r l c h1 h2 h3 h4 h5 h6 =>
    refine ⟨hl, ?_⟩; simp only [TState.shift, TState.pos, shift_col]; exact .number _ _ _ _ _ h1 h2 h3 h4 h5 h6
  | line w r l c h1 h2 => refine ⟨hl, ?_⟩; simp only [TState.shift, TState.pos, shift_col]; exact .line _ _ _ _ h1 h2
  | sym k text r l c h h2 => refine ⟨hl, ?_⟩; simp only [TState.shift, TState.pos, shift_col]; exact .sym _ _ _ _ _ h h2
  | char x r l c h1 h2 h3 h4 h5 =>
    refine ⟨hl, ?_⟩; simp only [TState.shift, TState.pos, shift_col]; exact .char _ _ _ _ h1 h2 h3 h4 h5
  | space cs l c => refine ⟨hl, ?_⟩; simp only [TState.shift, TState.pos, shift_col]; exact .space _ _ _
  | tab cs l c => refine ⟨hl, ?_⟩; simp only [TState.shift, TState.pos, shift_col]; exact .tab _ _ _

theorem Scans.shift {d : Dialect} {s s' : TState} {ts : List Token} (o : Pos) (h : Scans d s ts s') (hl : 1 ≤ s.line) :
    Scans d (s.shift o) (ts.map (Token.shift o)) (s'.shift o) := by
  induction h with
  | refl => exact .refl _
  | step h1 _ ih =>
    obtain ⟨h2, h3⟩ := h1.shift o hl
    exact .step h3 (ih h2)

/-- The outcome with all positions shifted. -/
def TokRes.shift (o : Pos) : TokRes → TokRes
  | .ok ts => .ok (ts.map (Token.shift o))
  | .err e => .err e
  | .loop => .loop

theorem filterTok_shift (keep : Bool) (o : Pos) (ts : List Token) :
    filterTok keep (ts.map (Token.shift o)) = (filterTok keep ts).map (Token.shift o) := by
  cases keep
  · simp only [filterTok, Bool.false_eq_true, if_false, List.filter_map]; rfl
  · rfl

theorem filterTok_append (keep : Bool) (ts us : List Token) :
    filterTok keep (ts ++ us) = filterTok keep ts ++ filterTok keep us := by cases keep <;> simp [filterTok]

theorem takeComment_col_pos : ∀ (k : Nat) (cs : List Char), cs.length ≤ k →
    ∀ (closing : Bool) (acc : List Char) (line col : Nat) (str r : Str) (l c : Nat),
    takeComment cs closing acc line col = .ok (str, ⟨r, l, c⟩) → 1 ≤ c := by
  intro k
  induction k with
  | zero =>
    intro cs hk closing acc line col str r l c h
    cases cs with
    | nil => simp [takeComment] at h
    | cons => simp at hk
  | succ k ih =>
    intro cs hk closing acc line col str r l c h
    match cs with
    | [] => simp [takeComment] at h
    | n :: cs =>
      by_cases hn : n = '\r' ∧ cs.head? = some '\n'
      · obtain ⟨rfl, hc⟩ := hn
        obtain ⟨cs, rfl⟩ := head?_eq_some hc
        simp only [takeComment] at h
        exact ih cs (by simp at hk; omega) _ _ _ _ _ _ _ _ h
      · rw [takeComment_step fun h1 h2 => hn ⟨h1, h2⟩] at h
        split at h
        · simp only [Except.ok.injEq, Prod.mk.injEq, TState.mk.injEq] at h
          obtain ⟨-, -, -, rfl⟩ := h
          split <;> omega
        · split at h <;> exact ih _ (by simp at hk; omega) _ _ _ _ _ _ _ _ h

theorem NextRel.start {d : Dialect} {s s' : TState} {t : Tok} (h : NextRel d s t s') (hl : 1 ≤ s.line) (hc : 1 ≤ s.col) :
    1 ≤ s'.line ∧ 1 ≤ s'.col := by
  refine ⟨(h.shift ⟨1, 1⟩ hl).1, ?_⟩
  cases h with
  | block cs str s' l c h =>
    obtain ⟨r, l', c'⟩ := s'
    exact takeComment_col_pos _ _ (Nat.le_refl _) _ _ _ _ _ _ _ _ h
  | _ => first | exact Nat.le_refl _ | (simp only at hc ⊢; omega)

theorem Scans.start {d : Dialect} {s s' : TState} {ts : List Token} (h : Scans d s ts s') (hl : 1 ≤ s.line) (hc : 1 ≤ s.col) :
    1 ≤ s'.line ∧ 1 ≤ s'.col := by
  induction h with
  | refl => exact ⟨hl, hc⟩
  | step h1 _ ih =>
    obtain ⟨h2, h3⟩ := h1.start hl hc
    exact ih h2 h3

/-- The tokenizer on a text that begins elsewhere. -/
theorem tokenizeFrom_shift {d : Dialect} (hd : Sane d) (keep : Bool) (o : Pos) {b : Str} {f f' : Nat} (hf : b.length < f)
    (hf' : b.length < f') (ho : 1 ≤ o.line) (ho' : 1 ≤ o.col) :
    tokenizeFrom d keep f' ⟨b, o.line, o.col⟩ = (tokenize d keep f b).shift o := by
  obtain ⟨all, s', h1, h2⟩ := exists_scans (d := d) b.length ⟨b, 1, 1⟩ (Nat.le_refl _)
  have h3 := h1.shift o (Nat.le_refl _)
  have e : TState.shift o ⟨b, 1, 1⟩ = ⟨b, o.line, o.col⟩ := by
    simp only [TState.shift, TState.pos, Pos.shift, if_pos, TState.mk.injEq, true_and]
    omega
  rw [e] at h3
  obtain ⟨g, hg, e1⟩ := tokenizeFrom_scans hd keep h1 hf
  obtain ⟨g', hg', e2⟩ := tokenizeFrom_scans hd keep h3 (fuel := f') hf'
  unfold tokenize
  rw [e1, e2, filterTok_shift]
  have hr : (s'.shift o).rest = s'.rest := rfl
  rcases h2 with h2 | ⟨x, h2⟩ | h2
  · rw [tokenizeFrom_eof keep (by omega) h2, tokenizeFrom_eof keep (by omega) (hr.trans h2)]
    simp [TokRes.prepend, TokRes.shift]
  · rw [tokenizeFrom_broken hd keep (by omega) h2, tokenizeFrom_broken (s := s'.shift o) hd keep (by omega) h2]
    rfl
  · rw [tokenizeFrom_open hd keep _ h2, tokenizeFrom_open (s := s'.shift o) hd keep _ h2]
    rfl

end Verif
