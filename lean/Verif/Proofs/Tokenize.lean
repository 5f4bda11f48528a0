import Verif.Proofs.Scan
/-
From single tokens to token lists.
-/
set_option linter.unusedSimpArgs false

namespace Verif
open Spec

/-- A run of tokens. -/
inductive Scans (d : Dialect) : TState → List Token → TState → Prop
  | refl (s) : Scans d s [] s
  | step {s t s1 ts s2} : NextRel d s t s1 → Scans d s1 ts s2 → Scans d s (⟨t, s.pos, s1.pos⟩ :: ts) s2

def filterTok (keep : Bool) (ts : List Token) : List Token := if keep then ts else ts.filter Token.sig

theorem filterTok_cons (keep : Bool) (t : Token) (ts : List Token) :
    filterTok keep (t :: ts) =
      if !keep && t.tok.insignificant then filterTok keep ts else t :: filterTok keep ts := by
  cases keep <;> cases h : t.tok.insignificant <;> simp [filterTok, Token.sig, h]

theorem NextRel.length_lt {d : Dialect} {s s' : TState} {t : Tok} (h : NextRel d s t s') :
    s'.rest.length < s.rest.length := by
  obtain ⟨p, h1, h2⟩ := h.spells
  have : p ≠ [] := by
    cases h2 <;> simp
    rename_i k hk
    obtain ⟨x, r, rfl, -⟩ := symText_special hk
    simp
  rw [h1]
  simp [List.length_pos_iff, this]

theorem tokenizeFrom_inv {d : Dialect} {keep : Bool} : ∀ {fuel : Nat} {s : TState},
    match tokenizeFrom d keep fuel s with
    | .ok ts => ∃ all s', Scans d s all s' ∧ s'.rest = [] ∧ ts = filterTok keep all
    | .err e => ∃ all s', Scans d s all s' ∧ Broken s'.rest e
    | .loop => s.rest.length < fuel → ∃ all s', Scans d s all s' ∧ OpenDelim d s'.rest := by
  intro fuel
  induction fuel with
  | zero => intro s; simp [tokenizeFrom]
  | succ fuel ih =>
    intro s
    unfold tokenizeFrom scan
    match hn : next d fuel s with
    | .eof => exact ⟨[], s, .refl s, next_eof_inv hn, by cases keep <;> simp [filterTok]⟩
    | .err e s' => exact ⟨[], s, .refl s, next_err_inv hn⟩
    | .loop => intro hf; exact ⟨[], s, .refl s, next_loop_open hn (by omega)⟩
    | .tok t s1 =>
      have hrel := next_rel hn
      have hlt := hrel.length_lt
      have hi := ih (s := s1)
      simp only []
      by_cases hk : (!keep && t.insignificant) = true
      · rw [if_pos hk]
        simp only []
        match hr : tokenizeFrom d keep fuel s1 with
        | .ok ts =>
          rw [hr] at hi
          obtain ⟨all, s', h1, h2, h3⟩ := hi
          exact ⟨_, s', .step hrel h1, h2, by rw [filterTok_cons, if_pos hk, h3]⟩
        | .err e =>
          rw [hr] at hi
          obtain ⟨all, s', h1, h2⟩ := hi
          exact ⟨_, s', .step hrel h1, h2⟩
        | .loop =>
          rw [hr] at hi
          intro hf
          obtain ⟨all, s', h1, h2⟩ := hi (by omega)
          exact ⟨_, s', .step hrel h1, h2⟩
      · rw [if_neg hk]
        simp only []
        match hr : tokenizeFrom d keep fuel s1 with
        | .ok ts =>
          rw [hr] at hi
          obtain ⟨all, s', h1, h2, h3⟩ := hi
          exact ⟨_, s', .step hrel h1, h2, by rw [filterTok_cons, if_neg hk, h3]⟩
        | .err e =>
          rw [hr] at hi
          obtain ⟨all, s', h1, h2⟩ := hi
          exact ⟨_, s', .step hrel h1, h2⟩
        | .loop =>
          rw [hr] at hi
          intro hf
          obtain ⟨all, s', h1, h2⟩ := hi (by omega)
          exact ⟨_, s', .step hrel h1, h2⟩

theorem tokenize_ok_inv {d : Dialect} {keep : Bool} {fuel : Nat} {s : TState} {ts : List Token}
    (h : tokenizeFrom d keep fuel s = .ok ts) :
    ∃ all s', Scans d s all s' ∧ s'.rest = [] ∧ ts = filterTok keep all := by
  have := tokenizeFrom_inv (d := d) (keep := keep) (fuel := fuel) (s := s)
  rw [h] at this; exact this

/-- In a dialect without overlaps the situation determines the result of `next`. -/
theorem NextRel.next {d : Dialect} (hd : Sane d) {s s' : TState} {t : Tok} (h : NextRel d s t s')
    {fuel : Nat} (hf : s.rest.length ≤ fuel) : next d fuel s = .tok t s' := by
  cases h with
  | space cs l c => simp [Verif.next, TState.adv]
  | tab cs l c => simp [Verif.next, TState.adv]
  | lf cs l c => simp [Verif.next]
  | cr cs l c h => simp [Verif.next, h]
  | crlf cs l c => simp [Verif.next]
  | national s r l c h => exact next_national _ _ _ h
  | single s r l c h => exact next_single hd _ _ _ h
  | word x w r l c h1 h2 h3 h4 h5 h6 h7 =>
    refine next_word hd _ _ _ h1 h5 h7 (fun hN => ?_)
    simp at hN; obtain ⟨rfl, rfl⟩ := hN
    simpa using h6 rfl
  | delim q w r l c h1 h2 h3 h4 h5 h6 h7 =>
    exact next_delim hd _ _ h1 h7 (by simp at hf; omega)
  | number x w r l c h1 h2 h3 h4 h5 h6 => exact next_number hd _ _ _ h1 h5 h6
  | line w r l c h1 h2 => exact next_line hd _ _ _ h1 h2
  | block cs str s' l c h => rw [next_slash_star hd, h]
  | sym k text r l c h h2 => exact next_sym hd _ _ _ h h2
  | char x r l c h1 h2 h3 h4 h5 => exact next_char _ _ _ h1 h2 h3 h4 h5

def TokRes.prepend (pre : List Token) : TokRes → TokRes
  | .ok ts => .ok (pre ++ ts)
  | .err e => .err e
  | .loop => .loop

theorem tokenizeFrom_scans {d : Dialect} (hd : Sane d) (keep : Bool) {s s' : TState} {all : List Token}
    (h : Scans d s all s') : ∀ {fuel : Nat}, s.rest.length < fuel →
    ∃ fuel', s'.rest.length < fuel' ∧
      tokenizeFrom d keep fuel s = (tokenizeFrom d keep fuel' s').prepend (filterTok keep all) := by
  induction h with
  | refl s =>
    intro fuel hf
    refine ⟨fuel, hf, ?_⟩
    have : filterTok keep [] = [] := by cases keep <;> rfl
    rw [this]
    cases tokenizeFrom d keep fuel s <;> rfl
  | @step s t s1 ts s2 h1 h2 ih =>
    intro fuel hf
    have hlt := h1.length_lt
    cases fuel with
    | zero => omega
    | succ fuel =>
      obtain ⟨fuel', hf', he⟩ := ih (fuel := fuel) (by omega)
      refine ⟨fuel', hf', ?_⟩
      rw [tokenizeFrom, scan, h1.next hd (by omega), filterTok_cons]
      dsimp only
      by_cases hk : (!keep && t.insignificant) = true
      · rw [if_pos hk, if_pos hk]; exact he
      · rw [if_neg hk, if_neg hk]; dsimp only; rw [he]; cases tokenizeFrom d keep fuel' s2 <;> rfl

theorem tokenizeFrom_eof {d : Dialect} (keep : Bool) {s : TState} {fuel : Nat} (hf : 0 < fuel)
    (h : s.rest = []) : tokenizeFrom d keep fuel s = .ok [] := by
  obtain ⟨rest, l, c⟩ := s
  dsimp only at h; subst h
  cases fuel with
  | zero => omega
  | succ f => simp [tokenizeFrom, scan, next_nil]

theorem tokenizeFrom_broken {d : Dialect} (hd : Sane d) (keep : Bool) {s : TState} {fuel : Nat}
    (hf : 0 < fuel) {e : TokErr} (h : Broken s.rest e) : tokenizeFrom d keep fuel s = .err e := by
  cases fuel with
  | zero => omega
  | succ f =>
    obtain ⟨s', hs⟩ := next_broken hd f h
    simp [tokenizeFrom, scan, hs]

theorem tokenizeFrom_open {d : Dialect} (hd : Sane d) (keep : Bool) {s : TState} (fuel : Nat)
    (h : OpenDelim d s.rest) : tokenizeFrom d keep fuel s = .loop := by
  cases fuel with
  | zero => rfl
  | succ f => simp [tokenizeFrom, scan, next_open hd f h]

/-- More fuel changes nothing. -/
theorem tokenizeFrom_mono {d : Dialect} {keep : Bool} : ∀ {fuel fuel' : Nat} {s : TState}, fuel ≤ fuel' →
    tokenizeFrom d keep fuel s ≠ .loop → tokenizeFrom d keep fuel' s = tokenizeFrom d keep fuel s := by
  intro fuel
  induction fuel with
  | zero => intro fuel' s _ h; simp [tokenizeFrom] at h
  | succ fuel ih =>
    intro fuel' s hf h
    cases fuel' with
    | zero => omega
    | succ fuel' =>
      have hnl : next d fuel s ≠ .loop := by
        intro hl; apply h; simp [tokenizeFrom, scan, hl]
      rw [tokenizeFrom, tokenizeFrom, scan, scan, next_mono (by omega : fuel ≤ fuel') hnl]
      match hn : next d fuel s with
      | .eof => rfl
      | .err e s' => rfl
      | .loop => rfl
      | .tok t s1 =>
        rw [tokenizeFrom, scan, hn] at h
        dsimp only at h ⊢
        by_cases hk : (!keep && t.insignificant) = true
        · rw [if_pos hk] at h ⊢
          exact ih (by omega) h
        · rw [if_neg hk] at h ⊢
          dsimp only at h ⊢
          rw [ih (by omega : fuel ≤ fuel')]
          intro hl; rw [hl] at h; exact h rfl

/-- `DisableParseComment` filters, whatever the dialect. -/
theorem tokenizeFrom_filter {d : Dialect} : ∀ (fuel : Nat) (s : TState),
    tokenizeFrom d false fuel s = match tokenizeFrom d true fuel s with
      | .ok ts => .ok (ts.filter Token.sig)
      | .err e => .err e
      | .loop => .loop := by
  intro fuel
  induction fuel with
  | zero => intro s; rfl
  | succ fuel ih =>
    intro s
    rw [tokenizeFrom, tokenizeFrom, scan, scan]
    match hn : next d fuel s with
    | .eof => rfl
    | .err e s' => rfl
    | .loop => rfl
    | .tok t s1 =>
      dsimp only
      by_cases hk : t.insignificant = true
      · rw [if_pos (by simp [hk]), if_neg (by simp)]
        dsimp only
        rw [ih]
        cases tokenizeFrom d true fuel s1 <;> simp [Token.sig, hk]
      · rw [if_neg (by simp [hk]), if_neg (by simp)]
        dsimp only
        rw [ih]
        cases tokenizeFrom d true fuel s1 <;> simp [Token.sig, hk]

/-! ### longest-match reading -/

theorem Scans.lexes {d : Dialect} (hd : Sane d) {s s' : TState} {all : List Token}
    (h : Scans d s all s') : Lexes d s.rest (all.map (·.tok)) s'.rest := by
  induction h with
  | refl s => exact .refl _
  | @step s t s1 ts s2 h1 h2 ih =>
    obtain ⟨p, e1, e2⟩ := h1.spells
    rw [List.map_cons, e1]
    have hn := h1.next hd (Nat.le_refl _)
    refine .step t p s1.rest _ _ ⟨e2, List.prefix_append _ _, ?_⟩ ?_ ?_ ih
    · intro t' p' hs hp
      obtain ⟨r', hr⟩ := hp
      rw [← e1] at hr
      have := h1.munch hd hs hr.symm
      have l1 := congrArg List.length hr
      have l2 := congrArg List.length e1
      simp at l1 l2
      omega
    · intro e he
      rw [← e1] at he
      obtain ⟨s', hs⟩ := next_broken hd s.rest.length he
      rw [hn] at hs; cases hs
    · intro he
      rw [← e1] at he
      have hs := next_open hd s.rest.length he
      rw [hn] at hs; cases hs

/-- Every text has exactly one way to be read. -/
theorem exists_scans {d : Dialect} : ∀ (n : Nat) (s : TState), s.rest.length ≤ n →
    ∃ all s', Scans d s all s' ∧ (s'.rest = [] ∨ (∃ e, Broken s'.rest e) ∨ OpenDelim d s'.rest) := by
  intro n
  induction n with
  | zero =>
    intro s hs
    exact ⟨[], s, .refl s, .inl (by simpa using hs)⟩
  | succ n ih =>
    intro s hs
    match hn : next d s.rest.length s with
    | .eof => exact ⟨[], s, .refl s, .inl (next_eof_inv hn)⟩
    | .err e s' => exact ⟨[], s, .refl s, .inr (.inl ⟨e, next_err_inv hn⟩)⟩
    | .loop => exact ⟨[], s, .refl s, .inr (.inr (next_loop_open hn (Nat.le_refl _)))⟩
    | .tok t s1 =>
      have hrel := next_rel hn
      have hlt := hrel.length_lt
      obtain ⟨all, s', h1, h2⟩ := ih s1 (by omega)
      exact ⟨_, s', .step hrel h1, h2⟩

theorem Longest.unique {d : Dialect} {src : Str} {t t' : Tok} {p p' : Str} (h : Longest d src t p)
    (h' : Longest d src t' p') : p = p' := by
  have h1 := h.2.2 t' p' h'.1 h'.2.1
  have h2 := h'.2.2 t p h.1 h.2.1
  obtain ⟨r, hr⟩ := h.2.1
  obtain ⟨r', hr'⟩ := h'.2.1
  rw [← hr'] at hr
  exact (List.append_inj hr (by omega)).1

/-- The converse: a longest-match reading is what the tokenizer does (up to the texts of block
comments, which `Spells` leaves open). -/
theorem Lexes.scans {d : Dialect} (hd : Sane d) {src rest : Str} {ts : List Tok}
    (h : Lexes d src ts rest) : ∀ (l c : Nat), ∃ all l' c', Scans d ⟨src, l, c⟩ all ⟨rest, l', c'⟩ := by
  induction h with
  | refl src => intro l c; exact ⟨[], l, c, .refl _⟩
  | step t p mid ts rest h1 h2 h3 h4 ih =>
    intro l c
    match hn : next d (p ++ mid).length ⟨p ++ mid, l, c⟩ with
    | .eof =>
      have := next_eof_inv hn
      simp at this
      rw [this.1] at h1
      exact absurd h1.1 (by
        intro hh; cases hh; rename_i k hk
        obtain ⟨x, r, hx, -⟩ := symText_special hk; cases hx)
    | .err e s' => exact absurd (next_err_inv hn) (h2 e)
    | .loop => exact absurd (next_loop_open hn (Nat.le_refl _)) h3
    | .tok t' s1 =>
      have hrel := next_rel hn
      obtain ⟨p', e1, e2⟩ := hrel.spells
      have hL : Longest d (p ++ mid) t' p' := by
        refine ⟨e2, ⟨s1.rest, e1.symm⟩, ?_⟩
        intro t'' p'' hs hp
        obtain ⟨r', hr⟩ := hp
        have := hrel.munch hd hs hr.symm
        have l1 := congrArg List.length hr
        have l2 := congrArg List.length e1
        simp at l1 l2
        omega
      have := Longest.unique h1 hL
      subst this
      have hm : mid = s1.rest := by simpa using e1
      obtain ⟨rest1, l1, c1⟩ := s1
      dsimp only at hm; subst hm
      obtain ⟨all, l', c', hs⟩ := ih l1 c1
      exact ⟨_, l', c', .step hrel hs⟩

/-! ### rendering token lists -/

theorem next_spell {d : Dialect} (hd : Sane d) {fuel : Nat} {t : Tok} {rest : Str} (l c : Nat)
    (h1 : Spells d t (spell t)) (h2 : Ends d t rest.head?) (hf : (spell t).length ≤ fuel) :
    ∃ l' c', next d fuel ⟨spell t ++ rest, l, c⟩ = .tok t ⟨rest, l', c'⟩ := by
  generalize hp : spell t = p at h1
  cases h1 with
  | space => exact ⟨_, _, by simp [Verif.next, TState.adv]; exact ⟨rfl, rfl⟩⟩
  | tab => exact ⟨_, _, by simp [Verif.next, TState.adv]; exact ⟨rfl, rfl⟩⟩
  | lf => exact ⟨_, _, by simp [Verif.next]; exact ⟨rfl, rfl⟩⟩
  | cr => simp [spell] at hp
  | crlf => simp [spell] at hp
  | word x w h1 h3 => exact ⟨_, _, next_word hd _ _ _ h1 h3 h2.1 h2.2⟩
  | delim q w h1 h3 =>
    refine ⟨l, c + (2 + w.length), ?_⟩
    simp only [List.cons_append, List.append_assoc, List.nil_append]
    exact next_delim hd _ _ h1 h3 (by simp [spell] at hf; omega)
  | number x w h1 h3 => exact ⟨_, _, next_number hd _ _ _ h1 h3 h2⟩
  | char x h1 h3 h4 h5 h6 => exact ⟨_, _, next_char _ _ _ h1 h3 h4 h5 h6⟩
  | single s =>
    refine ⟨l, c + (2 + byteLen s), ?_⟩
    simp only [List.cons_append, List.append_assoc, List.nil_append]
    exact next_single hd _ _ _ h2
  | national s =>
    refine ⟨l, c + 1 + (2 + byteLen s), ?_⟩
    simp only [List.cons_append, List.append_assoc, List.nil_append]
    exact next_national _ _ _ h2
  | line s h => exact ⟨_, _, next_line hd _ _ _ h h2⟩
  | block b s h => simp [spell] at hp
  | sym k text h => exact ⟨_, _, next_sym hd _ _ _ h h2⟩

theorem Separated.scans {d : Dialect} (hd : Sane d) {ts : List Tok} (h : Separated d ts) :
    ∀ (l c : Nat), ∃ all l' c', Scans d ⟨ts.flatMap spell, l, c⟩ all ⟨[], l', c'⟩ ∧
      all.map (·.tok) = ts := by
  induction ts with
  | nil => intro l c; exact ⟨[], l, c, .refl _, rfl⟩
  | cons t ts ih =>
    intro l c
    obtain ⟨h1, h2, h3⟩ := h
    obtain ⟨l1, c1, hn⟩ := next_spell hd l c h1 h2 (Nat.le_refl _)
    obtain ⟨all, l', c', hs, he⟩ := ih h3 l1 c1
    rw [List.flatMap_cons]
    exact ⟨_, l', c', .step (next_rel hn) hs, by simp [he]⟩

end Verif
