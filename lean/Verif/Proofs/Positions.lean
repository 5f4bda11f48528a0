import Verif.Proofs.Tokenize
import Verif.Spec.Position
/-
Positions of the tokens found by the tokenizer.
-/
set_option linter.unusedSimpArgs false

namespace Verif
open Spec

/-- Lexicographic order of positions. -/
def Pos.lt (p q : Pos) : Prop := p.line < q.line ∨ (p.line = q.line ∧ p.col < q.col)

theorem Pos.lt_trans {p q r : Pos} (h1 : p.lt q) (h2 : q.lt r) : p.lt r := by
  unfold Pos.lt at *; omega

theorem comparePos_lt_iff (p q : Pos) : comparePos p q = -1 ↔ p.lt q := by
  unfold comparePos Pos.lt
  split
  · simp; omega
  split
  · simp; omega
  split
  · simp; omega
  split
  · simp; omega
  · simp; omega

theorem byteLen_pos (c : Char) (w : Str) : 0 < byteLen (c :: w) := by
  have := Char.utf8Size_pos c
  simp [byteLen]; omega

theorem takeComment_adv (cs : List Char) (closing : Bool) (acc : List Char) (line col : Nat) :
    ∀ {str s'}, takeComment cs closing acc line col = .ok (str, s') → Pos.lt ⟨line, col⟩ s'.pos := by
  fun_induction takeComment cs closing acc line col with
  | case1 => simp
  | case2 =>
    rename_i col cs closing acc line acc' ih
    intro str s' h
    have := ih h
    unfold Pos.lt at *; simp at *; omega
  | case3 n cs closing acc line col hne line' col' hpos hc =>
    intro str s' h
    simp at h
    obtain ⟨rfl, rfl⟩ := h
    obtain ⟨rfl, rfl⟩ := hc
    simp at hpos
    simp [Pos.lt, TState.pos]; omega
  | case4 =>
    rename_i cs closing acc line col line' col' hne hpos hc acc' ih
    intro str s' h
    have := ih h
    simp at hpos
    unfold Pos.lt at *; simp at *; omega
  | case5 =>
    rename_i n cs closing acc line col hne line' col' hpos hc acc' hn ih
    intro str s' h
    have := ih h
    unfold Pos.lt at *
    split at hpos <;> simp at hpos <;> simp at * <;> omega

/-- Every token ends after it starts. -/
theorem NextRel.pos_lt {d : Dialect} {s s' : TState} {t : Tok} (h : NextRel d s t s') :
    s.pos.lt s'.pos := by
  cases h with
  | word x w r l c h1 h2 h3 h4 h5 h6 h7 =>
    have := byteLen_pos x w
    right; simp [TState.pos]; omega
  | block cs str s' l c h =>
    have := takeComment_adv _ _ _ _ _ h
    unfold Pos.lt at *; simp [TState.pos] at *; omega
  | sym k text r l c h h2 =>
    obtain ⟨x, u, rfl, -⟩ := symText_special h
    right; simp [TState.pos]
  | lf => left; simp [TState.pos]
  | cr => left; simp [TState.pos]
  | crlf => left; simp [TState.pos]
  | _ => right; simp [TState.pos]; try omega

theorem Scans.pos {d : Dialect} {s s' : TState} {ts : List Token} (h : Scans d s ts s') :
    (∀ t ∈ ts, t.from_.lt t.to_) ∧ (∀ t rest, ts = t :: rest → t.from_ = s.pos) ∧
    (∀ pre a b post, ts = pre ++ a :: b :: post → b.from_ = a.to_) ∧
    (∀ t ∈ ts, t.from_ = s.pos ∨ s.pos.lt t.from_) ∧
    ts.Pairwise (fun a b => a.from_.lt b.from_) := by
  induction h with
  | refl s => simp
  | @step s t s1 ts s2 h1 h2 ih =>
    obtain ⟨i1, i2, i3, i4, i5⟩ := ih
    have hlt := h1.pos_lt
    have i4' : ∀ t ∈ ts, s.pos.lt t.from_ := by
      intro t ht
      rcases i4 t ht with h | h
      · rw [h]; exact hlt
      · exact Pos.lt_trans hlt h
    refine ⟨?_, ?_, ?_, ?_, ?_⟩
    · intro t' ht'
      simp at ht'
      rcases ht' with rfl | ht'
      · exact hlt
      · exact i1 _ ht'
    · intro t' rest h
      simp at h; rw [← h.1]
    · intro pre a b post h
      cases pre with
      | nil =>
        simp at h
        rw [← h.1]
        exact i2 b post h.2
      | cons x pre =>
        simp at h
        exact i3 pre a b post h.2
    · intro t' ht'
      simp at ht'
      rcases ht' with rfl | ht'
      · exact .inl rfl
      · exact .inr (i4' _ ht')
    · rw [List.pairwise_cons]
      exact ⟨fun t' ht' => i4' t' ht', i5⟩

/-! ### line numbers -/

theorem CrLf.suffix {u v : Str} (h : CrLf (u ++ v)) : CrLf v := by
  intro a b hab
  exact h (u ++ a) b (by simp [hab])

theorem takeComment_line (cs : List Char) (closing : Bool) (acc : List Char) (line col : Nat) :
    CrLf cs → ∀ {str s'}, takeComment cs closing acc line col = .ok (str, s') →
    ∃ used, cs = used ++ s'.rest ∧ s'.line = line + used.count '\n' := by
  fun_induction takeComment cs closing acc line col with
  | case1 => simp
  | case2 =>
    rename_i col cs closing acc line acc' ih
    intro hc str s' h
    obtain ⟨used, h1, h2⟩ := ih (CrLf.suffix (u := ['\r', '\n']) hc) h
    exact ⟨'\r' :: '\n' :: used, by simp [h1], by simp [h2]; omega⟩
  | case3 n cs closing acc line col hne line' col' hpos hc =>
    intro hcr str s' h
    simp at h
    obtain ⟨rfl, rfl⟩ := h
    obtain ⟨rfl, rfl⟩ := hc
    simp at hpos
    exact ⟨['/'], by simp, by simp [hpos]⟩
  | case4 =>
    rename_i cs closing acc line col line' col' hne hpos hc acc' ih
    intro hcr str s' h
    obtain ⟨used, h1, h2⟩ := ih (CrLf.suffix (u := ['*']) hcr) h
    simp at hpos
    exact ⟨'*' :: used, by simp [h1], by simp [h2, hpos]⟩
  | case5 =>
    rename_i n cs closing acc line col hne line' col' hpos hc acc' hn ih
    intro hcr str s' h
    obtain ⟨used, h1, h2⟩ := ih (CrLf.suffix (u := [n]) hcr) h
    refine ⟨n :: used, by simp [h1], ?_⟩
    rw [h2]
    have hnr : n ≠ '\r' := by
      rintro rfl
      have := hcr [] cs rfl
      obtain ⟨u, rfl⟩ := head?_eq_some this
      exact hne u rfl rfl
    by_cases hnl : n = '\n'
    · subst hnl; simp at hpos; simp [← hpos.1]; omega
    · simp [hnr, hnl] at hpos; simp [← hpos.1, List.count_cons, hnl]

theorem matchingEndQuote_ne (q : Char) : matchingEndQuote q ≠ '\n' ∧ matchingEndQuote q ≠ '\t' ∧
    matchingEndQuote q ≠ '\r' := by
  unfold matchingEndQuote
  split
  · decide
  split
  · decide
  split
  · decide
  · decide

theorem escape_count (s : Str) : (escape s).count '\n' = s.count '\n' := by
  induction s with
  | nil => rfl
  | cons c s ih =>
    unfold escape
    split
    · rename_i h; subst h; simp [ih]
    · simp [List.count_cons, ih]

theorem isDigit_ne_nl {c : Char} (h : isDigit c = true ∨ c = '.') : c ≠ '\n' := by
  rintro rfl; simp [isDigit] at h

theorem symText_no_nl {k : Sym} {text : Str} (h : text ∈ symText k) : '\n' ∉ text ∧ text.count '\n' = 0 := by
  have key : ∀ k ∈ symTextAll, ∀ text ∈ symText k, '\n' ∉ text ∧ text.count '\n' = 0 := by decide +kernel
  exact key k (symTextAll_mem k) text h

theorem NextRel.line_eq {d : Dialect} {s s' : TState} {t : Tok} (h : NextRel d s t s') {p : Str}
    (hp : s.rest = p ++ s'.rest) (hcr : CrLf s.rest) (hnb : NoBreakInside t) :
    s'.line = s.line + p.count '\n' := by
  cases h with
  | space cs l c =>
    have : p = [' '] := List.append_cancel_right hp.symm
    subst this; simp
  | tab cs l c =>
    have : p = ['\t'] := List.append_cancel_right hp.symm
    subst this; simp
  | lf cs l c =>
    have : p = ['\n'] := List.append_cancel_right hp.symm
    subst this; simp
  | cr cs l c h => exact absurd (hcr [] cs rfl) h
  | crlf cs l c =>
    have : p = ['\r', '\n'] := List.append_cancel_right hp.symm
    subst this; simp
  | national s r l c h =>
    have : p = 'N' :: '\'' :: (escape s ++ ['\'']) := List.append_cancel_right (bs := r) (by simpa using hp.symm)
    subst this
    simp [escape_count, List.count_eq_zero.2 hnb]
  | single s r l c h =>
    have : p = '\'' :: (escape s ++ ['\'']) := List.append_cancel_right (bs := r) (by simpa using hp.symm)
    subst this
    simp [escape_count, List.count_eq_zero.2 hnb]
  | word x w r l c h1 h2 h3 h4 h5 h6 h7 =>
    have : p = x :: w := List.append_cancel_right (bs := r) (by simpa using hp.symm)
    subst this
    simp [List.count_eq_zero.2 hnb]
  | delim q w r l c h1 h2 h3 h4 h5 h6 h7 =>
    have : p = q :: (w ++ [matchingEndQuote q]) := List.append_cancel_right (bs := r) (by simpa using hp.symm)
    subst this
    have h8 := (matchingEndQuote_ne q).1
    have h9 : w.count '\n' = 0 := List.count_eq_zero.2 hnb
    simp [List.count_cons, List.count_append, h2, h8, h9]
  | number x w r l c h1 h2 h3 h4 h5 h6 =>
    have : p = x :: w := List.append_cancel_right (bs := r) (by simpa using hp.symm)
    subst this
    have h9 : w.count '\n' = 0 := List.count_eq_zero.2 (fun hm => isDigit_ne_nl (h5 _ hm) rfl)
    simp [List.count_cons, h2, h9]
  | line w r l c h1 h2 =>
    have : p = '-' :: '-' :: w := List.append_cancel_right (bs := r) (by simpa using hp.symm)
    subst this
    simp [List.count_eq_zero.2 h1]
  | block cs str s' l c h =>
    obtain ⟨used, e1, e2⟩ := takeComment_line _ _ _ _ _ (CrLf.suffix (u := ['/', '*']) hcr) h
    have : p = '/' :: '*' :: used := List.append_cancel_right (bs := s'.rest) (by simpa [e1] using hp.symm)
    subst this
    simp [e2]
  | sym k text r l c h h2 =>
    have : p = text := List.append_cancel_right hp.symm
    subst this
    simp [(symText_no_nl h).2]
  | char x r l c h1 h2 h3 h4 h5 =>
    have : p = [x] := List.append_cancel_right (bs := r) (by simpa using hp.symm)
    subst this
    have : x ≠ '\n' := (not_special_all h1).2.2.1
    simp [List.count_cons, this]

theorem Scans.pieces {d : Dialect} {s s' : TState} {ts : List Token} (h : Scans d s ts s') :
    ∃ tps : List (Token × Str), ts = tps.map (·.1) ∧ s.rest = tps.flatMap (·.2) ++ s'.rest ∧
      (∀ x ∈ tps, Spells d x.1.tok x.2) ∧
      (CrLf s.rest → (∀ t ∈ ts, NoBreakInside t.tok) →
        ∀ a x b, tps = a ++ x :: b → x.1.from_.line = s.line + (a.flatMap (·.2)).count '\n') := by
  induction h with
  | refl s => exact ⟨[], rfl, by simp, by simp, by simp⟩
  | @step s t s1 ts s2 h1 h2 ih =>
    obtain ⟨tps, i1, i2, i3, i4⟩ := ih
    obtain ⟨p, e1, e2⟩ := h1.spells
    refine ⟨(⟨t, s.pos, s1.pos⟩, p) :: tps, by simp [i1], by simp [e1, i2], ?_, ?_⟩
    · intro x hx
      simp at hx
      rcases hx with rfl | hx
      · exact e2
      · exact i3 x hx
    · intro hcr hnb a x b hab
      cases a with
      | nil => simp at hab; rw [← hab.1]; simp [TState.pos]
      | cons y a =>
        simp at hab
        obtain ⟨rfl, hab⟩ := hab
        rw [i4 (by rw [e1] at hcr; exact CrLf.suffix hcr) (fun t ht => hnb t (by simp [ht])) a x b hab,
          h1.line_eq e1 hcr (hnb ⟨t, s.pos, s1.pos⟩ (by simp))]
        simp; omega

/-! ### columns -/

theorem utf8Size_ascii {c : Char} (h : c.toNat < 128) : c.utf8Size = 1 := by
  have h' : c.val.toNat < 128 := h
  unfold Char.utf8Size
  have : c.val ≤ 0x7f := by rw [UInt32.le_iff_toNat_le]; simp; omega
  simp [this]

theorem byteLen_ascii {s : Str} (h : ∀ c ∈ s, c.toNat < 128) : byteLen s = s.length := by
  induction s with
  | nil => rfl
  | cons c s ih =>
    have h1 : c.utf8Size = 1 := utf8Size_ascii (h c (by simp))
    have := ih (fun x hx => h x (by simp [hx]))
    simp [byteLen] at *
    omega

theorem fold_no_nl {p : Str} (h : '\n' ∉ p) (q : Pos) : p.foldl advance q = ⟨q.line, q.col + p.length⟩ := by
  induction p generalizing q with
  | nil => rfl
  | cons c p ih =>
    simp at h
    rw [List.foldl_cons, ih h.2]
    simp [advance, Ne.symm h.1]; omega

theorem escape_no_quote {s : Str} (h : '\'' ∉ s) : escape s = s := by
  induction s with
  | nil => rfl
  | cons c s ih => simp at h; simp [escape, Ne.symm h.1, ih h.2]

theorem takeComment_col (cs : List Char) (closing : Bool) (acc : List Char) (line col : Nat) :
    '\r' ∉ cs → ∀ {str s'}, takeComment cs closing acc line col = .ok (str, s') →
    ∃ used, cs = used ++ s'.rest ∧ s'.pos = used.foldl advance ⟨line, col⟩ := by
  fun_induction takeComment cs closing acc line col with
  | case1 => simp
  | case2 => intro h; simp at h
  | case3 n cs closing acc line col hne line' col' hpos hc =>
    intro hcr str s' h
    simp at h
    obtain ⟨rfl, rfl⟩ := h
    obtain ⟨rfl, rfl⟩ := hc
    simp at hpos
    exact ⟨['/'], by simp, by simp [hpos, TState.pos, advance]⟩
  | case4 =>
    rename_i cs closing acc line col line' col' hne hpos hc acc' ih
    intro hcr str s' h
    simp at hcr
    obtain ⟨used, h1, h2⟩ := ih hcr h
    simp at hpos
    exact ⟨'*' :: used, by simp [h1], by simp [h2, hpos, advance]⟩
  | case5 =>
    rename_i n cs closing acc line col hne line' col' hpos hc acc' hn ih
    intro hcr str s' h
    simp at hcr
    obtain ⟨used, h1, h2⟩ := ih hcr.2 h
    refine ⟨n :: used, by simp [h1], ?_⟩
    rw [h2]
    by_cases hnl : n = '\n'
    · subst hnl; simp at hpos; obtain ⟨rfl, rfl⟩ := hpos; simp [advance]
    · simp [Ne.symm hcr.1, hnl] at hpos; simp [hpos, advance, hnl]

theorem symText_ascii {k : Sym} {text : Str} (h : text ∈ symText k) : '\n' ∉ text := (symText_no_nl h).1

theorem NextRel.col_eq {d : Dialect} {s s' : TState} {t : Tok} (h : NextRel d s t s') {p : Str}
    (hp : s.rest = p ++ s'.rest) (hpl : PlainText s.rest) (hnb : NoBreakInside t) (hnq : NoQuoteInside t) :
    s'.pos = p.foldl advance s.pos := by
  cases h with
  | space cs l c =>
    have : p = [' '] := List.append_cancel_right hp.symm
    subst this; simp [TState.pos, advance]
  | tab cs l c => exact absurd rfl (hpl '\t' (by simp)).2.1
  | lf cs l c =>
    have : p = ['\n'] := List.append_cancel_right hp.symm
    subst this; simp [TState.pos, advance]
  | cr cs l c h => exact absurd rfl (hpl '\r' (by simp)).2.2
  | crlf cs l c => exact absurd rfl (hpl '\r' (by simp)).2.2
  | national s r l c h =>
    have : p = 'N' :: '\'' :: (escape s ++ ['\'']) := List.append_cancel_right (bs := r) (by simpa using hp.symm)
    subst this
    have e := escape_no_quote (s := s) hnq
    rw [e]
    have hb : byteLen s = s.length := byteLen_ascii (fun c hc => (hpl c (by simp [e, hc])).1)
    rw [fold_no_nl (by simp; exact hnb)]
    simp [TState.pos, hb]; omega
  | single s r l c h =>
    have : p = '\'' :: (escape s ++ ['\'']) := List.append_cancel_right (bs := r) (by simpa using hp.symm)
    subst this
    have e := escape_no_quote (s := s) hnq
    rw [e]
    have hb : byteLen s = s.length := byteLen_ascii (fun c hc => (hpl c (by simp [e, hc])).1)
    rw [fold_no_nl (by simp; exact hnb)]
    simp [TState.pos, hb]; omega
  | word x w r l c h1 h2 h3 h4 h5 h6 h7 =>
    have : p = x :: w := List.append_cancel_right (bs := r) (by simpa using hp.symm)
    subst this
    have hb : byteLen (x :: w) = (x :: w).length := byteLen_ascii (fun c hc => (hpl c (by
      rw [← List.cons_append]; exact List.mem_append_left _ hc)).1)
    rw [fold_no_nl hnb]
    simp [TState.pos, hb]
  | delim q w r l c h1 h2 h3 h4 h5 h6 h7 =>
    have : p = q :: (w ++ [matchingEndQuote q]) := List.append_cancel_right (bs := r) (by simpa using hp.symm)
    subst this
    have h8 := (matchingEndQuote_ne q).1
    rw [fold_no_nl (by simp [Ne.symm h2, Ne.symm h8]; exact hnb)]
    simp [TState.pos]; omega
  | number x w r l c h1 h2 h3 h4 h5 h6 =>
    have : p = x :: w := List.append_cancel_right (bs := r) (by simpa using hp.symm)
    subst this
    have h9 : '\n' ∉ w := fun hm => isDigit_ne_nl (h5 _ hm) rfl
    rw [fold_no_nl (by simp [Ne.symm h2, h9])]
    simp [TState.pos]
  | line w r l c h1 h2 =>
    have : p = '-' :: '-' :: w := List.append_cancel_right (bs := r) (by simpa using hp.symm)
    subst this
    rw [fold_no_nl (by simp [h1])]
    simp [TState.pos]
  | block cs str s' l c h =>
    obtain ⟨used, e1, e2⟩ := takeComment_col _ _ _ _ _
      (fun hm => (hpl '\r' (by simp [hm])).2.2 rfl) h
    have : p = '/' :: '*' :: used := List.append_cancel_right (bs := s'.rest) (by simpa [e1] using hp.symm)
    subst this
    rw [e2]; simp [TState.pos, advance]
  | sym k text r l c h h2 =>
    have : p = text := List.append_cancel_right hp.symm
    subst this
    rw [fold_no_nl (symText_no_nl h).1]
    simp [TState.pos]
  | char x r l c h1 h2 h3 h4 h5 =>
    have : p = [x] := List.append_cancel_right (bs := r) (by simpa using hp.symm)
    subst this
    have : x ≠ '\n' := (not_special_all h1).2.2.1
    simp [TState.pos, advance, this]

theorem Scans.columns {d : Dialect} {s s' : TState} {ts : List Token} (h : Scans d s ts s') :
    ∃ tps : List (Token × Str), ts = tps.map (·.1) ∧ s.rest = tps.flatMap (·.2) ++ s'.rest ∧
      (∀ x ∈ tps, Spells d x.1.tok x.2) ∧
      (PlainText s.rest → (∀ t ∈ ts, NoBreakInside t.tok ∧ NoQuoteInside t.tok) →
        ∀ a x b, tps = a ++ x :: b → x.1.from_ = (a.flatMap (·.2)).foldl advance s.pos) := by
  induction h with
  | refl s => exact ⟨[], rfl, by simp, by simp, by simp⟩
  | @step s t s1 ts s2 h1 h2 ih =>
    obtain ⟨tps, i1, i2, i3, i4⟩ := ih
    obtain ⟨p, e1, e2⟩ := h1.spells
    refine ⟨(⟨t, s.pos, s1.pos⟩, p) :: tps, by simp [i1], by simp [e1, i2], ?_, ?_⟩
    · intro x hx
      simp at hx
      rcases hx with rfl | hx
      · exact e2
      · exact i3 x hx
    · intro hpl hnb a x b hab
      cases a with
      | nil => simp at hab; rw [← hab.1]; simp
      | cons y a =>
        simp at hab
        obtain ⟨rfl, hab⟩ := hab
        rw [i4 (fun c hc => hpl c (by simp [e1, hc])) (fun t ht => hnb t (by simp [ht])) a x b hab,
          h1.col_eq e1 hpl (hnb ⟨t, s.pos, s1.pos⟩ (by simp)).1 (hnb ⟨t, s.pos, s1.pos⟩ (by simp)).2]
        simp

end Verif
