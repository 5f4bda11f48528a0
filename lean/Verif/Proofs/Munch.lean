import Verif.Proofs.Next
/-
The token found by `next` is the longest one.
-/
namespace Verif
open Spec

theorem run_max {P : Char → Prop} {w r w' r' : List Char} (h : w ++ r = w' ++ r') (hw' : ∀ x ∈ w', P x)
    (hr : ∀ x, r.head? = some x → ¬ P x) : r.length ≤ r'.length := by
  induction w generalizing w' with
  | nil =>
    cases w' with
    | nil => simp at h; simp [h]
    | cons x xs =>
      simp at h
      exact absurd (hw' x (by simp)) (hr x (by simp [h]))
  | cons y w ih =>
    cases w' with
    | nil => simp at h; rw [← h]; simp; omega
    | cons x xs =>
      simp at h
      exact ih h.2 (fun z hz => hw' z (by simp [hz]))

theorem escape_max {s r s' r' : List Char} (h : escape s ++ '\'' :: r = escape s' ++ '\'' :: r')
    (hr : r.head? ≠ some '\'') : r.length ≤ r'.length := by
  induction s generalizing s' with
  | nil =>
    cases s' with
    | nil => simp [escape] at h; simp [h]
    | cons x xs =>
      simp only [escape, List.nil_append] at h
      split at h
      · simp at h; simp [h] at hr
      · rename_i hx; simp at h; exact absurd h.1.symm hx
  | cons y s ih =>
    cases s' with
    | nil =>
      simp only [escape, List.nil_append] at h
      split at h
      · simp at h; rw [← h]; simp; omega
      · rename_i hx; simp at h; exact absurd h.1 hx
    | cons x xs =>
      simp only [escape] at h
      split at h <;> split at h
      · simp at h; exact ih h
      · rename_i hx; simp at h; exact absurd h.1.symm hx
      · rename_i hx _; simp at h; exact absurd h.1 hx
      · simp at h; exact ih h.2

theorem delim_max {e : Char} {w r w' r' : List Char} (h : w ++ e :: r = w' ++ e :: r') (hw' : e ∉ w') :
    r.length ≤ r'.length := by
  have := run_max (P := (· ≠ e)) h (fun x hx hxe => hw' (hxe ▸ hx)) (by simp)
  simpa using this

/-- The characters that start each kind of token. -/
theorem symText_special {k : Sym} {text : Str} (h : text ∈ symText k) :
    ∃ x t, text = x :: t ∧ x ∈ specials ∧ x ∉ [' ', '\t', '\n', '\r', '\''] := by
  cases k <;> simp [symText] at h <;> (try rcases h with rfl | rfl) <;> (try subst h) <;>
    exact ⟨_, _, rfl, by decide, by decide⟩

theorem digit_not_special {c : Char} (h : isDigit c = true) : c ∉ specials := by
  intro hm
  have : ∀ c ∈ specials, isDigit c = false := by decide
  rw [this c hm] at h; cases h

theorem start_not_special {d : Dialect} (hd : Sane d) {c : Char} (h : c = 'N' ∨ d.isIdentStart c = true) :
    c ∉ specials := by
  rcases h with rfl | h
  · decide
  · exact (hd.start c h).1

theorem start_not_digit {d : Dialect} (hd : Sane d) {c : Char} (h : c = 'N' ∨ d.isIdentStart c = true) :
    isDigit c = false := by
  rcases h with rfl | h
  · decide
  · exact (hd.start c h).2.1

theorem start_not_delim {d : Dialect} (hd : Sane d) {c : Char} (h : c = 'N' ∨ d.isIdentStart c = true) :
    d.isDelimStart c = false := by
  rcases h with rfl | h
  · match hn : d.isDelimStart 'N' with
    | false => rfl
    | true => exact absurd rfl (hd.delim _ hn).2.2
  · exact (hd.start c h).2.2

/-- First-character classes. -/
inductive Cls where
  | space | tab | lf | cr | quote | ident | digit | delim | special | other
  deriving DecidableEq

def cls (d : Dialect) (c : Char) : Cls :=
  if c = ' ' then .space else if c = '\t' then .tab else if c = '\n' then .lf
  else if c = '\r' then .cr else if c = '\'' then .quote
  else if c ∈ specials then .special
  else if isDigit c then .digit
  else if c = 'N' ∨ d.isIdentStart c then .ident
  else if d.isDelimStart c then .delim
  else .other

theorem cls_of_not_special {d : Dialect} {c : Char} (h : c ∉ specials) :
    cls d c = if isDigit c then .digit else if c = 'N' ∨ d.isIdentStart c then .ident
      else if d.isDelimStart c then .delim else .other := by
  unfold cls
  have h' := h
  simp only [specials, List.mem_cons, not_or] at h'
  rw [if_neg h'.1, if_neg h'.2.1, if_neg h'.2.2.1, if_neg h'.2.2.2.1, if_neg h'.2.2.2.2.1, if_neg h]

theorem cls_special {d : Dialect} {c : Char} (h : c ∈ specials) (h2 : c ∉ [' ', '\t', '\n', '\r', '\'']) :
    cls d c = .special := by
  unfold cls
  simp only [List.mem_cons, not_or] at h2
  rw [if_neg h2.1, if_neg h2.2.1, if_neg h2.2.2.1, if_neg h2.2.2.2.1, if_neg h2.2.2.2.2.1, if_pos h]

theorem cls_ident {d : Dialect} (hd : Sane d) {c : Char} (h : c = 'N' ∨ d.isIdentStart c = true) :
    cls d c = .ident := by
  rw [cls_of_not_special (start_not_special hd h), start_not_digit hd h]
  simp [h]

theorem cls_digit {d : Dialect} {c : Char} (h : isDigit c = true) : cls d c = .digit := by
  rw [cls_of_not_special (digit_not_special h), h]; simp

theorem cls_delim {d : Dialect} (hd : Sane d) {c : Char} (h : d.isDelimStart c = true) :
    cls d c = .delim := by
  obtain ⟨h1, h2, h3⟩ := hd.delim c h
  have h4 : d.isIdentStart c = false := by
    match hn : d.isIdentStart c with
    | false => rfl
    | true => rw [(hd.start c hn).2.2] at h; cases h
  rw [cls_of_not_special h1, h2, h4, h]; simp [h3]

theorem cls_other {d : Dialect} {c : Char} (h1 : c ∉ specials) (h2 : isDigit c = false) (h3 : c ≠ 'N')
    (h4 : d.isIdentStart c = false) (h5 : d.isDelimStart c = false) : cls d c = .other := by
  rw [cls_of_not_special h1, h2, h4, h5]; simp [h3]

def symTextAll : List Sym :=
  [.Comma, .Eq, .Neq, .Lt, .Gt, .LtEq, .GtEq, .Plus, .Minus, .Mult, .Div, .Mod, .LParen, .RParen, .Period,
   .Colon, .DoubleColon, .Semicolon, .Backslash, .LBracket, .RBracket, .Ampersand, .LBrace, .RBrace]

theorem symTextAll_mem (k : Sym) : k ∈ symTextAll := by cases k <;> decide

theorem symText_max {k : Sym} {text r : Str} (h : text ∈ symText k) (hend : SymEnds text r.head?)
    {k' : Sym} {text' r' : Str} (h' : text' ∈ symText k') (he : text ++ r = text' ++ r') :
    r.length ≤ r'.length := by
  have hl : r.length + text.length = r'.length + text'.length := by
    have := congrArg List.length he
    simp at this; omega
  have key : ∀ k ∈ symTextAll, ∀ k' ∈ symTextAll, ∀ text ∈ symText k, ∀ text' ∈ symText k',
      text'.length ≤ text.length ∨ text.head? ≠ text'.head? ∨
      ∃ x ∈ gluing, text = [x.1] ∧ text' = [x.1, x.2] := by decide +kernel
  rcases key k (symTextAll_mem k) k' (symTextAll_mem k') text h text' h' with hh | hh | ⟨x, hx, rfl, rfl⟩
  · omega
  · obtain ⟨x, t, rfl, -⟩ := symText_special h
    obtain ⟨x', t', rfl, -⟩ := symText_special h'
    simp at he hh
    exact absurd he.1 hh
  · simp at he
    exact absurd hx (hend x.1 x.2 rfl (by simp [he]))


@[simp] theorem cls_space (d : Dialect) : cls d ' ' = .space := by simp [cls]
@[simp] theorem cls_tab (d : Dialect) : cls d '\t' = .tab := by simp [cls]
@[simp] theorem cls_lf (d : Dialect) : cls d '\n' = .lf := by simp [cls]
@[simp] theorem cls_cr (d : Dialect) : cls d '\r' = .cr := by simp [cls]
@[simp] theorem cls_quote (d : Dialect) : cls d '\'' = .quote := by simp [cls]
@[simp] theorem cls_minus (d : Dialect) : cls d '-' = .special := by simp [cls, specials]
@[simp] theorem cls_slash (d : Dialect) : cls d '/' = .special := by simp [cls, specials]

/-- How a spelling continues after its first character, by the class of that character. -/
def Cont (d : Dialect) (x : Char) (p : Str) : Cls → Prop
  | .space | .tab | .lf | .other => p = []
  | .cr => p = [] ∨ p = ['\n']
  | .quote => ∃ s, p = escape s ++ ['\'']
  | .ident => (∀ y ∈ p, d.isIdentPart y = true) ∨ (x = 'N' ∧ ∃ s, p = '\'' :: (escape s ++ ['\'']))
  | .digit => ∀ y ∈ p, isDigit y = true ∨ y = '.'
  | .delim => ∃ w, p = w ++ [matchingEndQuote x] ∧ matchingEndQuote x ∉ w
  | .special => (x = '-' ∧ ∃ w, p = '-' :: w ∧ '\n' ∉ w) ∨
      (x = '/' ∧ ∃ b, p = '*' :: (b ++ ['*', '/']) ∧ NoClose b) ∨ ∃ k, x :: p ∈ symText k

theorem spells_cont {d : Dialect} (hd : Sane d) {t : Tok} {p : Str} (h : Spells d t p) :
    ∃ x r, p = x :: r ∧ Cont d x r (cls d x) := by
  cases h with
  | space => exact ⟨_, _, rfl, by simp [Cont]⟩
  | tab => exact ⟨_, _, rfl, by simp [Cont]⟩
  | lf => exact ⟨_, _, rfl, by simp [Cont]⟩
  | cr => exact ⟨_, _, rfl, by simp [Cont]⟩
  | crlf => exact ⟨_, _, rfl, by simp [Cont]⟩
  | word c w h1 h2 => exact ⟨_, _, rfl, by rw [cls_ident hd h1]; exact .inl h2⟩
  | delim q w h1 h2 => exact ⟨_, _, rfl, by rw [cls_delim hd h1]; exact ⟨_, rfl, h2⟩⟩
  | number c w h1 h2 => exact ⟨_, _, rfl, by rw [cls_digit h1]; exact h2⟩
  | char c h1 h2 h3 h4 h5 => exact ⟨_, _, rfl, by rw [cls_other h1 h2 h3 h4 h5]; rfl⟩
  | single s => exact ⟨_, _, rfl, by rw [cls_quote]; exact ⟨s, rfl⟩⟩
  | national s => exact ⟨_, _, rfl, by rw [cls_ident hd (.inl rfl)]; exact .inr ⟨rfl, s, rfl⟩⟩
  | line s h => exact ⟨_, _, rfl, by simp [Cont]; exact .inl h⟩
  | block b s h => exact ⟨_, _, rfl, by simp [Cont]; exact .inl h⟩
  | sym k text h =>
    obtain ⟨x, r, rfl, h1, h2⟩ := symText_special h
    exact ⟨_, _, rfl, by rw [cls_special h1 h2]; exact .inr (.inr ⟨k, h⟩)⟩

/-- `next` takes the longest spelling. -/
theorem NextRel.munch {d : Dialect} (hd : Sane d) {s s' : TState} {t t' : Tok} {p' r' : Str}
    (h : NextRel d s t s') (hp : Spells d t' p') (he : s.rest = p' ++ r') :
    s'.rest.length ≤ r'.length := by
  obtain ⟨x', p', rfl, hc⟩ := spells_cont hd hp
  cases h with
  | space cs l c =>
    simp at he; obtain ⟨rfl, rfl⟩ := he
    simp [Cont] at hc; simp [hc]
  | tab cs l c =>
    simp at he; obtain ⟨rfl, rfl⟩ := he
    simp [Cont] at hc; simp [hc]
  | lf cs l c =>
    simp at he; obtain ⟨rfl, rfl⟩ := he
    simp [Cont] at hc; simp [hc]
  | cr cs l c h =>
    simp at he; obtain ⟨rfl, rfl⟩ := he
    simp [Cont] at hc
    rcases hc with rfl | rfl
    · simp
    · simp at h
  | crlf cs l c =>
    simp at he; obtain ⟨rfl, he⟩ := he
    simp [Cont] at hc
    rcases hc with rfl | rfl
    · simp at he; subst he; simp
    · simp at he; simp [he]
  | national s r l c h =>
    simp at he; obtain ⟨rfl, he⟩ := he
    rw [cls_ident hd (.inl rfl)] at hc
    rcases hc with hc | ⟨-, s, rfl⟩
    · cases p' with
      | nil => simp at he; rw [← he]; simp; omega
      | cons y p' =>
        simp at he
        have := hc y (by simp)
        rw [← he.1, hd.part] at this
        cases this
    · simp at he; exact escape_max he h
  | single s r l c h =>
    simp at he; obtain ⟨rfl, he⟩ := he
    simp [Cont] at hc
    obtain ⟨s, rfl⟩ := hc
    simp at he; exact escape_max he h
  | word x w r l c h1 h2 h3 h4 h5 h6 h7 =>
    simp at he; obtain ⟨rfl, he⟩ := he
    rw [cls_ident hd h1] at hc
    rcases hc with hc | ⟨rfl, s, rfl⟩
    · exact run_max he hc (fun y hy => by simp [h7 y hy])
    · exact absurd (by rw [he]; rfl) (h6 rfl)
  | delim q w r l c h1 h2 h3 h4 h5 h6 h7 =>
    simp at he; obtain ⟨rfl, he⟩ := he
    rw [cls_delim hd h1] at hc
    obtain ⟨w', rfl, hw⟩ := hc
    simp at he
    exact delim_max he hw
  | number x w r l c h1 h2 h3 h4 h5 h6 =>
    simp at he; obtain ⟨rfl, he⟩ := he
    rw [cls_digit h1] at hc
    exact run_max he hc (fun y hy => by simp [h6 y hy])
  | line w r l c h1 h2 =>
    simp at he; obtain ⟨rfl, he⟩ := he
    simp [Cont] at hc
    rcases hc with ⟨w', rfl, hw⟩ | ⟨k, hk⟩
    · simp at he
      exact run_max (P := (· ≠ '\n')) he (fun x hx hxe => hw (hxe ▸ hx)) (fun y hy => by simp [h2 y hy])
    · cases k <;> simp [symText] at hk
      subst hk; simp at he; subst he; simp; omega
  | block cs str s' l c h =>
    simp at he; obtain ⟨rfl, he⟩ := he
    simp [Cont] at hc
    obtain ⟨b, h1, h2⟩ := takeComment_spec h
    rcases hc with ⟨w', rfl, hw⟩ | ⟨k, hk⟩
    · simp at he
      rw [h1] at he
      rw [(noClose_unique h2 hw he).2]; exact Nat.le_refl _
    · cases k <;> simp [symText] at hk
      subst hk; simp at he; subst he; simp [h1]; omega
  | sym k text r l c h h2 =>
    obtain ⟨x, u, rfl, e1, e2⟩ := symText_special h
    simp at he; obtain ⟨rfl, he⟩ := he
    rw [cls_special e1 e2] at hc
    rcases hc with ⟨rfl, w, rfl, -⟩ | ⟨rfl, b, rfl, -⟩ | ⟨k', hk⟩
    · cases k <;> simp [symText] at h
      subst h; simp at he
      exact absurd (by simp [gluing]) (h2 '-' '-' rfl (by simp [he]))
    · cases k <;> simp [symText] at h
      subst h; simp at he
      exact absurd (by simp [gluing]) (h2 '/' '*' rfl (by simp [he]))
    · exact symText_max h h2 hk (by simp [he])
  | char x r l c h1 h2 h3 h4 h5 =>
    simp at he; obtain ⟨rfl, he⟩ := he
    rw [cls_other h1 h2 h3 h4 h5] at hc
    simp [Cont] at hc; subst hc; simp at he; simp [he]

end Verif
