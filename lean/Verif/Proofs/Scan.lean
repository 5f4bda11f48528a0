import Verif.Proofs.Munch
/-
The four outcomes of `next`, and what they mean for `Tokenize`.
-/
namespace Verif
open Spec

/-! ### forward computation of `next` -/

theorem not_special_all {c : Char} (h : c ∉ specials) :
    c ≠ ' ' ∧ c ≠ '\t' ∧ c ≠ '\n' ∧ c ≠ '\r' ∧ c ≠ '\'' ∧ c ≠ '(' ∧ c ≠ ')' ∧ c ≠ ',' ∧ c ≠ '-' ∧ c ≠ '/' ∧
    c ≠ '+' ∧ c ≠ '*' ∧ c ≠ '%' ∧ c ≠ '=' ∧ c ≠ '.' ∧ c ≠ '!' ∧ c ≠ '<' ∧ c ≠ '>' ∧ c ≠ ':' ∧ c ≠ ';' ∧
    c ≠ '\\' ∧ c ≠ '[' ∧ c ≠ ']' ∧ c ≠ '&' ∧ c ≠ '{' ∧ c ≠ '}' := by
  simpa [specials, not_or] using h

theorem Spec.Sane.special_start {d : Dialect} (hd : Sane d) {c : Char} (h : c ∈ specials) :
    d.isIdentStart c = false := by
  match hs : d.isIdentStart c with
  | false => rfl
  | true => exact absurd h (hd.start c hs).1

theorem Spec.Sane.special_delim {d : Dialect} (hd : Sane d) {c : Char} (h : c ∈ specials) :
    d.isDelimStart c = false := by
  match hs : d.isDelimStart c with
  | false => rfl
  | true => exact absurd h (hd.delim c hs).1

theorem Spec.Sane.delim_start {d : Dialect} (hd : Sane d) {c : Char} (h : d.isDelimStart c = true) :
    d.isIdentStart c = false := by
  match hs : d.isIdentStart c with
  | false => rfl
  | true => rw [(hd.start c hs).2.2] at h; cases h

theorem next_word {d : Dialect} (hd : Sane d) (fuel : Nat) {x : Char} {w rest : Str} (l c : Nat)
    (hx : x = 'N' ∨ d.isIdentStart x = true) (hw : ∀ y ∈ w, d.isIdentPart y = true)
    (h1 : ∀ y, rest.head? = some y → d.isIdentPart y = false)
    (h2 : x :: w = ['N'] → rest.head? ≠ some '\'') :
    next d fuel ⟨x :: (w ++ rest), l, c⟩ =
      .tok (.word ⟨x :: w, none, upper (x :: w)⟩) ⟨rest, l, c + byteLen (x :: w)⟩ := by
  obtain ⟨g1, g2, g3, g4, -⟩ := not_special_all (start_not_special hd hx)
  have hN : x = 'N' → (w ++ rest).head? ≠ some '\'' := by
    intro hN
    subst hN
    cases w with
    | nil => simpa using h2
    | cons y w =>
      intro hy
      simp at hy
      subst hy
      have := hw _ (by simp : '\'' ∈ '\'' :: w)
      rw [hd.part] at this
      cases this
  by_cases hx' : x = 'N'
  · subst hx'
    simp only [next, tokenizeWord, takeWord_append d hw h1, makeKeyword_eq]
    simp [- List.head?_append, hN rfl]
  · have hx := hx.resolve_left hx'
    simp only [next, tokenizeWord, takeWord_append d hw h1, makeKeyword_eq]
    simp [*]

theorem next_single {d : Dialect} (hd : Sane d) (fuel : Nat) {s rest : Str} (l c : Nat)
    (h : rest.head? ≠ some '\'') :
    next d fuel ⟨'\'' :: (escape s ++ '\'' :: rest), l, c⟩ = .tok (.single s) ⟨rest, l, c + (2 + byteLen s)⟩ := by
  have h1 := hd.special_start (c := '\'') (by decide)
  simp [next, h1, tokenizeSingleQuotedString, takeString_escape s rest h]

theorem next_national {d : Dialect} (fuel : Nat) {s rest : Str} (l c : Nat)
    (h : rest.head? ≠ some '\'') :
    next d fuel ⟨'N' :: '\'' :: (escape s ++ '\'' :: rest), l, c⟩ =
      .tok (.national s) ⟨rest, l, c + 1 + (2 + byteLen s)⟩ := by
  simp [next, tokenizeSingleQuotedString, takeString_escape s rest h, TState.adv]

theorem next_delim {d : Dialect} (hd : Sane d) {fuel : Nat} {q : Char} {w rest : Str} (l c : Nat)
    (hq : d.isDelimStart q = true) (hw : matchingEndQuote q ∉ w) (hf : w.length < fuel) :
    next d fuel ⟨q :: (w ++ matchingEndQuote q :: rest), l, c⟩ =
      .tok (.word ⟨w, some q, upper w⟩) ⟨rest, l, c + (2 + w.length)⟩ := by
  obtain ⟨h1, h2, h3⟩ := hd.delim q hq
  obtain ⟨g1, g2, g3, g4, g5, -⟩ := not_special_all h1
  have := hd.delim_start hq
  simp [next, *, takeDelim_append hw hf, makeKeyword_eq, TState.adv]

theorem digit_facts {x : Char} (hx : isDigit x = true) : x ≠ 'N' := by
  rintro rfl; simp [isDigit] at hx

theorem next_number {d : Dialect} (hd : Sane d) (fuel : Nat) {x : Char} {w rest : Str} (l c : Nat)
    (hx : isDigit x = true) (hw : ∀ y ∈ w, isDigit y = true ∨ y = '.')
    (h1 : ∀ y, rest.head? = some y → isDigit y = false ∧ y ≠ '.') :
    next d fuel ⟨x :: (w ++ rest), l, c⟩ = .tok (.number (x :: w)) ⟨rest, l, c + (w.length + 1)⟩ := by
  obtain ⟨g1, g2, g3, g4, g5, -⟩ := not_special_all (digit_not_special hx)
  have e1 : d.isIdentStart x = false := by
    match hs : d.isIdentStart x with
    | false => rfl
    | true => rw [(hd.start x hs).2.1] at hx; cases hx
  have e2 : d.isDelimStart x = false := by
    match hs : d.isDelimStart x with
    | false => rfl
    | true => rw [(hd.delim x hs).2.1] at hx; cases hx
  have e3 := digit_facts hx
  have e4 : takeNumber (x :: (w ++ rest)) = (x :: w, rest) := by
    rw [← List.cons_append]
    exact takeNumber_append (by intro y hy; simp at hy; rcases hy with rfl | hy; exact .inl hx; exact hw y hy) h1
  simp [next, *, TState.adv]

theorem next_line {d : Dialect} (hd : Sane d) (fuel : Nat) {w rest : Str} (l c : Nat)
    (hw : '\n' ∉ w) (h1 : ∀ y, rest.head? = some y → y = '\n') :
    next d fuel ⟨'-' :: '-' :: (w ++ rest), l, c⟩ = .tok (.comment w) ⟨rest, l, c + (w.length + 2)⟩ := by
  have e1 := hd.special_start (c := '-') (by decide)
  have e2 := hd.special_delim (c := '-') (by decide)
  simp [next, e1, e2, isDigit, takeLine_append hw h1, TState.adv]

theorem next_slash_star {d : Dialect} (hd : Sane d) (fuel : Nat) (cs : Str) (l c : Nat) :
    next d fuel ⟨'/' :: '*' :: cs, l, c⟩ = match takeComment cs false [] l (c + 2) with
        | .ok (str, s') => .tok (.comment str) s'
        | .error s' => .err .unclosedComment s' := by
  have e1 := hd.special_start (c := '/') (by decide)
  have e2 := hd.special_delim (c := '/') (by decide)
  simp [next, e1, e2, isDigit, tokenizeMultilineComment]
  rfl

theorem next_char {d : Dialect} (fuel : Nat) {x : Char} {rest : Str} (l c : Nat)
    (h1 : x ∉ specials) (h2 : isDigit x = false) (h3 : x ≠ 'N') (h4 : d.isIdentStart x = false)
    (h5 : d.isDelimStart x = false) :
    next d fuel ⟨x :: rest, l, c⟩ = .tok (.char x) ⟨rest, l, c + 1⟩ := by
  obtain ⟨g1, g2, g3, g4, g5, g6, g7, g8, g9, g10, g11, g12, g13, g14, g15, g16, g17, g18, g19, g20, g21, g22,
    g23, g24, g25, g26⟩ := not_special_all h1
  simp [next, *, TState.adv]

theorem next_sym {d : Dialect} (hd : Sane d) (fuel : Nat) {k : Sym} {text rest : Str} (l c : Nat)
    (h1 : text ∈ symText k) (h2 : SymEnds text rest.head?) :
    next d fuel ⟨text ++ rest, l, c⟩ = .tok (.sym k text) ⟨rest, l, c + text.length⟩ := by
  obtain ⟨x, u, he, hx, hx'⟩ := symText_special h1
  have e1 := hd.special_start hx
  have e2 := hd.special_delim hx
  have e3 : isDigit x = false := by
    match hs : isDigit x with
    | false => rfl
    | true => exact absurd hx (digit_not_special hs)
  subst he
  have h2' : ∀ y, (x, y) ∈ gluing → u = [] → rest.head? ≠ some y := by
    intro y hg hu hy; subst hu; exact h2 x y rfl hy hg
  clear h2 hx hx'
  cases k <;> simp [symText] at h1
  case Neq =>
    rcases h1 with ⟨rfl, rfl⟩ | ⟨rfl, rfl⟩ <;> simp [next, symTok, e1, e2, e3, TState.adv]
  all_goals
    obtain ⟨rfl, rfl⟩ := h1
    simp [gluing] at h2'
    simp [next, symTok, e1, e2, e3, TState.adv, h2']

/-! ### the other outcomes -/

theorem next_eof_inv {d : Dialect} {fuel : Nat} {s : TState} (h : next d fuel s = .eof) : s.rest = [] := by
  obtain ⟨rest, l, c⟩ := s
  cases rest with
  | nil => rfl
  | cons r cs =>
    exfalso
    unfold next at h
    simp only [symTok] at h
    rcases peel h with ⟨hr, h⟩ | ⟨-, h⟩
    · simp at h
    rcases peel h with ⟨hr, h⟩ | ⟨-, h⟩
    · simp at h
    rcases peel h with ⟨hr, h⟩ | ⟨-, h⟩
    · simp at h
    rcases peel h with ⟨hr, h⟩ | ⟨-, h⟩
    · simp at h
    rcases peel h with ⟨hr, h⟩ | ⟨-, h⟩
    · (first | (simp at h; done) | (repeat' split at h) <;> simp at h)
    rcases peel h with ⟨hr, h⟩ | ⟨-, h⟩
    · simp at h
    rcases peel h with ⟨hr, h⟩ | ⟨-, h⟩
    · (first | (simp at h; done) | (repeat' split at h) <;> simp at h)
    rcases peel h with ⟨hr, h⟩ | ⟨-, h⟩
    · (first | (simp at h; done) | (repeat' split at h) <;> simp at h)
    rcases peel h with ⟨hr, h⟩ | ⟨-, h⟩
    · simp at h
    rcases peel h with ⟨hr, h⟩ | ⟨-, h⟩
    · simp at h
    rcases peel h with ⟨hr, h⟩ | ⟨-, h⟩
    · simp at h
    rcases peel h with ⟨hr, h⟩ | ⟨-, h⟩
    · simp at h
    rcases peel h with ⟨hr, h⟩ | ⟨-, h⟩
    · (first | (simp at h; done) | (repeat' split at h) <;> simp at h)
    rcases peel h with ⟨hr, h⟩ | ⟨-, h⟩
    · (first | (simp at h; done) | (repeat' split at h) <;> simp at h)
    rcases peel h with ⟨hr, h⟩ | ⟨-, h⟩
    · simp at h
    rcases peel h with ⟨hr, h⟩ | ⟨-, h⟩
    · simp at h
    rcases peel h with ⟨hr, h⟩ | ⟨-, h⟩
    · simp at h
    rcases peel h with ⟨hr, h⟩ | ⟨-, h⟩
    · simp at h
    rcases peel h with ⟨hr, h⟩ | ⟨-, h⟩
    · simp at h
    rcases peel h with ⟨hr, h⟩ | ⟨-, h⟩
    · (first | (simp at h; done) | (repeat' split at h) <;> simp at h)
    rcases peel h with ⟨hr, h⟩ | ⟨-, h⟩
    · (first | (simp at h; done) | (repeat' split at h) <;> simp at h)
    rcases peel h with ⟨hr, h⟩ | ⟨-, h⟩
    · (first | (simp at h; done) | (repeat' split at h) <;> simp at h)
    rcases peel h with ⟨hr, h⟩ | ⟨-, h⟩
    · (first | (simp at h; done) | (repeat' split at h) <;> simp at h)
    rcases peel h with ⟨hr, h⟩ | ⟨-, h⟩
    · simp at h
    rcases peel h with ⟨hr, h⟩ | ⟨-, h⟩
    · simp at h
    rcases peel h with ⟨hr, h⟩ | ⟨-, h⟩
    · simp at h
    rcases peel h with ⟨hr, h⟩ | ⟨-, h⟩
    · simp at h
    rcases peel h with ⟨hr, h⟩ | ⟨-, h⟩
    · simp at h
    rcases peel h with ⟨hr, h⟩ | ⟨-, h⟩
    · simp at h
    rcases peel h with ⟨hr, h⟩ | ⟨-, h⟩
    · simp at h
    simp at h

theorem next_err_inv {d : Dialect} {fuel : Nat} {s s' : TState} {e : TokErr}
    (h : next d fuel s = .err e s') : Broken s.rest e := by
  obtain ⟨rest, l, c⟩ := s
  cases rest with
  | nil => simp [next] at h
  | cons r cs =>
    unfold next at h
    simp only [symTok, tokenizeSingleQuotedString, tokenizeMultilineComment, TState.adv] at h
    rcases peel h with ⟨hr, h⟩ | ⟨-, h⟩
    · simp at h
    rcases peel h with ⟨hr, h⟩ | ⟨-, h⟩
    · simp at h
    rcases peel h with ⟨hr, h⟩ | ⟨-, h⟩
    · simp at h
    rcases peel h with ⟨hr, h⟩ | ⟨-, h⟩
    · simp at h
    rcases peel h with ⟨hr, h⟩ | ⟨-, h⟩
    · rcases peel h with ⟨hq, h⟩ | ⟨-, h⟩
      · obtain ⟨u, rfl⟩ := head?_eq_some hq
        subst hr
        match hs : takeString u with
        | some (str, r) => rw [List.tail_cons, hs] at h; simp at h
        | none =>
          rw [List.tail_cons, hs] at h; simp at h; obtain ⟨rfl, rfl⟩ := h
          exact .national _ ((takeString_none_iff _).1 hs)
      · simp at h
    rcases peel h with ⟨hr, h⟩ | ⟨-, h⟩
    · simp at h
    rcases peel h with ⟨hr, h⟩ | ⟨-, h⟩
    · subst hr
      match hs : takeString cs with
      | some (str, r) => rw [List.tail_cons, hs] at h; simp at h
      | none =>
        rw [List.tail_cons, hs] at h; simp at h; obtain ⟨rfl, rfl⟩ := h
        exact .string _ ((takeString_none_iff _).1 hs)
    rcases peel h with ⟨hr, h⟩ | ⟨-, h⟩
    · (first | (simp at h; done) | (repeat' split at h) <;> simp at h)
    rcases peel h with ⟨hr, h⟩ | ⟨-, h⟩
    · simp at h
    rcases peel h with ⟨hr, h⟩ | ⟨-, h⟩
    · simp at h
    rcases peel h with ⟨hr, h⟩ | ⟨-, h⟩
    · simp at h
    rcases peel h with ⟨hr, h⟩ | ⟨-, h⟩
    · simp at h
    rcases peel h with ⟨hr, h⟩ | ⟨-, h⟩
    · (first | (simp at h; done) | (repeat' split at h) <;> simp at h)
    rcases peel h with ⟨hr, h⟩ | ⟨-, h⟩
    · rcases peel h with ⟨hq, h⟩ | ⟨-, h⟩
      · obtain ⟨u, rfl⟩ := head?_eq_some hq
        subst hr
        simp only [List.tail_cons] at h
        match hs : takeComment u false [] l (c + 2) with
        | .ok (str, r) => rw [hs] at h; simp at h
        | .error s' =>
          rw [hs] at h; simp at h; obtain ⟨rfl, rfl⟩ := h
          exact .comment _ ((takeComment_error_iff _ _ _ _).1 ⟨_, hs⟩)
      · simp at h
    rcases peel h with ⟨hr, h⟩ | ⟨-, h⟩
    · simp at h
    rcases peel h with ⟨hr, h⟩ | ⟨-, h⟩
    · simp at h
    rcases peel h with ⟨hr, h⟩ | ⟨-, h⟩
    · simp at h
    rcases peel h with ⟨hr, h⟩ | ⟨-, h⟩
    · simp at h
    rcases peel h with ⟨hr, h⟩ | ⟨-, h⟩
    · simp at h
    rcases peel h with ⟨hr, h⟩ | ⟨-, h⟩
    · by_cases hq : cs.head? = some '='
      · rw [if_pos hq] at h; simp at h
      · subst hr
        rw [if_neg hq] at h
        simp at h; obtain ⟨rfl, rfl⟩ := h
        exact .bang _ hq
    rcases peel h with ⟨hr, h⟩ | ⟨-, h⟩
    · (first | (simp at h; done) | (repeat' split at h) <;> simp at h)
    rcases peel h with ⟨hr, h⟩ | ⟨-, h⟩
    · (first | (simp at h; done) | (repeat' split at h) <;> simp at h)
    rcases peel h with ⟨hr, h⟩ | ⟨-, h⟩
    · (first | (simp at h; done) | (repeat' split at h) <;> simp at h)
    rcases peel h with ⟨hr, h⟩ | ⟨-, h⟩
    · simp at h
    rcases peel h with ⟨hr, h⟩ | ⟨-, h⟩
    · simp at h
    rcases peel h with ⟨hr, h⟩ | ⟨-, h⟩
    · simp at h
    rcases peel h with ⟨hr, h⟩ | ⟨-, h⟩
    · simp at h
    rcases peel h with ⟨hr, h⟩ | ⟨-, h⟩
    · simp at h
    rcases peel h with ⟨hr, h⟩ | ⟨-, h⟩
    · simp at h
    rcases peel h with ⟨hr, h⟩ | ⟨-, h⟩
    · simp at h
    simp at h

theorem next_loop_inv {d : Dialect} {fuel : Nat} {s : TState} (h : next d fuel s = .loop) :
    ∃ q cs, s.rest = q :: cs ∧ d.isDelimStart q = true ∧ takeDelim (matchingEndQuote q) fuel cs = none := by
  obtain ⟨rest, l, c⟩ := s
  cases rest with
  | nil => simp [next] at h
  | cons r cs =>
    unfold next at h
    simp only [symTok, tokenizeSingleQuotedString, tokenizeMultilineComment, TState.adv] at h
    rcases peel h with ⟨hr, h⟩ | ⟨-, h⟩
    · simp at h
    rcases peel h with ⟨hr, h⟩ | ⟨-, h⟩
    · simp at h
    rcases peel h with ⟨hr, h⟩ | ⟨-, h⟩
    · simp at h
    rcases peel h with ⟨hr, h⟩ | ⟨-, h⟩
    · simp at h
    rcases peel h with ⟨hr, h⟩ | ⟨-, h⟩
    · (first | (simp at h; done) | (repeat' split at h) <;> simp at h)
    rcases peel h with ⟨hr, h⟩ | ⟨-, h⟩
    · simp at h
    rcases peel h with ⟨hr, h⟩ | ⟨-, h⟩
    · (first | (simp at h; done) | (repeat' split at h) <;> simp at h)
    rcases peel h with ⟨hr, h⟩ | ⟨-, h⟩
    · refine ⟨r, cs, rfl, hr, ?_⟩
      split at h
      · assumption
      · simp at h
    rcases peel h with ⟨hr, h⟩ | ⟨-, h⟩
    · simp at h
    rcases peel h with ⟨hr, h⟩ | ⟨-, h⟩
    · simp at h
    rcases peel h with ⟨hr, h⟩ | ⟨-, h⟩
    · simp at h
    rcases peel h with ⟨hr, h⟩ | ⟨-, h⟩
    · simp at h
    rcases peel h with ⟨hr, h⟩ | ⟨-, h⟩
    · (first | (simp at h; done) | (repeat' split at h) <;> simp at h)
    rcases peel h with ⟨hr, h⟩ | ⟨-, h⟩
    · (first | (simp at h; done) | (repeat' split at h) <;> simp at h)
    rcases peel h with ⟨hr, h⟩ | ⟨-, h⟩
    · simp at h
    rcases peel h with ⟨hr, h⟩ | ⟨-, h⟩
    · simp at h
    rcases peel h with ⟨hr, h⟩ | ⟨-, h⟩
    · simp at h
    rcases peel h with ⟨hr, h⟩ | ⟨-, h⟩
    · simp at h
    rcases peel h with ⟨hr, h⟩ | ⟨-, h⟩
    · simp at h
    rcases peel h with ⟨hr, h⟩ | ⟨-, h⟩
    · (first | (simp at h; done) | (repeat' split at h) <;> simp at h)
    rcases peel h with ⟨hr, h⟩ | ⟨-, h⟩
    · (first | (simp at h; done) | (repeat' split at h) <;> simp at h)
    rcases peel h with ⟨hr, h⟩ | ⟨-, h⟩
    · (first | (simp at h; done) | (repeat' split at h) <;> simp at h)
    rcases peel h with ⟨hr, h⟩ | ⟨-, h⟩
    · (first | (simp at h; done) | (repeat' split at h) <;> simp at h)
    rcases peel h with ⟨hr, h⟩ | ⟨-, h⟩
    · simp at h
    rcases peel h with ⟨hr, h⟩ | ⟨-, h⟩
    · simp at h
    rcases peel h with ⟨hr, h⟩ | ⟨-, h⟩
    · simp at h
    rcases peel h with ⟨hr, h⟩ | ⟨-, h⟩
    · simp at h
    rcases peel h with ⟨hr, h⟩ | ⟨-, h⟩
    · simp at h
    rcases peel h with ⟨hr, h⟩ | ⟨-, h⟩
    · simp at h
    rcases peel h with ⟨hr, h⟩ | ⟨-, h⟩
    · simp at h
    simp at h

theorem next_loop_open {d : Dialect} {fuel : Nat} {s : TState} (h : next d fuel s = .loop)
    (hf : s.rest.length ≤ fuel) : OpenDelim d s.rest := by
  obtain ⟨q, cs, h1, h2, h3⟩ := next_loop_inv h
  refine ⟨q, cs, h1, h2, fun hm => ?_⟩
  obtain ⟨p, hp⟩ := takeDelim_some_of_mem hm (fuel := fuel) (by rw [h1] at hf; simp at hf; omega)
  rw [hp] at h3; cases h3

theorem next_nil (d : Dialect) (fuel l c : Nat) : next d fuel ⟨[], l, c⟩ = .eof := rfl

theorem next_open {d : Dialect} (hd : Sane d) (fuel : Nat) {s : TState} (h : OpenDelim d s.rest) :
    next d fuel s = .loop := by
  obtain ⟨rest, l, c⟩ := s
  obtain ⟨q, post, hr, hq, hn⟩ := h
  dsimp only at hr; subst hr
  obtain ⟨h1, h2, h3⟩ := hd.delim q hq
  obtain ⟨g1, g2, g3, g4, g5, -⟩ := not_special_all h1
  have := hd.delim_start hq
  simp [next, *, takeDelim_none hn]

theorem next_broken {d : Dialect} (hd : Sane d) (fuel : Nat) {s : TState} {e : TokErr}
    (h : Broken s.rest e) : ∃ s', next d fuel s = .err e s' := by
  obtain ⟨rest, l, c⟩ := s
  cases h with
  | string post h =>
    have h1 := hd.special_start (c := '\'') (by decide)
    simp [next, h1, tokenizeSingleQuotedString, (takeString_none_iff _).2 h]
  | national post h =>
    simp [next, tokenizeSingleQuotedString, TState.adv, (takeString_none_iff _).2 h]
  | comment post h =>
    rw [next_slash_star hd]
    obtain ⟨s', hs⟩ := (takeComment_error_iff post [] l (c + 2)).2 h
    exact ⟨s', by rw [hs]⟩
  | bang post h =>
    have e1 := hd.special_start (c := '!') (by decide)
    have e2 := hd.special_delim (c := '!') (by decide)
    simp [next, e1, e2, isDigit, h]

/-- More fuel changes nothing. -/
theorem takeDelim_mono {e : Char} {cs : List Char} {p} : ∀ {fuel fuel' : Nat}, fuel ≤ fuel' →
    takeDelim e fuel cs = some p → takeDelim e fuel' cs = some p := by
  intro fuel fuel' hf h
  obtain ⟨w, r⟩ := p
  obtain ⟨rfl, hw⟩ := takeDelim_spec _ _ _ h
  have hlt : w.length < fuel := by
    clear hf
    induction w generalizing fuel with
    | nil =>
      cases fuel with
      | zero => simp [takeDelim] at h
      | succ f => simp
    | cons c w ih =>
      cases fuel with
      | zero => simp [takeDelim] at h
      | succ f =>
        simp at hw
        simp [takeDelim, Ne.symm hw.1] at h
        split at h
        · rename_i h2; simp at h; obtain ⟨rfl, rfl⟩ := h
          have := ih hw.2 h2
          simp; omega
        · simp at h
  exact takeDelim_append hw (by omega)

theorem next_mono {d : Dialect} {fuel fuel' : Nat} {s : TState} (hf : fuel ≤ fuel')
    (h : next d fuel s ≠ .loop) : next d fuel' s = next d fuel s := by
  obtain ⟨rest, l, c⟩ := s
  cases rest with
  | nil => rfl
  | cons r cs =>
    unfold next at h ⊢
    dsimp only at h ⊢
    iterate 7
      refine ite_congr rfl (fun _ => by rfl) (fun hr => ?_)
      rw [if_neg hr] at h
    refine ite_congr rfl (fun hr => ?_) (fun hr => by rfl)
    rw [if_pos hr] at h
    match hs : takeDelim (matchingEndQuote r) fuel cs with
    | none => rw [hs] at h; simp at h
    | some p => rw [takeDelim_mono hf hs]

end Verif
