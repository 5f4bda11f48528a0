import Verif.Proofs.Tokenizer
/-
Inversion of `next`: every token it returns comes from one of a few situations.
-/
namespace Verif
open Spec

/-- The situations in which `next` returns a token. -/
inductive NextRel (d : Dialect) : TState → Tok → TState → Prop
  | space (cs l c) : NextRel d ⟨' ' :: cs, l, c⟩ (.whitespace [' ']) ⟨cs, l, c + 1⟩
  | tab (cs l c) : NextRel d ⟨'\t' :: cs, l, c⟩ (.whitespace ['\t']) ⟨cs, l, c + 4⟩
  | lf (cs l c) : NextRel d ⟨'\n' :: cs, l, c⟩ (.whitespace ['\n']) ⟨cs, l + 1, 1⟩
  | cr (cs l c) : cs.head? ≠ some '\n' →
      NextRel d ⟨'\r' :: cs, l, c⟩ (.whitespace ['\n']) ⟨cs, l + 1, 1⟩
  | crlf (cs l c) : NextRel d ⟨'\r' :: '\n' :: cs, l, c⟩ (.whitespace ['\n']) ⟨cs, l + 1, 1⟩
  | national (s r l c) : r.head? ≠ some '\'' →
      NextRel d ⟨'N' :: '\'' :: (escape s ++ '\'' :: r), l, c⟩ (.national s) ⟨r, l, c + 1 + (2 + byteLen s)⟩
  | single (s r l c) : r.head? ≠ some '\'' →
      NextRel d ⟨'\'' :: (escape s ++ '\'' :: r), l, c⟩ (.single s) ⟨r, l, c + (2 + byteLen s)⟩
  | word (x w r l c) : (x = 'N' ∨ d.isIdentStart x = true) → x ≠ '\n' → x ≠ '\r' → x ≠ '\t' →
      (∀ y ∈ w, d.isIdentPart y = true) →
      (x = 'N' → (w ++ r).head? ≠ some '\'') →
      (∀ y, r.head? = some y → d.isIdentPart y = false) →
      NextRel d ⟨x :: (w ++ r), l, c⟩ (.word ⟨x :: w, none, upper (x :: w)⟩) ⟨r, l, c + byteLen (x :: w)⟩
  | delim (q w r l c) : d.isDelimStart q = true → q ≠ '\n' → q ≠ '\r' → q ≠ '\t' →
      d.isIdentStart q = false → q ≠ '\'' →
      matchingEndQuote q ∉ w →
      NextRel d ⟨q :: (w ++ matchingEndQuote q :: r), l, c⟩ (.word ⟨w, some q, upper w⟩)
        ⟨r, l, c + (2 + w.length)⟩
  | number (x w r l c) : isDigit x = true → x ≠ '\n' → x ≠ '\r' → x ≠ '\t' →
      (∀ y ∈ w, isDigit y = true ∨ y = '.') →
      (∀ y, r.head? = some y → isDigit y = false ∧ y ≠ '.') →
      NextRel d ⟨x :: (w ++ r), l, c⟩ (.number (x :: w)) ⟨r, l, c + (w.length + 1)⟩
  | line (w r l c) : '\n' ∉ w → (∀ y, r.head? = some y → y = '\n') →
      NextRel d ⟨'-' :: '-' :: (w ++ r), l, c⟩ (.comment w) ⟨r, l, c + (w.length + 2)⟩
  | block (cs str s' l c) : takeComment cs false [] l (c + 2) = .ok (str, s') →
      NextRel d ⟨'/' :: '*' :: cs, l, c⟩ (.comment str) s'
  | sym (k text r l c) : text ∈ symText k → SymEnds text r.head? →
      NextRel d ⟨text ++ r, l, c⟩ (.sym k text) ⟨r, l, c + text.length⟩
  | char (x r l c) : x ∉ specials → isDigit x = false → x ≠ 'N' → d.isIdentStart x = false →
      d.isDelimStart x = false →
      NextRel d ⟨x :: r, l, c⟩ (.char x) ⟨r, l, c + 1⟩

theorem head?_eq_some {l : List Char} {c : Char} (h : l.head? = some c) : ∃ t, l = c :: t := by
  cases l with
  | nil => simp at h
  | cons x xs => simp at h; exact ⟨xs, by rw [h]⟩

theorem NextRel.sym' {d : Dialect} {k : Sym} {text rest r : Str} {l c : Nat} {t : Tok} {s' : TState}
    (h : symTok k text ⟨rest, l, c⟩ r = .tok t s') (hr : rest = text ++ r) (hk : text ∈ symText k)
    (he : SymEnds text r.head?) :
    NextRel d ⟨rest, l, c⟩ t s' := by
  simp [symTok, TState.adv] at h
  obtain ⟨rfl, rfl⟩ := h
  subst hr
  exact NextRel.sym k text r l c hk he

theorem NextRel.sym1 {d : Dialect} {k : Sym} {x : Char} {r : Str} {l c : Nat} {t : Tok} {s' : TState}
    (h : symTok k [x] ⟨x :: r, l, c⟩ r = .tok t s') (hk : [x] ∈ symText k)
    (he : ∀ y, r.head? = some y → (x, y) ∉ gluing) :
    NextRel d ⟨x :: r, l, c⟩ t s' := NextRel.sym' h rfl hk (by
      intro a b ha hb; simp at ha; subst ha; exact he b hb)

theorem NextRel.sym2 {d : Dialect} {k : Sym} {x y : Char} {cs : Str} {l c : Nat} {t : Tok} {s' : TState}
    (h : symTok k [x, y] ⟨x :: cs, l, c⟩ cs.tail = .tok t s') (hy : cs.head? = some y)
    (hk : [x, y] ∈ symText k) :
    NextRel d ⟨x :: cs, l, c⟩ t s' := by
  obtain ⟨r, rfl⟩ := head?_eq_some hy
  exact NextRel.sym' h rfl hk (by intro a b ha; simp at ha)

theorem NextRel.word' {d : Dialect} {x : Char} {cs : Str} {l c : Nat} {t : Tok} {s' : TState}
    (h : NextRes.tok (.word (makeKeyword (tokenizeWord d x ⟨cs, l, c⟩).1 none))
      (tokenizeWord d x ⟨cs, l, c⟩).2 = .tok t s')
    (hx : x = 'N' ∨ d.isIdentStart x = true) (h1 : x ≠ '\n') (h2 : x ≠ '\r') (h3 : x ≠ '\t')
    (h4 : x = 'N' → cs.head? ≠ some '\'') :
    NextRel d ⟨x :: cs, l, c⟩ t s' := by
  obtain ⟨e1, e2, e3⟩ := takeWord_spec d cs
  simp only [tokenizeWord, makeKeyword_eq, NextRes.tok.injEq] at h
  obtain ⟨rfl, rfl⟩ := h
  have := NextRel.word x (takeWord d cs).1 (takeWord d cs).2 l c hx h1 h2 h3 e2
    (by rw [← e1]; exact h4) e3
  rw [← e1] at this
  exact this

theorem peel {p : Prop} [Decidable p] {a b r : NextRes} (h : (if p then a else b) = r) :
    (p ∧ a = r) ∨ (¬ p ∧ b = r) := by
  split at h
  · exact .inl ⟨‹_›, h⟩
  · exact .inr ⟨‹_›, h⟩

theorem next_rel {d : Dialect} {fuel : Nat} {s s' : TState} {t : Tok}
    (h : next d fuel s = .tok t s') : NextRel d s t s' := by
  obtain ⟨rest, l, c⟩ := s
  unfold next at h
  dsimp only at h
  cases rest with
  | nil => simp at h
  | cons r cs =>
    dsimp only at h
    by_cases h1 : r = ' '
    · subst h1; simp [TState.adv] at h; obtain ⟨rfl, rfl⟩ := h; constructor
    rw [if_neg h1] at h
    by_cases h2 : r = '\t'
    · subst h2; simp [TState.adv] at h; obtain ⟨rfl, rfl⟩ := h; constructor
    rw [if_neg h2] at h
    by_cases h3 : r = '\n'
    · subst h3; simp at h; obtain ⟨rfl, rfl⟩ := h; constructor
    rw [if_neg h3] at h
    by_cases h4 : r = '\r'
    · subst h4
      rw [if_pos rfl] at h
      simp only [NextRes.tok.injEq] at h
      obtain ⟨rfl, rfl⟩ := h
      by_cases hn : cs.head? = some '\n'
      · obtain ⟨t, rfl⟩ := head?_eq_some hn
        rw [if_pos hn]; exact NextRel.crlf _ _ _
      · rw [if_neg hn]; exact NextRel.cr _ _ _ hn
    rw [if_neg h4] at h
    by_cases h5 : r = 'N'
    · subst h5
      rw [if_pos rfl] at h
      by_cases hq : cs.head? = some '\''
      · rw [if_pos hq] at h
        obtain ⟨u, rfl⟩ := head?_eq_some hq
        simp only [tokenizeSingleQuotedString, TState.adv, List.tail_cons] at h
        match hs : takeString u with
        | none => rw [hs] at h; simp at h
        | some (str, r) =>
          rw [hs] at h
          simp at h
          obtain ⟨rfl, rfl⟩ := h
          obtain ⟨rfl, hr⟩ := takeString_spec _ hs
          exact NextRel.national str r l c hr
      · rw [if_neg hq] at h
        exact NextRel.word' h (.inl rfl) h3 h4 h2 (fun _ => hq)
    rw [if_neg h5] at h
    by_cases h6 : d.isIdentStart r = true
    · rw [if_pos h6] at h
      exact NextRel.word' h (.inr h6) h3 h4 h2 (fun hN => absurd hN h5)
    rw [if_neg h6] at h
    by_cases h7 : r = '\''
    · rw [if_pos h7] at h
      subst h7
      simp only [tokenizeSingleQuotedString, List.tail_cons] at h
      match hs : takeString cs with
      | none => rw [hs] at h; simp at h
      | some (str, r) =>
        rw [hs] at h
        simp at h
        obtain ⟨rfl, rfl⟩ := h
        obtain ⟨rfl, hr⟩ := takeString_spec _ hs
        exact NextRel.single str r l c hr
    rw [if_neg h7] at h
    by_cases h8 : d.isDelimStart r = true
    · rw [if_pos h8] at h
      match hs : takeDelim (matchingEndQuote r) fuel cs with
      | none => rw [hs] at h; simp at h
      | some (w, r') =>
        rw [hs] at h
        simp [makeKeyword_eq, TState.adv] at h
        obtain ⟨rfl, rfl⟩ := h
        obtain ⟨rfl, hr⟩ := takeDelim_spec _ _ _ hs
        exact NextRel.delim r w r' l c h8 h3 h4 h2 (by simpa using h6) h7 hr
    rw [if_neg h8] at h
    by_cases h9 : isDigit r = true
    · rw [if_pos h9] at h
      obtain ⟨e1, e2, e3⟩ := takeNumber_spec cs
      have hn : takeNumber (r :: cs) = (r :: (takeNumber cs).1, (takeNumber cs).2) := by
        simp [takeNumber, h9]
      rw [hn] at h
      simp [TState.adv] at h
      obtain ⟨rfl, rfl⟩ := h
      have := NextRel.number (d := d) r (takeNumber cs).1 (takeNumber cs).2 l c h9 h3 h4 h2 e2 e3
      rw [← e1] at this
      exact this
    rw [if_neg h9] at h
    rcases peel h with ⟨rfl, h⟩ | ⟨g1, h⟩
    · exact NextRel.sym1 h (by simp [symText]) (by intro y hy; simp_all [gluing])
    rcases peel h with ⟨rfl, h⟩ | ⟨g2, h⟩
    · exact NextRel.sym1 h (by simp [symText]) (by intro y hy; simp_all [gluing])
    rcases peel h with ⟨rfl, h⟩ | ⟨g3, h⟩
    · exact NextRel.sym1 h (by simp [symText]) (by intro y hy; simp_all [gluing])
    by_cases h10 : r = '-'
    · subst h10
      rw [if_pos rfl] at h
      by_cases hq : cs.head? = some '-'
      · rw [if_pos hq] at h
        obtain ⟨u, rfl⟩ := head?_eq_some hq
        obtain ⟨e1, e2, e3⟩ := takeLine_spec u
        simp [TState.adv] at h
        obtain ⟨rfl, rfl⟩ := h
        have := NextRel.line (d := d) (takeLine u).1 (takeLine u).2 l c e2 e3
        rw [← e1] at this
        exact this
      · rw [if_neg hq] at h
        exact NextRel.sym1 h (by simp [symText]) (by intro y hy; simp_all [gluing])
    rw [if_neg h10] at h
    by_cases h11 : r = '/'
    · subst h11
      rw [if_pos rfl] at h
      by_cases hq : cs.head? = some '*'
      · rw [if_pos hq] at h
        obtain ⟨u, rfl⟩ := head?_eq_some hq
        simp only [tokenizeMultilineComment, List.tail_cons] at h
        match hs : takeComment u false [] l (c + 2) with
        | .error _ => rw [hs] at h; simp at h
        | .ok (str, s') =>
          rw [hs] at h
          simp at h
          obtain ⟨rfl, rfl⟩ := h
          exact NextRel.block u str s' l c hs
      · rw [if_neg hq] at h
        exact NextRel.sym1 h (by simp [symText]) (by intro y hy; simp_all [gluing])
    rw [if_neg h11] at h
    rcases peel h with ⟨rfl, h⟩ | ⟨g4, h⟩
    · exact NextRel.sym1 h (by simp [symText]) (by intro y hy; simp_all [gluing])
    rcases peel h with ⟨rfl, h⟩ | ⟨g5, h⟩
    · exact NextRel.sym1 h (by simp [symText]) (by intro y hy; simp_all [gluing])
    rcases peel h with ⟨rfl, h⟩ | ⟨g6, h⟩
    · exact NextRel.sym1 h (by simp [symText]) (by intro y hy; simp_all [gluing])
    rcases peel h with ⟨rfl, h⟩ | ⟨g7, h⟩
    · exact NextRel.sym1 h (by simp [symText]) (by intro y hy; simp_all [gluing])
    rcases peel h with ⟨rfl, h⟩ | ⟨g8, h⟩
    · exact NextRel.sym1 h (by simp [symText]) (by intro y hy; simp_all [gluing])
    by_cases h12 : r = '!'
    · subst h12
      rw [if_pos rfl] at h
      by_cases hq : cs.head? = some '='
      · rw [if_pos hq] at h; exact NextRel.sym2 h hq (by simp [symText])
      · rw [if_neg hq] at h; simp at h
    rw [if_neg h12] at h
    by_cases h13 : r = '<'
    · subst h13
      rw [if_pos rfl] at h
      by_cases hq : cs.head? = some '='
      · rw [if_pos hq] at h; exact NextRel.sym2 h hq (by simp [symText])
      rw [if_neg hq] at h
      by_cases hq : cs.head? = some '>'
      · rw [if_pos hq] at h; exact NextRel.sym2 h hq (by simp [symText])
      rw [if_neg hq] at h; exact NextRel.sym1 h (by simp [symText]) (by intro y hy; simp_all [gluing])
    rw [if_neg h13] at h
    by_cases h14 : r = '>'
    · subst h14
      rw [if_pos rfl] at h
      by_cases hq : cs.head? = some '='
      · rw [if_pos hq] at h; exact NextRel.sym2 h hq (by simp [symText])
      rw [if_neg hq] at h; exact NextRel.sym1 h (by simp [symText]) (by intro y hy; simp_all [gluing])
    rw [if_neg h14] at h
    by_cases h15 : r = ':'
    · subst h15
      rw [if_pos rfl] at h
      by_cases hq : cs.head? = some ':'
      · rw [if_pos hq] at h; exact NextRel.sym2 h hq (by simp [symText])
      rw [if_neg hq] at h; exact NextRel.sym1 h (by simp [symText]) (by intro y hy; simp_all [gluing])
    rw [if_neg h15] at h
    rcases peel h with ⟨rfl, h⟩ | ⟨g9, h⟩
    · exact NextRel.sym1 h (by simp [symText]) (by intro y hy; simp_all [gluing])
    rcases peel h with ⟨rfl, h⟩ | ⟨g10, h⟩
    · exact NextRel.sym1 h (by simp [symText]) (by intro y hy; simp_all [gluing])
    rcases peel h with ⟨rfl, h⟩ | ⟨g11, h⟩
    · exact NextRel.sym1 h (by simp [symText]) (by intro y hy; simp_all [gluing])
    rcases peel h with ⟨rfl, h⟩ | ⟨g12, h⟩
    · exact NextRel.sym1 h (by simp [symText]) (by intro y hy; simp_all [gluing])
    rcases peel h with ⟨rfl, h⟩ | ⟨g13, h⟩
    · exact NextRel.sym1 h (by simp [symText]) (by intro y hy; simp_all [gluing])
    rcases peel h with ⟨rfl, h⟩ | ⟨g14, h⟩
    · exact NextRel.sym1 h (by simp [symText]) (by intro y hy; simp_all [gluing])
    rcases peel h with ⟨rfl, h⟩ | ⟨g15, h⟩
    · exact NextRel.sym1 h (by simp [symText]) (by intro y hy; simp_all [gluing])
    simp [TState.adv] at h
    obtain ⟨rfl, rfl⟩ := h
    refine NextRel.char r cs l c ?_ (by simpa using h9) h5 (by simpa using h6) (by simpa using h8)
    simp [specials, h1, h2, h3, h4, h7, h10, h11, h12, h13, h14, h15, g1, g2, g3, g4, g5, g6, g7, g8, g9, g10, g11, g12, g13, g14, g15]


theorem Spec.Sane.neq {d : Dialect} (hs : Sane d) {c x : Char} (h : d.isIdentStart c = true)
    (hx : x ∈ specials) : c ≠ x := by
  rintro rfl; exact (hs.start c h).1 hx

/-- `NextRel` describes a spelling and consumes it. -/
theorem NextRel.spells {d : Dialect} {s s' : TState} {t : Tok} (h : NextRel d s t s') :
    ∃ piece, s.rest = piece ++ s'.rest ∧ Spells d t piece := by
  cases h with
  | space cs l c => exact ⟨[' '], rfl, .space⟩
  | tab cs l c => exact ⟨['\t'], rfl, .tab⟩
  | lf cs l c => exact ⟨['\n'], rfl, .lf⟩
  | cr cs l c => exact ⟨['\r'], rfl, .cr⟩
  | crlf cs l c => exact ⟨['\r', '\n'], rfl, .crlf⟩
  | national s r l c => exact ⟨_, by simp, .national s⟩
  | single s r l c => exact ⟨_, by simp, .single s⟩
  | word x w r l c h1 h2 h3 h4 h5 h6 h7 => exact ⟨x :: w, by simp, .word x w h1 h5⟩
  | delim q w r l c h1 h2 h3 h4 h5 h6 h7 => exact ⟨_, by simp, .delim q w h1 h7⟩
  | number x w r l c h1 h2 h3 h4 h5 => exact ⟨_, by simp, .number x w h1 h5⟩
  | line w r l c h1 h2 => exact ⟨_, by simp, .line w h1⟩
  | block cs str s' l c h =>
    obtain ⟨body, h1, h2⟩ := takeComment_spec h
    exact ⟨_, by simp [h1], .block body str h2⟩
  | sym k text r l c h _ => exact ⟨text, rfl, .sym k text h⟩
  | char x r l c h1 h2 h3 h4 h5 => exact ⟨[x], rfl, .char x h1 h2 h3 h4 h5⟩

end Verif
