import Verif.Proofs.Positions
/-
Property theorems C01-C11 and C13-C15 (tokenizer).  `tokenize d true` is `Tokenize()` of a
new tokenizer, `tokenize d false` the same after `DisableParseComment()`.  `fuel` counts loop
rounds: `.ok`/`.err` results never depend on it (`C05_fuel_irrelevant`), and `.loop` for every
fuel is a program that does not return.
-/
namespace Verif
open Spec

/-! ### the built-in dialects -/

theorem letter_not_digit {c : Char} (h : isLetter c = true) : isDigit c = false := by
  simp only [isLetter, isDigit, Bool.or_eq_true, Bool.and_eq_true, decide_eq_true_eq, Char.le_def] at *
  rw [Bool.and_eq_false_iff]
  simp only [decide_eq_false_iff_not, UInt32.le_iff_toNat_le] at *
  have a1 : ('a' : Char).val.toNat = 97 := rfl
  have a2 : ('A' : Char).val.toNat = 65 := rfl
  have a3 : ('9' : Char).val.toNat = 57 := rfl
  right
  omega

theorem special_not_start : ∀ c ∈ specials, genericDialect.isIdentStart c = false ∧
    postgresDialect.isIdentStart c = false ∧ c ≠ '"' ∧ c ≠ '`' := by decide

theorem sane_generic : Sane genericDialect where
  start c h := by
    refine ⟨fun hm => ?_, ?_, ?_⟩
    · rw [(special_not_start c hm).1] at h; cases h
    · simp [genericDialect] at h
      rcases h with h | rfl
      · exact letter_not_digit h
      · rfl
    · match hq : genericDialect.isDelimStart c with
      | false => rfl
      | true =>
        simp [genericDialect] at hq; subst hq; revert h; decide
  delim c h := by
    simp [genericDialect] at h; subst h; decide
  part := by decide

theorem sane_mysql : Sane mysqlDialect where
  start c h := by
    refine ⟨fun hm => ?_, ?_, ?_⟩
    · have := (special_not_start c hm).1
      simp [mysqlDialect] at h; rw [this] at h; cases h
    · simp [mysqlDialect, genericDialect] at h
      rcases h with h | rfl
      · exact letter_not_digit h
      · rfl
    · match hq : mysqlDialect.isDelimStart c with
      | false => rfl
      | true =>
        simp [mysqlDialect] at hq; rcases hq with rfl | rfl <;> (revert h; decide)
  delim c h := by
    simp [mysqlDialect] at h; rcases h with rfl | rfl <;> decide
  part := by decide

theorem sane_postgres : Sane postgresDialect where
  start c h := by
    refine ⟨fun hm => ?_, ?_, ?_⟩
    · rw [(special_not_start c hm).2.1] at h; cases h
    · simp [postgresDialect] at h
      rcases h with h | rfl
      · exact letter_not_digit h
      · rfl
    · match hq : postgresDialect.isDelimStart c with
      | false => rfl
      | true =>
        simp [postgresDialect] at hq; rcases hq with rfl | rfl <;> (revert h; decide)
  delim c h := by
    simp [postgresDialect] at h; rcases h with rfl | rfl <;> decide
  part := by decide

/-- The dialects that come with the library. -/
def BuiltIn (d : Dialect) : Prop := d = genericDialect ∨ d = mysqlDialect ∨ d = postgresDialect

theorem BuiltIn.sane {d : Dialect} (h : BuiltIn d) : Sane d := by
  rcases h with rfl | rfl | rfl
  · exact sane_generic
  · exact sane_mysql
  · exact sane_postgres

/-! ### C01-C03 -/

/-- C01: the source is the concatenation of spellings of the returned tokens, for every dialect. -/
theorem C01_tokenize_lossless {d : Dialect} {fuel : Nat} {src : Str} {ts : List Token}
    (h : tokenize d true fuel src = .ok ts) :
    ∃ tps : List (Token × Str), ts = tps.map (·.1) ∧ src = tps.flatMap (·.2) ∧
      ∀ x ∈ tps, Spells d x.1.tok x.2 := by
  obtain ⟨all, s', h1, h2, rfl⟩ := tokenize_ok_inv h
  obtain ⟨tps, i1, i2, i3, -⟩ := h1.pieces
  exact ⟨tps, by simp [filterTok, i1], by simpa [h2] using i2, i3⟩

example : tokenize genericDialect true 30 (str% "a 'it''s'--x") = .ok [
    ⟨.word ⟨str% "a", none, str% "A"⟩, ⟨1, 1⟩, ⟨1, 2⟩⟩, ⟨.whitespace [' '], ⟨1, 2⟩, ⟨1, 3⟩⟩,
    ⟨.single (str% "it's"), ⟨1, 3⟩, ⟨1, 9⟩⟩, ⟨.comment ['x'], ⟨1, 9⟩, ⟨1, 12⟩⟩] := by decide +kernel

/-- C02: positions are contiguous and start at line 1, column 1. -/
theorem C02_positions_contiguous {d : Dialect} {fuel : Nat} {src : Str} {ts : List Token}
    (h : tokenize d true fuel src = .ok ts) :
    (∀ t rest, ts = t :: rest → t.from_ = ⟨1, 1⟩) ∧
    (∀ pre a b post, ts = pre ++ a :: b :: post → b.from_ = a.to_) := by
  obtain ⟨all, s', h1, h2, rfl⟩ := tokenize_ok_inv h
  obtain ⟨-, i2, i3, -⟩ := h1.pos
  exact ⟨i2, i3⟩

/-- C03: every token ends after it starts, and start positions are strictly sorted — also when
whitespace and comments are dropped. -/
theorem C03_positions_increase {d : Dialect} {keep : Bool} {fuel : Nat} {src : Str} {ts : List Token}
    (h : tokenize d keep fuel src = .ok ts) :
    (∀ t ∈ ts, comparePos t.from_ t.to_ = -1) ∧
    ts.Pairwise (fun a b => comparePos a.from_ b.from_ = -1) := by
  obtain ⟨all, s', h1, h2, rfl⟩ := tokenize_ok_inv h
  obtain ⟨i1, -, -, -, i5⟩ := h1.pos
  simp only [comparePos_lt_iff]
  cases keep with
  | true => exact ⟨i1, i5⟩
  | false =>
    refine ⟨fun t ht => i1 t ?_, ?_⟩
    · simp [filterTok] at ht; exact ht.1
    · exact i5.sublist List.filter_sublist

/-! ### C04 -/

/-- C04 is false: a line break inside a string literal is not counted. -/
theorem C04_lines_false : ¬ ∀ (d : Dialect) (fuel : Nat) (src : Str) (tps : List (Token × Str)),
    tokenize d true fuel src = .ok (tps.map (·.1)) → src = tps.flatMap (·.2) →
    (∀ x ∈ tps, Spells d x.1.tok x.2) →
    ∀ a x b, tps = a ++ x :: b → x.1.from_.line = 1 + (a.flatMap (·.2)).count '\n' := by
  intro h
  have := h genericDialect 10 (str% "'\n'a")
    [(⟨.single ['\n'], ⟨1, 1⟩, ⟨1, 4⟩⟩, str% "'\n'"), (⟨.word ⟨str% "a", none, str% "A"⟩, ⟨1, 4⟩, ⟨1, 5⟩⟩, str% "a")]
    (by decide +kernel) (by decide)
    (by
      intro x hx
      simp at hx
      rcases hx with rfl | rfl
      · exact Spells.single ['\n']
      · exact Spells.word 'a' [] (.inr rfl) (by simp))
    [_] _ [] rfl
  revert this; decide

/-- C04, part: when no string literal or identifier contains a line break and every CR is followed by
LF, the line of a token is one plus the number of line breaks before it.  Missing: line breaks inside
literals and quoted identifiers (not counted by the code), lone CRs in `--` comments. -/
theorem C04_lines_partial {d : Dialect} {fuel : Nat} {src : Str} {ts : List Token}
    (h : tokenize d true fuel src = .ok ts) (hcr : CrLf src) (hnb : ∀ t ∈ ts, NoBreakInside t.tok) :
    ∃ tps : List (Token × Str), ts = tps.map (·.1) ∧ src = tps.flatMap (·.2) ∧
      (∀ x ∈ tps, Spells d x.1.tok x.2) ∧
      ∀ a x b, tps = a ++ x :: b → x.1.from_.line = 1 + (a.flatMap (·.2)).count '\n' := by
  obtain ⟨all, s', h1, h2, rfl⟩ := tokenize_ok_inv h
  obtain ⟨tps, i1, i2, i3, i4⟩ := h1.pieces
  exact ⟨tps, by simp [filterTok, i1], by simpa [h2] using i2, i3, i4 hcr hnb⟩

/-- C04, part: in plain ASCII text without tabs, CRs, and quotes or line breaks inside literals, both
coordinates are those of the source text. -/
theorem C04_columns_partial {d : Dialect} {fuel : Nat} {src : Str} {ts : List Token}
    (h : tokenize d true fuel src = .ok ts) (hpl : PlainText src)
    (hnb : ∀ t ∈ ts, NoBreakInside t.tok ∧ NoQuoteInside t.tok) :
    ∃ tps : List (Token × Str), ts = tps.map (·.1) ∧ src = tps.flatMap (·.2) ∧
      (∀ x ∈ tps, Spells d x.1.tok x.2) ∧
      ∀ a x b, tps = a ++ x :: b → x.1.from_ = posAfter (a.flatMap (·.2)) := by
  obtain ⟨all, s', h1, h2, rfl⟩ := tokenize_ok_inv h
  obtain ⟨tps, i1, i2, i3, i4⟩ := h1.columns
  exact ⟨tps, by simp [filterTok, i1], by simpa [h2] using i2, i3, i4 hpl hnb⟩

/-- The hypotheses of both parts hold of a text with line breaks and a comment over two lines. -/
example : ∃ ts, tokenize genericDialect true 30 (str% "a\n/*\n*/'s'") = .ok ts ∧ CrLf (str% "a\n/*\n*/'s'") ∧
    PlainText (str% "a\n/*\n*/'s'") ∧ ∀ t ∈ ts, NoBreakInside t.tok ∧ NoQuoteInside t.tok := by
  refine ⟨[⟨.word ⟨str% "a", none, str% "A"⟩, ⟨1, 1⟩, ⟨1, 2⟩⟩, ⟨.whitespace ['\n'], ⟨1, 2⟩, ⟨2, 1⟩⟩,
    ⟨.comment ['\n'], ⟨2, 1⟩, ⟨3, 3⟩⟩, ⟨.single ['s'], ⟨3, 3⟩, ⟨3, 6⟩⟩], by decide +kernel, ?_, ?_, ?_⟩
  · intro u v h
    have : '\r' ∈ str% "a\n/*\n*/'s'" := by rw [h]; simp
    exact absurd this (by decide)
  · unfold PlainText; decide
  · simp [NoBreakInside, NoQuoteInside]

/-! ### C05, C06: termination and errors -/

/-- A result other than `.loop` does not depend on the fuel. -/
theorem C05_fuel_irrelevant {d : Dialect} {keep : Bool} {fuel fuel' : Nat} {src : Str}
    (h : tokenize d keep fuel src ≠ .loop) (h' : tokenize d keep fuel' src ≠ .loop) :
    tokenize d keep fuel src = tokenize d keep fuel' src := by
  rcases Nat.le_total fuel fuel' with hf | hf
  · exact (tokenizeFrom_mono hf h).symm
  · exact tokenizeFrom_mono hf h'

/-- The outcome of `Tokenize`, in terms of the longest-match reading of the source. -/
theorem tokenize_outcome {d : Dialect} (hd : Sane d) (keep : Bool) (src : Str) :
    (∃ ts out, Lexes d src ts [] ∧ ∀ fuel, src.length < fuel → tokenize d keep fuel src = .ok out) ∨
    (∃ ts rest e, Lexes d src ts rest ∧ Broken rest e ∧
      ∀ fuel, src.length < fuel → tokenize d keep fuel src = .err e) ∨
    (∃ ts rest, Lexes d src ts rest ∧ OpenDelim d rest ∧ ∀ fuel, tokenize d keep fuel src = .loop) := by
  obtain ⟨all, s', h1, h2⟩ := exists_scans (d := d) src.length ⟨src, 1, 1⟩ (Nat.le_refl _)
  have hl := h1.lexes hd
  rcases h2 with h2 | ⟨e, h2⟩ | h2
  · left
    rw [h2] at hl
    refine ⟨_, filterTok keep all, hl, fun fuel hf => ?_⟩
    obtain ⟨f', hf', he⟩ := tokenizeFrom_scans hd keep h1 hf
    rw [tokenize, he, tokenizeFrom_eof keep (by omega) h2]; simp [TokRes.prepend]
  · right; left
    refine ⟨_, _, e, hl, h2, fun fuel hf => ?_⟩
    obtain ⟨f', hf', he⟩ := tokenizeFrom_scans hd keep h1 hf
    rw [tokenize, he, tokenizeFrom_broken hd keep (by omega) h2]; rfl
  · right; right
    refine ⟨_, _, hl, h2, fun fuel => ?_⟩
    by_cases hf : src.length < fuel
    · obtain ⟨f', hf', he⟩ := tokenizeFrom_scans hd keep h1 hf
      rw [tokenize, he, tokenizeFrom_open hd keep f' h2]; rfl
    · match hr : tokenize d keep fuel src with
      | .loop => rfl
      | .ok out =>
        have h3 := tokenizeFrom_mono (d := d) (keep := keep) (s := ⟨src, 1, 1⟩) (fuel := fuel)
          (fuel' := src.length + 1) (by omega) (by rw [tokenize] at hr; rw [hr]; simp)
        obtain ⟨f', hf', he⟩ := tokenizeFrom_scans hd keep h1 (Nat.lt_succ_self _)
        rw [tokenizeFrom_open hd keep f' h2] at he
        rw [tokenize, ← h3, he] at hr; cases hr
      | .err e =>
        have h3 := tokenizeFrom_mono (d := d) (keep := keep) (s := ⟨src, 1, 1⟩) (fuel := fuel)
          (fuel' := src.length + 1) (by omega) (by rw [tokenize] at hr; rw [hr]; simp)
        obtain ⟨f', hf', he⟩ := tokenizeFrom_scans hd keep h1 (Nat.lt_succ_self _)
        rw [tokenizeFrom_open hd keep f' h2] at he
        rw [tokenize, ← h3, he] at hr; cases hr

/-- C05 is false: an identifier quote that is not closed makes the tokenizer run for ever. -/
theorem C05_unclosed_identifier_diverges {d : Dialect} (hd : BuiltIn d) (keep : Bool) {w : Str}
    (hw : '"' ∉ w) : ∀ fuel, tokenize d keep fuel ('"' :: w) = .loop := by
  intro fuel
  refine tokenizeFrom_open hd.sane keep fuel ⟨'"', w, rfl, ?_, hw⟩
  rcases hd with rfl | rfl | rfl <;> rfl

/-- C05, exact: `Tokenize` runs for ever if and only if reading tokens left to right (longest match)
arrives at an identifier quote that is never closed. -/
theorem C05_diverges_iff {d : Dialect} (hd : Sane d) (keep : Bool) (src : Str) :
    (∀ fuel, tokenize d keep fuel src = .loop) ↔ ∃ ts rest, Lexes d src ts rest ∧ OpenDelim d rest := by
  constructor
  · intro h
    rcases tokenize_outcome hd keep src with ⟨ts, out, -, h2⟩ | ⟨ts, rest, e, -, -, h2⟩ | ⟨ts, rest, h1, h2, -⟩
    · have := h2 (src.length + 1) (by omega); rw [h] at this; cases this
    · have := h2 (src.length + 1) (by omega); rw [h] at this; cases this
    · exact ⟨ts, rest, h1, h2⟩
  · rintro ⟨ts, rest, h1, h2⟩ fuel
    obtain ⟨all, l', c', hs⟩ := Lexes.scans hd h1 1 1
    rcases tokenize_outcome hd keep src with ⟨_, out, -, h3⟩ | ⟨_, _, e, -, -, h3⟩ | ⟨_, _, -, -, h3⟩
    · obtain ⟨f', hf', he⟩ := tokenizeFrom_scans hd keep hs (fuel := src.length + 1) (by simp)
      rw [tokenizeFrom_open hd keep f' h2] at he
      have := h3 (src.length + 1) (by omega)
      rw [tokenize, he] at this; cases this
    · obtain ⟨f', hf', he⟩ := tokenizeFrom_scans hd keep hs (fuel := src.length + 1) (by simp)
      rw [tokenizeFrom_open hd keep f' h2] at he
      have := h3 (src.length + 1) (by omega)
      rw [tokenize, he] at this; cases this
    · exact h3 fuel

/-- Divergence also happens behind other tokens. -/
example : ∀ fuel, tokenize genericDialect true fuel (str% "a \"b") = .loop := by
  rw [C05_diverges_iff sane_generic]
  have h0 : Scans genericDialect ⟨str% "a \"b", 1, 1⟩ _ ⟨str% "\"b", 1, 3⟩ :=
    .step (next_rel (fuel := 9) (t := .word ⟨str% "a", none, str% "A"⟩) (s' := ⟨str% " \"b", 1, 2⟩) (by decide +kernel))
      (.step (next_rel (fuel := 9) (t := .whitespace [' ']) (s' := ⟨str% "\"b", 1, 3⟩) (by decide +kernel)) (.refl _))
  exact ⟨_, _, h0.lexes sane_generic, '"', ['b'], rfl, rfl, by decide⟩

/-- C05, part: a text without identifier quotes (of a built-in dialect) always gets a result, within
one loop round per character.  Missing: texts with identifier quotes, see `C05_diverges_iff`. -/
theorem C05_terminates_partial {d : Dialect} (hd : BuiltIn d) (keep : Bool) {src : Str}
    (h1 : '"' ∉ src) (h2 : '`' ∉ src) : tokenize d keep (src.length + 1) src ≠ .loop := by
  intro h
  have := tokenizeFrom_inv (d := d) (keep := keep) (fuel := src.length + 1) (s := ⟨src, 1, 1⟩)
  rw [tokenize] at h
  rw [h] at this
  obtain ⟨all, s', hs, q, post, hr, hq, -⟩ := this (by simp)
  obtain ⟨tps, -, i2, -⟩ := hs.pieces
  have hm : q ∈ src := by
    have : q ∈ tps.flatMap (·.2) ++ s'.rest := by rw [hr]; simp
    rw [← i2] at this; exact this
  have : q = '"' ∨ q = '`' := by
    rcases hd with rfl | rfl | rfl
    · left; simpa [genericDialect] using hq
    · simpa [mysqlDialect] using hq
    · simpa [postgresDialect] using hq
  rcases this with rfl | rfl
  · exact h1 hm
  · exact h2 hm

/-- C06: the error of `Tokenize`, exactly. -/
theorem C06_error_iff {d : Dialect} (hd : Sane d) (keep : Bool) (src : Str) (e : TokErr) :
    (∃ fuel, tokenize d keep fuel src = .err e) ↔ ∃ ts rest, Lexes d src ts rest ∧ Broken rest e := by
  constructor
  · rintro ⟨fuel, h⟩
    have := tokenizeFrom_inv (d := d) (keep := keep) (fuel := fuel) (s := ⟨src, 1, 1⟩)
    rw [tokenize] at h
    rw [h] at this
    obtain ⟨all, s', hs, hb⟩ := this
    exact ⟨_, _, hs.lexes hd, hb⟩
  · rintro ⟨ts, rest, h1, h2⟩
    obtain ⟨all, l', c', hs⟩ := Lexes.scans hd h1 1 1
    obtain ⟨f', hf', he⟩ := tokenizeFrom_scans hd keep hs (fuel := src.length + 1) (by simp)
    exact ⟨src.length + 1, by rw [tokenize, he, tokenizeFrom_broken hd keep (by omega) h2]; rfl⟩

/-- C06: success, exactly: the whole source can be read. -/
theorem C06_success_iff {d : Dialect} (hd : Sane d) (keep : Bool) (src : Str) :
    (∃ fuel ts, tokenize d keep fuel src = .ok ts) ↔ ∃ ts, Lexes d src ts [] := by
  constructor
  · rintro ⟨fuel, ts, h⟩
    obtain ⟨all, s', hs, h2, -⟩ := tokenize_ok_inv h
    have := hs.lexes hd
    rw [h2] at this
    exact ⟨_, this⟩
  · rintro ⟨ts, h1⟩
    obtain ⟨all, l', c', hs⟩ := Lexes.scans hd h1 1 1
    obtain ⟨f', hf', he⟩ := tokenizeFrom_scans hd keep hs (fuel := src.length + 1) (by simp)
    exact ⟨src.length + 1, _, by rw [tokenize, he, tokenizeFrom_eof keep (by omega) rfl]; rfl⟩

/-- Each of the four kinds of broken text makes `Tokenize` fail. -/
example : (∃ f, tokenize genericDialect true f (str% "a 'b''") = .err .unclosedString) ∧
    (∃ f, tokenize genericDialect true f (str% "aN N'b''") = .err .unclosedString) ∧
    (∃ f, tokenize genericDialect true f (str% "a/**") = .err .unclosedComment) ∧
    (∃ f, tokenize genericDialect true f (str% "a!b") = .err .illegalBang) :=
  ⟨⟨20, by decide +kernel⟩, ⟨20, by decide +kernel⟩, ⟨20, by decide +kernel⟩, ⟨20, by decide +kernel⟩⟩

/-! ### C07: string literals -/

theorem tokenize_step {d : Dialect} (hd : Sane d) (keep : Bool) {src rest : Str} {t : Tok} {p q : Pos}
    (h : NextRel d ⟨src, p.line, p.col⟩ t ⟨rest, q.line, q.col⟩) (hk : t.insignificant = false) {fuel : Nat}
    (hf : src.length ≤ fuel) :
    tokenizeFrom d keep (fuel + 1) ⟨src, p.line, p.col⟩ =
      (tokenizeFrom d keep fuel ⟨rest, q.line, q.col⟩).prepend [⟨t, p, q⟩] := by
  rw [tokenizeFrom, scan, h.next hd hf]
  simp [hk]
  cases tokenizeFrom d keep fuel ⟨rest, q.line, q.col⟩ <;> rfl

/-- C07: a literal that contains `s` with quotes doubled is one token with value `s`, and tokenizing goes
on with the text behind it.  (At any position `p`; a literal at the start of the source has `p = ⟨1,1⟩`.) -/
theorem C07_string_literal {d : Dialect} (hd : Sane d) (keep : Bool) (s rest : Str)
    (hr : rest.head? ≠ some '\'') (p : Pos) {fuel : Nat} (hf : (escape s).length + rest.length + 2 ≤ fuel) :
    tokenizeFrom d keep (fuel + 1) ⟨'\'' :: (escape s ++ '\'' :: rest), p.line, p.col⟩ =
      (tokenizeFrom d keep fuel ⟨rest, p.line, p.col + (2 + byteLen s)⟩).prepend
        [⟨.single s, p, ⟨p.line, p.col + (2 + byteLen s)⟩⟩] :=
  tokenize_step hd keep (q := ⟨p.line, p.col + (2 + byteLen s)⟩) (NextRel.single s rest p.line p.col hr) rfl
    (by simp; omega)

/-- C07 for national literals. -/
theorem C07_national_literal {d : Dialect} (hd : Sane d) (keep : Bool) (s rest : Str)
    (hr : rest.head? ≠ some '\'') (p : Pos) {fuel : Nat} (hf : (escape s).length + rest.length + 3 ≤ fuel) :
    tokenizeFrom d keep (fuel + 1) ⟨'N' :: '\'' :: (escape s ++ '\'' :: rest), p.line, p.col⟩ =
      (tokenizeFrom d keep fuel ⟨rest, p.line, p.col + 1 + (2 + byteLen s)⟩).prepend
        [⟨.national s, p, ⟨p.line, p.col + 1 + (2 + byteLen s)⟩⟩] :=
  tokenize_step hd keep (q := ⟨p.line, p.col + 1 + (2 + byteLen s)⟩) (NextRel.national s rest p.line p.col hr) rfl
    (by simp; omega)

/-- C07 as a whole text: `'...'` alone is exactly one token. -/
theorem C07_string_alone {d : Dialect} (hd : Sane d) (keep : Bool) (s : Str) :
    ∃ fuel, tokenize d keep fuel ('\'' :: (escape s ++ ['\''])) =
      .ok [⟨.single s, ⟨1, 1⟩, ⟨1, 1 + (2 + byteLen s)⟩⟩] := by
  have h := C07_string_literal hd keep s [] (by simp) ⟨1, 1⟩ (fuel := (escape s).length + 2) (by simp)
  rw [tokenizeFrom_eof (s := ⟨[], 1, 1 + (2 + byteLen s)⟩) keep (by omega) rfl] at h
  exact ⟨_, h⟩

/-! ### C08: block comments -/

/-- C08 is false: `/*a*b*/` gives the text `abb`. -/
theorem C08_comment_text_false : ¬ ∀ (d : Dialect) (body : Str), NoClose body →
    ∃ fuel p, tokenize d true fuel ('/' :: '*' :: (body ++ ['*', '/'])) = .ok [⟨.comment body, ⟨1, 1⟩, p⟩] := by
  intro h
  obtain ⟨fuel, p, hp⟩ := h genericDialect (str% "a*b") (by simp [noClose_cons, noClose_nil])
  have h1 : tokenize genericDialect true 20 ('/' :: '*' :: (str% "a*b" ++ ['*', '/'])) =
      .ok [⟨.comment (str% "abb"), ⟨1, 1⟩, ⟨1, 8⟩⟩] := by decide +kernel
  have h2 := C05_fuel_irrelevant (fuel := fuel) (fuel' := 20) (by rw [hp]; simp) (by rw [h1]; simp)
  rw [hp, h1] at h2
  simp at h2

theorem takeComment_plain {body rest acc : Str} (h1 : '*' ∉ body) (h2 : '\r' ∉ body) : ∀ (line col : Nat),
    ∃ s', takeComment (body ++ '*' :: '/' :: rest) false acc line col = .ok (acc.reverse ++ body, s') ∧
      s'.rest = rest := by
  induction body generalizing acc with
  | nil => intro line col; simp [takeComment]
  | cons c body ih =>
    intro line col
    simp at h1 h2
    rw [List.cons_append, takeComment]
    · have := ih (acc := c :: acc) h1.2 h2.2
      split
      rename_i l2 c2 hp
      simp [Ne.symm h1.1]
      simpa using this l2 c2
    · intro cs hc
      exact absurd hc (Ne.symm h2.1)

/-- C08, part: the text of a block comment is its body when the body contains neither `*` nor a carriage
return.  Missing: bodies with `*` (the character after a star is doubled and the star is lost, see
`C08_star_garbled`) and with CR (CR LF becomes CR). -/
theorem C08_comment_text_partial {d : Dialect} (hd : Sane d) {body : Str} (h1 : '*' ∉ body) (h2 : '\r' ∉ body) :
    ∃ fuel p, tokenize d true fuel ('/' :: '*' :: (body ++ ['*', '/'])) = .ok [⟨.comment body, ⟨1, 1⟩, p⟩] := by
  obtain ⟨s', hs, hr⟩ := takeComment_plain (rest := []) (acc := []) h1 h2 1 3
  refine ⟨body.length + 10, s'.pos, ?_⟩
  have hrel : NextRel d ⟨'/' :: '*' :: (body ++ ['*', '/']), 1, 1⟩ (.comment body) s' :=
    NextRel.block _ _ _ 1 1 (by simpa using hs)
  obtain ⟨f', hf', he⟩ := tokenizeFrom_scans hd true (.step hrel (.refl _)) (fuel := body.length + 10) (by simp)
  rw [tokenize, he, tokenizeFrom_eof true (by omega) hr]
  rfl

/-- C08, how it fails: one star inside the body is dropped and the character after it is doubled. -/
theorem C08_star_garbled {d : Dialect} (hd : Sane d) {a b : Str} {x : Char} (ha : '*' ∉ a) (ha' : '\r' ∉ a)
    (hb : '*' ∉ b) (hb' : '\r' ∉ b) (hx : x ≠ '/') (hx1 : x ≠ '*') (hx2 : x ≠ '\r') :
    ∃ fuel p, tokenize d true fuel ('/' :: '*' :: (a ++ '*' :: x :: b ++ ['*', '/'])) =
      .ok [⟨.comment (a ++ x :: x :: b), ⟨1, 1⟩, p⟩] := by
  have key : ∀ (acc : Str) (line col : Nat), ∃ s',
      takeComment (a ++ '*' :: x :: (b ++ ['*', '/'])) false acc line col =
        .ok (acc.reverse ++ (a ++ x :: x :: b), s') ∧ s'.rest = [] := by
    clear hd
    induction a with
    | nil =>
      intro acc line col
      rw [List.nil_append, takeComment]
      · split
        rename_i l2 c2 hp
        simp only [Bool.false_eq_true, false_and, if_false, if_true]
        rw [takeComment]
        · split
          rename_i l3 c3 hp3
          simp only [hx, hx1, and_false, if_false, if_true]
          obtain ⟨s', h1, h2⟩ := takeComment_plain (rest := []) (acc := x :: x :: acc) hb hb' l3 c3
          exact ⟨s', by simpa using h1, h2⟩
        · intro cs hc; exact absurd hc hx2
      · intro cs hc; exact absurd hc (by decide)
    | cons c a ih =>
      intro acc line col
      simp at ha ha'
      rw [List.cons_append, takeComment]
      · have := ih ha.2 ha'.2 (c :: acc)
        split
        rename_i l2 c2 hp
        simp only [Bool.false_eq_true, false_and, if_false, Ne.symm ha.1]
        simpa using this l2 c2
      · intro cs hc; exact absurd hc (Ne.symm ha'.1)
  obtain ⟨s', hs, hr⟩ := key [] 1 3
  refine ⟨a.length + b.length + 20, s'.pos, ?_⟩
  have hrel : NextRel d ⟨'/' :: '*' :: (a ++ '*' :: x :: b ++ ['*', '/']), 1, 1⟩ (.comment (a ++ x :: x :: b)) s' :=
    NextRel.block _ _ _ 1 1 (by simpa using hs)
  obtain ⟨f', hf', he⟩ := tokenizeFrom_scans hd true (.step hrel (.refl _)) (fuel := a.length + b.length + 20)
    (by simp; omega)
  rw [tokenize, he, tokenizeFrom_eof true (by omega) hr]
  rfl

/-! ### C09 -/

/-- C09: `DisableParseComment` only filters (for every dialect and every outcome). -/
theorem C09_disable_comments (d : Dialect) (fuel : Nat) (src : Str) :
    tokenize d false fuel src = match tokenize d true fuel src with
      | .ok ts => .ok (ts.filter fun t => match t.tok with | .whitespace _ => false | .comment _ => false | _ => true)
      | .err e => .err e
      | .loop => .loop := by
  have hsig : Token.sig = fun t => match t.tok with | .whitespace _ => false | .comment _ => false | _ => true := by
    funext t
    unfold Token.sig Tok.insignificant
    cases t.tok <;> rfl
  rw [tokenize, tokenize, tokenizeFrom_filter, hsig]
  rfl

/-! ### C10: maximal munch -/

/-- C10: the tokens are those of the longest-match reading: at every step the token is spelled by the
longest beginning of the remaining text that spells any token. -/
theorem C10_longest_match {d : Dialect} (hd : Sane d) {fuel : Nat} {src : Str} {ts : List Token}
    (h : tokenize d true fuel src = .ok ts) : Lexes d src (ts.map (·.tok)) [] := by
  obtain ⟨all, s', h1, h2, rfl⟩ := tokenize_ok_inv h
  have := h1.lexes hd
  rw [h2] at this
  exact this

/-- C10: a maximal run of identifier characters is one word with exactly these characters. -/
theorem C10_word {d : Dialect} (hd : Sane d) (keep : Bool) {x : Char} {w rest : Str}
    (hx : d.isIdentStart x = true) (hw : ∀ y ∈ w, d.isIdentPart y = true)
    (hr : ∀ y, rest.head? = some y → d.isIdentPart y = false)
    (hN : x :: w = ['N'] → rest.head? ≠ some '\'') (p : Pos) {fuel : Nat}
    (hf : w.length + rest.length + 1 ≤ fuel) :
    tokenizeFrom d keep (fuel + 1) ⟨x :: (w ++ rest), p.line, p.col⟩ =
      (tokenizeFrom d keep fuel ⟨rest, p.line, p.col + byteLen (x :: w)⟩).prepend
        [⟨.word ⟨x :: w, none, upper (x :: w)⟩, p, ⟨p.line, p.col + byteLen (x :: w)⟩⟩] :=
  tokenize_step hd keep (q := ⟨p.line, p.col + byteLen (x :: w)⟩)
    (next_rel (next_word hd 0 _ _ (.inr hx) hw hr hN)) rfl (by simp; omega)

/-- C10: a maximal run of digits and dots that starts with a digit is one number. -/
theorem C10_number {d : Dialect} (hd : Sane d) (keep : Bool) {x : Char} {w rest : Str}
    (hx : isDigit x = true) (hw : ∀ y ∈ w, isDigit y = true ∨ y = '.')
    (hr : ∀ y, rest.head? = some y → isDigit y = false ∧ y ≠ '.') (p : Pos) {fuel : Nat}
    (hf : w.length + rest.length + 1 ≤ fuel) :
    tokenizeFrom d keep (fuel + 1) ⟨x :: (w ++ rest), p.line, p.col⟩ =
      (tokenizeFrom d keep fuel ⟨rest, p.line, p.col + (w.length + 1)⟩).prepend
        [⟨.number (x :: w), p, ⟨p.line, p.col + (w.length + 1)⟩⟩] :=
  tokenize_step hd keep (q := ⟨p.line, p.col + (w.length + 1)⟩)
    (next_rel (next_number hd 0 _ _ hx hw hr)) rfl (by simp; omega)

example : tokenize postgresDialect false 40 (str% "_a1$+12.5x") = .ok [
    ⟨.word ⟨str% "_a1$", none, str% "_A1$"⟩, ⟨1, 1⟩, ⟨1, 5⟩⟩, ⟨.sym .Plus ['+'], ⟨1, 5⟩, ⟨1, 6⟩⟩,
    ⟨.number (str% "12.5"), ⟨1, 6⟩, ⟨1, 10⟩⟩, ⟨.word ⟨str% "x", none, str% "X"⟩, ⟨1, 10⟩, ⟨1, 11⟩⟩] := by
  decide +kernel

/-! ### C11: keywords -/

theorem upper_lower : ∀ (s : Str), (∀ c ∈ s, c.toNat < 128) → upper (lower s) = upper s := by
  have key : ∀ n < 128, upperC (lowerC (Char.ofNat n)) = upperC (Char.ofNat n) := by decide +kernel
  intro s hs
  induction s with
  | nil => rfl
  | cons c s ih =>
    have h1 := key c.toNat (hs c (by simp))
    rw [Char.ofNat_toNat] at h1
    have h2 := ih (fun x hx => hs x (by simp [hx]))
    simp only [upper, lower, List.map_cons] at *
    rw [h1, h2]

/-- C11: the result of `MakeKeyword` is the word as written and its upper case; the preloaded cache and the
keyword table make no difference. -/
theorem C11_make_keyword (w : Str) (q : Option Char) :
    makeKeyword w q = { value := w, quote := q, keyword := upper w } := makeKeyword_eq w q

/-- C11: ASCII words that differ only in letter case get the same keyword. -/
theorem C11_case_insensitive (v w : Str) (q : Option Char) (hv : ∀ c ∈ v, c.toNat < 128)
    (hw : ∀ c ∈ w, c.toNat < 128) (h : lower v = lower w) :
    (makeKeyword v q).keyword = (makeKeyword w q).keyword ∧ (makeKeyword v q).value = v := by
  rw [makeKeyword_eq, makeKeyword_eq]
  refine ⟨?_, rfl⟩
  rw [← upper_lower v hv, ← upper_lower w hw, h]

example : lower (str% "SeLeCt") = lower (str% "select") ∧ (makeKeyword (str% "SeLeCt") none).keyword = str% "SELECT" :=
  ⟨by decide +kernel, by decide +kernel⟩

/-! ### C13: ComparePos -/

/-- C13: `ComparePos` is a strict total order with values -1, 0, 1. -/
theorem C13_comparePos (x y z : Pos) :
    (comparePos x y = -1 ∨ comparePos x y = 0 ∨ comparePos x y = 1) ∧
    (comparePos x y = 0 ↔ x = y) ∧
    comparePos y x = - comparePos x y ∧
    (comparePos x y = -1 → comparePos y z = -1 → comparePos x z = -1) := by
  obtain ⟨xl, xc⟩ := x
  obtain ⟨yl, yc⟩ := y
  obtain ⟨zl, zc⟩ := z
  simp only [comparePos_lt_iff, Pos.lt, Pos.mk.injEq]
  refine ⟨?_, ?_, ?_, ?_⟩
  · unfold comparePos; dsimp only; repeat' split
    all_goals first | omega | simp
  · unfold comparePos; dsimp only; repeat' split
    all_goals simp; try omega
  · unfold comparePos; dsimp only; repeat' split
    all_goals first | rfl | omega
  · omega

/-- C13: it is the lexicographic order of line and column. -/
theorem C13_comparePos_lex (x y : Pos) :
    comparePos x y = -1 ↔ x.line < y.line ∨ (x.line = y.line ∧ x.col < y.col) := comparePos_lt_iff x y

/-! ### C14, C15: writing tokens out again -/

theorem word_string {d : Dialect} (hd : BuiltIn d) {w : SQLWord} {p : Str} (h : Spells d (.word w) p) :
    w.string = p ∧ spell (.word w) = p := by
  cases h with
  | word c w h1 h2 => simp [SQLWord.string, spell]
  | delim q w h1 h2 =>
    have : q = '"' ∨ q = '`' := by
      rcases hd with rfl | rfl | rfl
      · left; simpa [genericDialect] using h1
      · simpa [mysqlDialect] using h1
      · simpa [postgresDialect] using h1
    rcases this with rfl | rfl <;> simp [SQLWord.string, spell, matchingEndQuote]

/-- C15: writing tokens out with their usual spellings, where no token is continued by the next one, and
tokenizing the text gives the same tokens. -/
theorem C15_render_tokenize {d : Dialect} (hd : Sane d) {ts : List Tok} (h : Separated d ts) :
    ∃ fuel out, tokenize d true fuel (ts.flatMap spell) = .ok out ∧ out.map (·.tok) = ts := by
  obtain ⟨all, l', c', hs, ha⟩ := Separated.scans hd h 1 1
  obtain ⟨f', hf', he⟩ := tokenizeFrom_scans hd true hs (Nat.lt_succ_self _)
  rw [tokenizeFrom_eof (s := ⟨[], l', c'⟩) true (by omega) rfl] at he
  exact ⟨_, _, he, by simpa [filterTok] using ha⟩

/-- C14: the `String()` of a word token is its source spelling, and tokenizing it gives the same word. -/
theorem C14_word_string {d : Dialect} (hd : BuiltIn d) {fuel : Nat} {src : Str} {ts : List Token}
    (h : tokenize d true fuel src = .ok ts) :
    ∃ tps : List (Token × Str), ts = tps.map (·.1) ∧ src = tps.flatMap (·.2) ∧
      ∀ x ∈ tps, ∀ w, x.1.tok = .word w → w.string = x.2 ∧
        ∃ fuel' p, tokenize d true fuel' w.string = .ok [⟨.word w, ⟨1, 1⟩, p⟩] := by
  obtain ⟨tps, h1, h2, h3⟩ := C01_tokenize_lossless h
  refine ⟨tps, h1, h2, ?_⟩
  intro x hx w hw
  have hs := h3 x hx
  rw [hw] at hs
  obtain ⟨e1, e2⟩ := word_string hd hs
  refine ⟨e1, ?_⟩
  have hsep : Separated d [.word w] := by
    refine ⟨by rw [e2]; exact hs, ?_, trivial⟩
    unfold Ends
    split <;> simp_all
  obtain ⟨fuel', out, ho, ha⟩ := C15_render_tokenize hd.sane hsep
  have hflat : List.flatMap spell [Tok.word w] = w.string := by simp [e1, e2]
  rw [hflat] at ho
  match out, ha with
  | [⟨t, f, q⟩], ha =>
    simp at ha
    subst ha
    have := (C02_positions_contiguous ho).1 _ _ rfl
    dsimp only at this; subst this
    exact ⟨fuel', q, ho⟩

/-- C15: a blank between any two tokens always separates them (for tokens other than comments). -/
theorem C15_blank_separates {d : Dialect} (hsp : d.isIdentPart ' ' = false) {ts : List Tok}
    (h : ∀ t ∈ ts, Spells d t (spell t) ∧ ∀ c, t ≠ .comment c) :
    Separated d (ts.flatMap fun t => [t, .whitespace [' ']]) := by
  induction ts with
  | nil => trivial
  | cons t ts ih =>
    have ih := ih (fun x hx => h x (by simp [hx]))
    obtain ⟨h1, h2⟩ := h t (by simp)
    refine ⟨h1, ?_, .space, trivial, ih⟩
    have hh : ∀ l, (List.flatMap spell (Tok.whitespace [' '] :: l)).head? = some ' ' := by
      intro l; simp [spell]
    show Ends d t (List.flatMap spell (Tok.whitespace [' '] :: _)).head?
    rw [hh]
    unfold Ends
    split
    · exact ⟨by intro y hy; simp at hy; rw [← hy]; exact hsp, by simp⟩
    · trivial
    · intro y hy; simp at hy; rw [← hy]; decide
    · trivial
    · simp
    · simp
    · trivial
    · exact absurd rfl (h2 _)
    · intro x y hx hy; simp at hy; rw [← hy]; simp [gluing]

/-- A separated list with a word next to a symbol, a doubled quote, and a blank between two words. -/
example : Separated genericDialect [.word ⟨str% "a", none, str% "A"⟩, .sym .LtEq ['<', '='], .single (str% "i's"),
    .whitespace [' '], .word ⟨str% "b", none, str% "B"⟩] := by
  refine ⟨Spells.word 'a' [] (.inr rfl) (by simp), ⟨?_, by simp⟩, Spells.sym _ _ (by simp [symText]), ?_,
    Spells.single _, ?_, .space, trivial, Spells.word 'b' [] (.inr rfl) (by simp), ⟨?_, by simp⟩, trivial⟩
  · intro y hy; simp [spell] at hy; rw [← hy]; rfl
  · intro x y hx; simp at hx
  · simp [Ends, spell]
  · intro y hy; simp at hy

end Verif
