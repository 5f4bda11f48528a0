import Verif.Proofs.Utf8
import Verif.Props.Tokenizer
/-
Property theorems C58: the runes the tokenizer gets from its reader.
-/
namespace Verif
open Spec

/-- C58: whatever sequence of calls of `Peek` and `Next` the tokenizer makes, the answers are those of the list of
characters that the bytes of the reader decode to, without a leading byte order mark.  So the tokenizer can be modelled
over a list of characters. -/
theorem C58_runes {r : Reader} {t : Str} (hr : Clean r) (h : Decodes (bytesOf r) t) (cs : List Call) :
    (Scanner.init r).run cs = answers cs (dropBom t) := run_has (init_has hr h) cs

/-- C58: every byte sequence decodes to exactly one list of characters. -/
theorem C58_decodes (b : Bytes) : ∃ t, Decodes b t ∧ ∀ t', Decodes b t' → t' = t := by
  obtain ⟨t, h⟩ := decodes_total b
  exact ⟨t, h, fun t' h' => decodes_unique h' h⟩

/-- C58: how the reader cuts the bytes into reads is of no importance, even within a character. -/
theorem C58_chunks {r r' : Reader} (hr : Clean r) (hr' : Clean r') (h : bytesOf r = bytesOf r') (cs : List Call) :
    (Scanner.init r).run cs = (Scanner.init r').run cs := by
  obtain ⟨t, ht⟩ := decodes_total (bytesOf r)
  rw [C58_runes hr ht, C58_runes hr' (h ▸ ht)]

/-- C58: the encoding of a text is read as that text, except for a leading byte order mark. -/
theorem C58_valid {r : Reader} {s : Str} (hr : Clean r) (h : bytesOf r = utf8 s) (cs : List Call) :
    (Scanner.init r).run cs = answers cs (dropBom s) := C58_runes hr (h ▸ decodes_utf8 s) cs

/-- C58 with C01: the texts that the tokens spell, encoded, are the bytes of the source if and only if these are valid
UTF-8 and do not begin with a byte order mark. -/
theorem C58_lossless_iff {d : Dialect} {fuel : Nat} {b : Bytes} {t : Str} {ts : List Token} (hb : Decodes b t)
    (h : tokenize d true fuel (dropBom t) = .ok ts) :
    ∃ tps : List (Token × Str), ts = tps.map (·.1) ∧ (∀ x ∈ tps, Spells d x.1.tok x.2) ∧
      (utf8 (tps.flatMap (·.2)) = b ↔ ValidUtf8 b ∧ t.head? ≠ some bom) := by
  obtain ⟨tps, h1, h2, h3⟩ := C01_tokenize_lossless h
  refine ⟨tps, h1, h3, ?_⟩
  rw [← h2]
  constructor
  · intro e
    refine ⟨⟨_, e.symm⟩, ?_⟩
    have : dropBom t = t := by
      rw [← e] at hb
      exact decodes_unique (decodes_utf8 _) hb
    intro hh
    cases t with
    | nil => cases hh
    | cons c t =>
      cases hh
      simp only [dropBom, if_true] at this
      exact absurd (congrArg List.length this) (by simp)
  · rintro ⟨⟨s, rfl⟩, hh⟩
    have := decodes_unique (decodes_utf8 s) hb
    subst this
    congr 1
    cases s with
    | nil => rfl
    | cons c s =>
      have : c ≠ bom := fun e => hh (by rw [e]; rfl)
      simp [dropBom, this]

/-- C58, a read error: when a read returns no bytes and an error, and the bytes before it do not end within a character,
the tokenizer gets the text before the error as if it were all, whatever the reader would return later. -/
theorem C58_error_ends {r : Reader} {t : Str} (hr : ∀ x ∈ r, x.err = false) (h : Decodes (bytesOf r) t)
    (hw : Whole (bytesOf r)) (later : Reader) (cs : List Call) :
    (Scanner.init (r ++ ⟨[], true⟩ :: later)).run cs = answers cs (dropBom t) :=
  run_hasErr (s := Scanner.init _) ⟨r, t, rfl, hr, ⟨h, hw⟩, rfl⟩ cs

/-- C58, a read error: an error that comes with whole characters at the beginning makes no difference at all. -/
theorem C58_error_ignored {s : Str} (hs : s ≠ []) (r : Reader) (cs : List Call) :
    (Scanner.init (⟨utf8 s, true⟩ :: r)).run cs = (Scanner.init (⟨utf8 s, false⟩ :: r)).run cs :=
  run_errBit hs r _ _ cs

/-! Concrete readers. -/

/-- A character of three bytes, cut into three reads, after a byte order mark: hypotheses of C58_runes and C58_chunks. -/
example : Clean [⟨[0xEF, 0xBB], false⟩, ⟨[0xBF, 0xE6], false⟩, ⟨[], false⟩, ⟨[0x97], false⟩, ⟨[0xA5, 0x3B], true⟩] ∧
    Decodes (bytesOf [⟨[0xEF, 0xBB], false⟩, ⟨[0xBF, 0xE6], false⟩, ⟨[], false⟩, ⟨[0x97], false⟩, ⟨[0xA5, 0x3B], true⟩])
      ['\uFEFF', '日', ';'] ∧
    (Scanner.init [⟨[0xEF, 0xBB], false⟩, ⟨[0xBF, 0xE6], false⟩, ⟨[], false⟩, ⟨[0x97], false⟩, ⟨[0xA5, 0x3B], true⟩]).run
      [.peek, .next, .next, .peek, .next] = [some '日', some '日', some ';', none, none] :=
  ⟨.more _ (.more _ (.more _ (.more _ (.eof _ (by simp))))), decodes_utf8 ['\uFEFF', '日', ';'], by decide +kernel⟩

/-- A byte that begins no character is read as U+FFFD, and the source is lost: two sources, the same tokens. -/
example : Decodes [0x27, 0xFF, 0x27] ['\'', '\uFFFD', '\''] ∧ Decodes [0x27, 0xFE, 0x27] ['\'', '\uFFFD', '\''] := by
  have h1 : decodeRune [0xFF, 0x27] = (runeError, 1) := by decide +kernel
  have h2 : decodeRune [0xFE, 0x27] = (runeError, 1) := by decide +kernel
  exact ⟨.rune '\'' (.bad 0xFF (decode_bad h1) (.rune '\'' .nil)), .rune '\'' (.bad 0xFE (decode_bad h2) (.rune '\'' .nil))⟩

/-- Hypotheses of C58_lossless_iff, on both sides of the equivalence. -/
example : ValidUtf8 (utf8 (str% "é")) ∧ (str% "é").head? ≠ some bom ∧
    (∃ ts, tokenize genericDialect true 9 (dropBom (str% "'é'")) = .ok ts) ∧
    Decodes (utf8 (str% "'é'")) (str% "'é'") := ⟨⟨_, rfl⟩, by decide, ⟨[⟨.single (str% "é"), ⟨1, 1⟩, ⟨1, 5⟩⟩], by decide +kernel⟩, decodes_utf8 _⟩

/-- Hypotheses of C58_error_ends: `DELETE FROM t`, an error, ` WHERE a`.  The statement that deletes all rows is read. -/
example (cs : List Call) : (Scanner.init [⟨utf8 (str% "DELETE FROM t"), false⟩, ⟨[], true⟩, ⟨utf8 (str% " WHERE a"), false⟩]).run cs =
    answers cs (str% "DELETE FROM t") :=
  C58_error_ends (r := [⟨utf8 (str% "DELETE FROM t"), false⟩]) (t := str% "DELETE FROM t") (by simp)
    (by simpa [bytesOf] using decodes_utf8 _) (by simpa [bytesOf] using whole_utf8 _) _ cs

/-- Bad bytes that are not the beginning of a character: here too the error ends the text. -/
example : (Scanner.init [⟨[0xF0, 0x90, 0x41], false⟩, ⟨[], true⟩, ⟨[0x42], false⟩]).run [.next, .next, .next, .next, .next] =
    [some '\uFFFD', some '\uFFFD', some 'A', none, none] := by decide +kernel

/-- Within a character the error does not end the text: the bytes so far become U+FFFD and reading goes on. -/
example : (Scanner.init [⟨[0x61, 0xC3], false⟩, ⟨[], true⟩, ⟨[0xA9, 0x62], false⟩]).run [.next, .next, .next, .next, .next] =
    [some 'a', some '\uFFFD', some '\uFFFD', some 'b', none] := by decide +kernel

end Verif
