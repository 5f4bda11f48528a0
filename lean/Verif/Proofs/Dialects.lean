import Verif.Proofs.Tokenize
import Verif.Props.Tokenizer
import Verif.Spec.Dialects
/-
Tokens of a text under two dialects, one of which has more words than the other.
-/
namespace Verif
open Spec

/-- The token is one character that means nothing. -/
def Tok.isChar : Tok → Bool
  | .char _ => true
  | _ => false

/-- No such token. -/
def NoChar (ts : List Token) : Prop := ∀ t ∈ ts, t.tok.isChar = false

/-- The dialect `D` has all words of `d`, and a character that goes on a word in `D` only means nothing in `d`. -/
structure Dialect.Below (d D : Dialect) : Prop where
  start : ∀ c, d.isIdentStart c = true → D.isIdentStart c = true
  part : ∀ c, d.isIdentPart c = true → D.isIdentPart c = true
  delim : ∀ c, d.isDelimStart c = true → D.isDelimStart c = true
  new : ∀ c, D.isIdentPart c = true → d.isIdentPart c = false →
    c ∉ specials ∧ isDigit c = false ∧ c ≠ 'N' ∧ d.isIdentStart c = false ∧ d.isDelimStart c = false

/-- A token of `d` is a token of the larger dialect, unless it is a character without meaning or is followed by one. -/
theorem NextRel.up {d D : Dialect} (hD : Sane D) (hd : d.Below D) {s s' : TState} {t : Tok}
    (h : NextRel d s t s') (ht : t.isChar = false)
    (hs : ∀ y, s'.rest.head? = some y → ¬ (y ∉ specials ∧ isDigit y = false ∧ y ≠ 'N' ∧ d.isIdentStart y = false ∧
      d.isDelimStart y = false)) : NextRel D s t s' := by
  cases h with
  | space cs l c => exact .space cs l c
  | tab cs l c => exact .tab cs l c
  | lf cs l c => exact .lf cs l c
  | cr cs l c h => exact .cr cs l c h
  | crlf cs l c => exact .crlf cs l c
  | national s r l c h => exact .national s r l c h
  | single s r l c h => exact .single s r l c h
  | word x w r l c h1 h2 h3 h4 h5 h6 h7 =>
    refine .word x w r l c (h1.imp_right (hd.start x)) h2 h3 h4 (fun y hy => hd.part y (h5 y hy)) h6 fun y hy => ?_
    cases hp : D.isIdentPart y with
    | false => rfl
    | true => exact absurd (hd.new y hp (h7 y hy)) (hs y hy)
  | delim q w r l c h1 h2 h3 h4 h5 h6 h7 =>
    exact .delim q w r l c (hd.delim q h1) h2 h3 h4 (hD.delim_start (hd.delim q h1)) h6 h7
  | number x w r l c h1 h2 h3 h4 h5 h6 => exact .number x w r l c h1 h2 h3 h4 h5 h6
  | line w r l c h1 h2 => exact .line w r l c h1 h2
  | block cs str s' l c h => exact .block cs str s' l c h
  | sym k text r l c h h2 => exact .sym k text r l c h h2
  | char x r l c h1 h2 h3 h4 h5 => cases ht

/-- A token of the larger dialect that is no word, or a word of the smaller one, is a token of the smaller one. -/
theorem NextRel.down {d D : Dialect} (hs : Sane d) (hd : d.Below D) {s s' : TState} {t : Tok}
    (h : NextRel D s t s') (ht : t.isChar = false) (hw : ∀ w, t = .word w → WordOf d w) : NextRel d s t s' := by
  cases h with
  | space cs l c => exact .space cs l c
  | tab cs l c => exact .tab cs l c
  | lf cs l c => exact .lf cs l c
  | cr cs l c h => exact .cr cs l c h
  | crlf cs l c => exact .crlf cs l c
  | national s r l c h => exact .national s r l c h
  | single s r l c h => exact .single s r l c h
  | word x w r l c h1 h2 h3 h4 h5 h6 h7 =>
    obtain ⟨_, _, e, g1, g2⟩ := hw _ rfl
    cases e
    refine .word x w r l c (.inr g1) h2 h3 h4 g2 h6 fun y hy => ?_
    cases hp : d.isIdentPart y with
    | false => rfl
    | true =>
      have := h7 y hy
      rw [hd.part y hp] at this
      cases this
  | delim q w r l c h1 h2 h3 h4 h5 h6 h7 =>
    have g : d.isDelimStart q = true := hw _ rfl
    exact .delim q w r l c g h2 h3 h4 (hs.delim_start g) h6 h7
  | number x w r l c h1 h2 h3 h4 h5 h6 => exact .number x w r l c h1 h2 h3 h4 h5 h6
  | line w r l c h1 h2 => exact .line w r l c h1 h2
  | block cs str s' l c h => exact .block cs str s' l c h
  | sym k text r l c h h2 => exact .sym k text r l c h h2
  | char x r l c h1 h2 h3 h4 h5 => cases ht

/-- Words are spelled with the characters of the dialect. -/
theorem NextRel.wordOf {d : Dialect} (hN : d.isIdentStart 'N' = true) {s s' : TState} {t : Tok} (h : NextRel d s t s')
    (w : SQLWord) (hw : t = .word w) : WordOf d w := by
  cases h with
  | word x w r l c h1 h2 h3 h4 h5 h6 h7 =>
    cases hw
    exact ⟨x, w, rfl, h1.elim (fun h => h ▸ hN) id, h5⟩
  | delim q w r l c h1 h2 h3 h4 h5 h6 h7 => cases hw; exact h1
  | _ => cases hw

/-- A scan to the end of a text without characters that mean nothing, in a larger dialect. -/
theorem Scans.up {d D : Dialect} (hD : Sane D) (hs : Sane d) (hd : d.Below D) {s s' : TState} {all : List Token}
    (h : Scans d s all s') (he : s'.rest = []) (hc : NoChar all) : Scans D s all s' := by
  induction h with
  | refl s => exact .refl s
  | @step s t s1 ts s2 h1 h2 ih =>
    refine .step (h1.up hD hd (hc _ List.mem_cons_self) fun y hy hb => ?_) (ih he fun t ht => hc t (List.mem_cons_of_mem _ ht))
    obtain ⟨rest, l, c⟩ := s1
    cases rest with
    | nil => cases hy
    | cons z rest =>
      cases hy
      cases h2 with
      | refl _ => cases he
      | @step _ t' s3 ts' _ g1 g2 =>
        have k1 := g1.next hs (Nat.le_refl _)
        have k2 := (NextRel.char (d := d) y rest l c hb.1 hb.2.1 hb.2.2.1 hb.2.2.2.1 hb.2.2.2.2).next hs
          (Nat.le_refl _)
        rw [k1] at k2
        cases k2
        have := hc ⟨.char y, _, _⟩ (List.mem_cons_of_mem _ List.mem_cons_self)
        cases this

theorem Scans.down {d D : Dialect} (hs : Sane d) (hd : d.Below D) {s s' : TState} {all : List Token}
    (h : Scans D s all s') (hc : NoChar all) (hw : WordsOf d all) : Scans d s all s' := by
  induction h with
  | refl s => exact .refl s
  | step h1 h2 ih =>
    exact .step (h1.down hs hd (hc _ List.mem_cons_self) (hw _ List.mem_cons_self))
      (ih (fun t ht => hc t (List.mem_cons_of_mem _ ht)) fun t ht => hw t (List.mem_cons_of_mem _ ht))

theorem Scans.wordsOf {d : Dialect} (hN : d.isIdentStart 'N' = true) {s s' : TState} {all : List Token}
    (h : Scans d s all s') : WordsOf d all := by
  induction h with
  | refl s => intro t ht; cases ht
  | step h1 h2 ih =>
    intro t ht w hw
    rcases List.mem_cons.1 ht with rfl | ht
    · exact h1.wordOf hN w hw
    · exact ih t ht w hw

/-- Two scans to the end of a text are the same. -/
theorem Scans.unique {d : Dialect} (hs : Sane d) {s s1 s2 : TState} {all1 all2 : List Token}
    (h1 : Scans d s all1 s1) (h2 : Scans d s all2 s2) (e1 : s1.rest = []) (e2 : s2.rest = []) : all1 = all2 := by
  induction h1 generalizing all2 with
  | refl s =>
    cases h2 with
    | refl => rfl
    | step g1 g2 =>
      have := g1.length_lt
      rw [e1] at this
      cases this
  | step f1 f2 ih =>
    cases h2 with
    | refl =>
      have := f1.length_lt
      rw [e2] at this
      cases this
    | step g1 g2 =>
      have k1 := f1.next hs (Nat.le_refl _)
      have k2 := g1.next hs (Nat.le_refl _)
      rw [k1] at k2
      cases k2
      rw [ih g2 e1]

/-! ### The built-in dialects -/

/-- All words of the three dialects. -/
def joinDialect : Dialect where
  isIdentStart c := isLetter c || c == '@' || c == '_'
  isIdentPart c := isLetter c || isDigit c || c == '@' || c == '$' || c == '_'
  isDelimStart c := c == '"' || c == '`'

theorem sane_join : Sane joinDialect where
  start c h := by
    simp only [joinDialect, Bool.or_eq_true, beq_iff_eq] at h
    rcases h with (h | rfl) | rfl
    · have g : genericDialect.isIdentStart c = true := by simp [genericDialect, h]
      refine ⟨(sane_generic.start c g).1, (sane_generic.start c g).2.1, ?_⟩
      have g : mysqlDialect.isIdentStart c = true := by simp [mysqlDialect, genericDialect, h]
      exact (sane_mysql.start c g).2.2
    · decide
    · decide
  delim c h := by
    simp [joinDialect] at h; rcases h with rfl | rfl <;> decide
  part := by decide

theorem BuiltIn.below {d : Dialect} (h : BuiltIn d) : d.Below joinDialect := by
  rcases h with rfl | rfl | rfl
  all_goals
    refine ⟨fun c => ?_, fun c => ?_, fun c => ?_, fun c => ?_⟩
    · simp only [genericDialect, mysqlDialect, postgresDialect, joinDialect, Bool.or_eq_true, beq_iff_eq]
      grind
    · simp only [genericDialect, mysqlDialect, postgresDialect, joinDialect, Bool.or_eq_true, beq_iff_eq]
      grind
    · simp only [genericDialect, mysqlDialect, postgresDialect, joinDialect, Bool.or_eq_true, beq_iff_eq]
      grind
    · intro h1 h2
      have : c = '@' ∨ c = '$' := by
        simp only [genericDialect, mysqlDialect, postgresDialect, joinDialect, Bool.or_eq_true, beq_iff_eq,
          Bool.or_eq_false_iff] at h1 h2
        grind
      rcases this with rfl | rfl <;> revert h1 h2 <;> decide

theorem generic_below_mysql : genericDialect.Below mysqlDialect where
  start _ h := h
  part _ h := h
  delim c h := by simp only [genericDialect, mysqlDialect, Bool.or_eq_true] at h ⊢; exact .inl h
  new c h1 h2 := by
    have h1 : genericDialect.isIdentPart c = true := h1
    rw [h2] at h1; cases h1

theorem BuiltIn.N {d : Dialect} (h : BuiltIn d) : d.isIdentStart 'N' = true := by
  rcases h with rfl | rfl | rfl <;> decide

theorem NoChar.all {keep : Bool} {all : List Token} (h : NoChar (filterTok keep all)) : NoChar all := by
  intro t ht
  cases hi : t.tok.insignificant with
  | true => revert hi; cases t.tok <;> simp [Tok.insignificant, Tok.isChar]
  | false =>
    refine h t ?_
    cases keep
    · exact List.mem_filter.2 ⟨ht, by simp [Token.sig, hi]⟩
    · exact ht

theorem Spec.WordsOf.all {d : Dialect} {keep : Bool} {all : List Token} (h : WordsOf d (filterTok keep all)) :
    WordsOf d all := by
  intro t ht w hw
  refine h t ?_ w hw
  cases keep
  · exact List.mem_filter.2 ⟨ht, by simp [Token.sig, hw, Tok.insignificant]⟩
  · exact ht

theorem Spec.WordsOf.filter {d : Dialect} (keep : Bool) {all : List Token} (h : WordsOf d all) :
    WordsOf d (filterTok keep all) := by
  intro t ht w hw
  refine h t ?_ w hw
  cases keep
  · exact (List.mem_filter.1 ht).1
  · exact ht

/-- A scan to the end of the text is what `Tokenize` returns. -/
theorem Scans.tokenize {d : Dialect} (hs : Sane d) (keep : Bool) {src : Str} {all : List Token} {s' : TState}
    (h : Scans d ⟨src, 1, 1⟩ all s') (he : s'.rest = []) {fuel : Nat} (hf : src.length < fuel) :
    tokenize d keep fuel src = .ok (filterTok keep all) := by
  obtain ⟨f, hf', e⟩ := tokenizeFrom_scans hs keep h hf
  rw [Verif.tokenize, e, tokenizeFrom_eof keep (by omega) he]
  simp [TokRes.prepend]

end Verif
