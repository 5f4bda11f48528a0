import Verif.Proofs.Dialects
import Verif.Props.Alphabet
/-
Property theorem C68: the same text under two of the built-in dialects.

The dialects differ in which characters begin and go on an identifier and in the quotes of identifiers.  A text that
`ParseSQL` accepts under two of them has the same tokens under both, hence the same statements with the same positions.
-/
set_option maxRecDepth 100000
namespace Verif
open Spec

/-- The text has the tokens `toks` under the dialect and `ParseSQL` accepts them.  (`keep` is the flag of the
tokenizer that keeps comments, `mode` that of the parser.) -/
def Accepts (fns : FloatFns) (n : Nat) (mode keep : Bool) (d : Dialect) (src : Str) (toks : List Token)
    (ss : List Stmt) : Prop :=
  (∃ fuel, tokenize d keep fuel src = .ok toks) ∧ runSQL fns n mode toks = .ok ss ()

theorem Accepts.scan {fns : FloatFns} {n : Nat} {mode keep : Bool} {d : Dialect} {src : Str} {toks : List Token}
    {ss : List Stmt} (h : Accepts fns n mode keep d src toks ss) :
    ∃ all s', Scans d ⟨src, 1, 1⟩ all s' ∧ s'.rest = [] ∧ toks = filterTok keep all ∧ NoChar all := by
  obtain ⟨⟨fuel, h1⟩, h2⟩ := h
  obtain ⟨all, s', g1, g2, rfl⟩ := tokenize_ok_inv h1
  refine ⟨all, s', g1, g2, rfl, NoChar.all (keep := keep) fun t ht => ?_⟩
  have := C67_script fns n mode _ (tokenizeFrom_kwOK h1) ss h2 t ht
  revert this
  cases t.tok <;> simp [Tok.isChar, Tok.insignificant, inStatement]

/-- C68: a text that is accepted under two dialects has the same tokens, and therefore the same statements. -/
theorem C68_agree (fns : FloatFns) (n n' : Nat) (mode mode' keep : Bool) (d d' : Dialect) (hd : BuiltIn d)
    (hd' : BuiltIn d') (src : Str) (toks toks' : List Token) (ss ss' : List Stmt)
    (h : Accepts fns n mode keep d src toks ss) (h' : Accepts fns n' mode' keep d' src toks' ss') :
    toks = toks' ∧ runSQL fns n mode toks' = .ok ss () := by
  obtain ⟨all, s, g1, g2, rfl, g3⟩ := h.scan
  obtain ⟨all', s', k1, k2, rfl, k3⟩ := h'.scan
  have e := (g1.up sane_join hd.sane hd.below g2 g3).unique sane_join (k1.up sane_join hd'.sane hd'.below k2 k3) g2 k2
  exact ⟨by rw [e], e ▸ h.2⟩

/-- C68: a text that is accepted under a dialect is accepted under another one if and only if its words can be written
in the other one. -/
theorem C68_exact (fns : FloatFns) (n : Nat) (mode keep : Bool) (d d' : Dialect) (hd : BuiltIn d)
    (hd' : BuiltIn d') (src : Str) (toks : List Token) (ss : List Stmt) (h : Accepts fns n mode keep d src toks ss) :
    ((∃ n' mode' toks' ss', Accepts fns n' mode' keep d' src toks' ss') ↔ WordsOf d' toks) ∧
    (WordsOf d' toks → Accepts fns n mode keep d' src toks ss) := by
  have key : WordsOf d' toks → Accepts fns n mode keep d' src toks ss := by
    intro hw
    obtain ⟨all, s, g1, g2, rfl, g3⟩ := h.scan
    have := (g1.up sane_join hd.sane hd.below g2 g3).down hd'.sane hd'.below g3 hw.all
    exact ⟨⟨_, this.tokenize hd'.sane keep g2 (Nat.lt_succ_self _)⟩, h.2⟩
  refine ⟨⟨fun ⟨n', mode', toks', ss', h'⟩ => ?_, fun hw => ⟨_, _, _, _, key hw⟩⟩, key⟩
  rw [(C68_agree fns n n' mode mode' keep d d' hd hd' src toks toks' ss ss' h h').1]
  obtain ⟨all', s', k1, k2, rfl, k3⟩ := h'.scan
  exact (k1.wordsOf hd'.N).filter keep

/-- C68: what the generic dialect accepts, the MySQL dialect accepts, with the same result. -/
theorem C68_mysql (fns : FloatFns) (n : Nat) (mode keep : Bool) (src : Str) (toks : List Token) (ss : List Stmt)
    (h : Accepts fns n mode keep genericDialect src toks ss) : Accepts fns n mode keep mysqlDialect src toks ss := by
  obtain ⟨all, s, g1, g2, rfl, g3⟩ := h.scan
  have := g1.up sane_mysql sane_generic generic_below_mysql g2 g3
  exact ⟨⟨_, this.tokenize sane_mysql keep g2 (Nat.lt_succ_self _)⟩, h.2⟩

/-- C68: without the characters `@`, `$`, `_` and the backquote in its words and as their quote, a text is accepted
under all dialects or under none. -/
theorem C68_common (fns : FloatFns) (n : Nat) (mode keep : Bool) (d d' : Dialect) (hd : BuiltIn d)
    (hd' : BuiltIn d') (src : Str) (toks : List Token) (ss : List Stmt) (h : Accepts fns n mode keep d src toks ss)
    (hw : ∀ t ∈ toks, ∀ w, t.tok = .word w →
      (w.quote = none → '@' ∉ w.value ∧ '$' ∉ w.value ∧ w.value.head? ≠ some '_') ∧ w.quote ≠ some '`') :
    Accepts fns n mode keep d' src toks ss := by
  refine (C68_exact fns n mode keep d d' hd hd' src toks ss h).2 fun t ht w he => ?_
  have g : WordOf d w := (C68_exact fns n mode keep d d hd hd src toks ss h).1.1 ⟨_, _, _, _, h⟩ t ht w he
  obtain ⟨h1, h2⟩ := hw t ht w he
  obtain ⟨v, q, k⟩ := w
  cases q with
  | some q =>
    simp only [ne_eq, Option.some.injEq] at h2
    have : q = '"' := by
      rcases hd with rfl | rfl | rfl <;>
        simp only [WordOf, genericDialect, mysqlDialect, postgresDialect, Bool.or_eq_true, beq_iff_eq] at g <;>
        grind
    subst this
    rcases hd' with rfl | rfl | rfl <;> rfl
  | none =>
    obtain ⟨c, cs, rfl, g1, g2⟩ := g
    obtain ⟨h3, h4, h5⟩ := h1 rfl
    simp only [List.mem_cons, not_or, List.head?_cons, ne_eq, Option.some.injEq] at h3 h4 h5
    refine ⟨c, cs, rfl, ?_, fun x hx => ?_⟩
    · rcases hd with rfl | rfl | rfl <;> rcases hd' with rfl | rfl | rfl <;>
        simp only [genericDialect, mysqlDialect, postgresDialect, Bool.or_eq_true, beq_iff_eq] at g1 ⊢ <;> grind
    · have g2 := g2 x hx
      have e1 : x ≠ '@' := fun e => h3.2 (e ▸ hx)
      have e2 : x ≠ '$' := fun e => h4.2 (e ▸ hx)
      rcases hd with rfl | rfl | rfl <;> rcases hd' with rfl | rfl | rfl <;>
        simp only [genericDialect, mysqlDialect, postgresDialect, Bool.or_eq_true, beq_iff_eq] at g2 ⊢ <;> grind

/-! ### The dialects do differ -/

/-- Under which of the three dialects the text is accepted. -/
def acceptedBy (fns : FloatFns) (src : Str) : List Bool :=
  [genericDialect, mysqlDialect, postgresDialect].map fun d =>
    match tokenize d true (src.length + 1) src with
    | .ok toks => (match runSQL fns (3 * toks.length + 3) false toks with
      | .ok _ _ => true
      | _ => false)
    | _ => false

/-- C68: each of the four characters makes a difference: no two of the dialects accept the same texts, and of two
different ones the first accepts a text that the second does not, except that MySQL extends the generic dialect. -/
theorem C68_differ (fns : FloatFns) :
    acceptedBy fns (str% "DELETE FROM @t;") = [true, true, false] ∧
    acceptedBy fns (str% "DELETE FROM t@u;") = [true, true, false] ∧
    acceptedBy fns (str% "DELETE FROM _t;") = [false, false, true] ∧
    acceptedBy fns (str% "DELETE FROM t$u;") = [false, false, true] ∧
    acceptedBy fns (str% "DELETE FROM `t`;") = [false, true, true] ∧
    acceptedBy fns (str% "DELETE FROM t_1;") = [true, true, true] ∧
    acceptedBy fns (str% "DELETE FROM $t;") = [false, false, false] := by
  refine ⟨?_, ?_, ?_, ?_, ?_, ?_, ?_⟩ <;> kernel_rfl

/-- C68 is about accepted texts: the tokens of a text under two dialects can differ, and `ParseStatement`, which does
not look at what follows a statement, can return different statements. -/
theorem C68_statement_false (fns : FloatFns) :
    (match tokenize genericDialect true 20 (str% "DELETE FROM t$u"), tokenize postgresDialect true 20 (str% "DELETE FROM t$u") with
      | .ok a, .ok b => (match runStatement fns 40 false a, runStatement fns 40 false b with
        | .ok s _, .ok s' _ => some (Node.toSQLString fns (.stmt s), Node.toSQLString fns (.stmt s'))
        | _, _ => none)
      | _, _ => none) = some (str% "DELETE FROM t", str% "DELETE FROM t$u") := by kernel_rfl

def dialectText : Str := str% "DELETE FROM \"t\" WHERE a_1 = 2;"

/-- Hypotheses met: a text that is accepted under all dialects. -/
example (fns : FloatFns) : ∃ toks ss, ∀ d, BuiltIn d → Accepts fns 40 false true d dialectText toks ss := by
  have h : ∃ ss, runSQL fns 40 false (textToks dialectText) = .ok ss () := by
    have : (match runSQL fns 40 false (textToks dialectText) with
      | .ok _ _ => true
      | _ => false) = true := by kernel_rfl
    split at this
    · rename_i ss u e
      exact ⟨ss, e⟩
    · cases this
  have hw : ((textToks dialectText).all fun t => match t.tok with
      | .word w => (w.quote != none || (!w.value.contains '@' && !w.value.contains '$' && w.value.head? != some '_')) &&
        w.quote != some '`'
      | _ => true) = true := by kernel_rfl
  obtain ⟨ss, h⟩ := h
  refine ⟨_, ss, fun d hd => C68_common fns _ _ _ _ d (.inl rfl) hd _ _ ss ⟨⟨200, by kernel_rfl⟩, h⟩ fun t ht w he => ?_⟩
  have := List.all_eq_true.1 hw t ht
  rw [he] at this
  simp at this
  grind

/-! ### The alphabets -/

/-- The letters of words in all dialects. -/
def wordLetters : Str := str% "abcdefghijklmnopqrstuvwxyzABCDEFGHIJKLMNOPQRSTUVWXYZ"

theorem class_iff {p : Char → Bool} {l : Str} (hp : ∀ c, p c = true → c.toNat < 128) (hl : ∀ c ∈ l, c.toNat < 128)
    (h : ∀ n : Fin 128, p (Char.ofNat n.val) = l.contains (Char.ofNat n.val)) (c : Char) : p c = true ↔ c ∈ l := by
  by_cases hc : c.toNat < 128
  · have := h ⟨c.toNat, hc⟩
    simp only [Char.ofNat_toNat] at this
    rw [this, List.contains_iff_mem]
  · exact iff_of_false (fun h => hc (hp c h)) (fun h => hc (hl c h))

theorem isLetter_ascii {c : Char} (h : isLetter c = true) : c.toNat < 128 := by
  simp only [isLetter, Bool.or_eq_true, Bool.and_eq_true, decide_eq_true_eq] at h
  rcases h with ⟨-, h⟩ | ⟨-, h⟩
  · have : c.toNat ≤ 122 := h
    omega
  · have : c.toNat ≤ 90 := h
    omega

theorem isDigit_ascii {c : Char} (h : isDigit c = true) : c.toNat < 128 := by
  simp only [isDigit, Bool.and_eq_true, decide_eq_true_eq] at h
  have : c.toNat ≤ 57 := h.2
  omega

/-- The characters that begin and continue a word and those that open a quoted identifier, in each dialect. -/
theorem C68_alphabets :
    (∀ d, d = genericDialect ∨ d = mysqlDialect → ∀ c,
      (d.isIdentStart c = true ↔ c ∈ wordLetters ++ str% "@") ∧
      (d.isIdentPart c = true ↔ c ∈ wordLetters ++ str% "0123456789@_")) ∧
    (∀ c, (postgresDialect.isIdentStart c = true ↔ c ∈ wordLetters ++ str% "_") ∧
      (postgresDialect.isIdentPart c = true ↔ c ∈ wordLetters ++ str% "0123456789$_")) ∧
    (∀ c, (genericDialect.isDelimStart c = true ↔ c ∈ str% "\"") ∧ (mysqlDialect.isDelimStart c = true ↔ c ∈ str% "\"`") ∧
      (postgresDialect.isDelimStart c = true ↔ c ∈ str% "\"`")) := by
  refine ⟨?_, fun c => ⟨class_iff ?_ (by decide) (by decide +kernel) c, class_iff ?_ (by decide) (by decide +kernel) c⟩, fun c => ?_⟩
  · intro d hd c
    have : d.isIdentStart = genericDialect.isIdentStart ∧ d.isIdentPart = genericDialect.isIdentPart := by
      rcases hd with rfl | rfl <;> exact ⟨rfl, rfl⟩
    rw [this.1, this.2]
    refine ⟨class_iff ?_ (by decide) (by decide +kernel) c, class_iff ?_ (by decide) (by decide +kernel) c⟩
    · intro c h
      simp only [genericDialect, Bool.or_eq_true, beq_iff_eq] at h
      rcases h with h | rfl
      · exact isLetter_ascii h
      · decide
    · intro c h
      simp only [genericDialect, Bool.or_eq_true, beq_iff_eq] at h
      rcases h with ((h | h) | rfl) | rfl
      · exact isLetter_ascii h
      · exact isDigit_ascii h
      · decide
      · decide
  · intro c h
    simp only [postgresDialect, Bool.or_eq_true, beq_iff_eq] at h
    rcases h with h | rfl
    · exact isLetter_ascii h
    · decide
  · intro c h
    simp only [postgresDialect, Bool.or_eq_true, beq_iff_eq] at h
    rcases h with ((h | h) | rfl) | rfl
    · exact isLetter_ascii h
    · exact isDigit_ascii h
    · decide
    · decide
  · simp [genericDialect, mysqlDialect, postgresDialect]

end Verif
