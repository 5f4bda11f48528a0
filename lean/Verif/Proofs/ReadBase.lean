import Verif.Spec.Grammar
import Verif.Spec.Shape
import Verif.Proofs.ParseNames
import Verif.Proofs.Decimal
/-
Completeness of the grammar: lemmas that take a sentence of the grammar apart, from left to right, into tokens of
which the parser can see what they are.
-/
set_option linter.unusedSimpArgs false
namespace Verif
open Spec

/-- The grammar without the quirks that make a sentence ambiguous. -/
def clean : Quirks := ⟨false, false, false⟩

theorem clean_odd {c : Prop} (h : clean.odd = true ∨ c) : c := h.elim (fun h => by cases h) id

/-- What holds of the words the tokenizer makes of texts without Kelvin signs and the like. -/
def Regular (t : Tok) : Prop := ∀ w, t = .word w → w.keyword = upper w.value ∧
  ∀ k : KW, equalFold w.value k.str = true ↔ upper w.value = k.str

/-- The sentences of the language, without positions. -/
def K (L : Lang) (ks : List Tok) : Prop := ∃ ts : List Token, L ts ∧ (∀ t ∈ ts, Regular t.tok) ∧ ks = ts.map (·.tok)

variable {a b : Lang} {ks : List Tok}

theorem K.cat (h : K (a ⬝ b) ks) : ∃ us vs, ks = us ++ vs ∧ K a us ∧ K b vs := by
  obtain ⟨_, ⟨u, v, rfl, ha, hb⟩, hg, rfl⟩ := h
  exact ⟨_, _, List.map_append, ⟨u, ha, fun t ht => hg t (by simp [ht]), rfl⟩, ⟨v, hb, fun t ht => hg t (by simp [ht]), rfl⟩⟩

theorem K.alt (h : K (a ⊹ b) ks) : K a ks ∨ K b ks := by
  obtain ⟨ts, ha | hb, hg, rfl⟩ := h
  · exact .inl ⟨_, ha, hg, rfl⟩
  · exact .inr ⟨_, hb, hg, rfl⟩

theorem K.mono (h : K a ks) (hi : ∀ ts, a ts → b ts) : K b ks := by
  obtain ⟨ts, ha, hg, rfl⟩ := h
  exact ⟨_, hi _ ha, hg, rfl⟩

theorem K.starts {p : Pos} (h : K (p ▹ a) ks) : K a ks := h.mono fun _ h => h.1
theorem K.ends {p : Pos} (h : K (a ◃ p) ks) : K a ks := h.mono fun _ h => h.1
theorem K.spans {p p' : Pos} (h : K (Spec.spans p p' a) ks) : K a ks := h.starts.ends

theorem K.opt (h : K (Spec.opt a) ks) : ks = [] ∨ K a ks := by
  rcases h.alt with ⟨_, rfl, _, rfl⟩ | h
  · exact .inl rfl
  · exact .inr h

theorem K.never (h : K Spec.never ks) : False := by
  obtain ⟨_, h, _⟩ := h
  exact h

theorem K.assoc {c : Lang} (h : K ((a ⬝ b) ⬝ c) ks) : K (a ⬝ b ⬝ c) ks := by
  refine h.mono fun ts h => ?_
  obtain ⟨_, c, rfl, ⟨a, b, rfl, ha, hb⟩, hc⟩ := h
  exact ⟨a, b ++ c, by simp, ha, b, c, rfl, hb, hc⟩

/-- All sentences are one token with the property. -/
class Eat (L : Lang) (Q : outParam (Tok → Prop)) : Prop where
  eat : ∀ ks, K L ks → ∃ t, ks = [t] ∧ Q t

/-- The only sentence is empty, and the condition holds. -/
class Blank (L : Lang) (c : outParam Prop) : Prop where
  nil : ∀ ks, K L ks → ks = [] ∧ c

theorem K.eat1 {Q : Tok → Prop} [Eat a Q] (h : K a ks) : ∃ t, ks = [t] ∧ Q t := Eat.eat ks h
theorem K.eat {Q : Tok → Prop} [Eat a Q] (h : K (a ⬝ b) ks) : ∃ t vs, ks = t :: vs ∧ Q t ∧ K b vs := by
  obtain ⟨us, vs, rfl, ha, hb⟩ := h.cat
  obtain ⟨t, rfl, ht⟩ := Eat.eat _ ha
  exact ⟨t, vs, rfl, ht, hb⟩
theorem K.nil {c : Prop} [Blank a c] (h : K a ks) : ks = [] ∧ c := Blank.nil ks h
theorem K.skip {c : Prop} [Blank a c] (h : K (a ⬝ b) ks) : c ∧ K b ks := by
  obtain ⟨us, vs, rfl, ha, hb⟩ := h.cat
  obtain ⟨rfl, ht⟩ := Blank.nil _ ha
  exact ⟨ht, hb⟩
/-- Drop an empty end. -/
theorem K.drop {c : Prop} [Blank b c] (h : K (a ⬝ b) ks) : K a ks ∧ c := by
  obtain ⟨us, vs, rfl, ha, hb⟩ := h.cat
  obtain ⟨rfl, ht⟩ := Blank.nil _ hb
  exact ⟨by simpa using ha, ht⟩

instance {p : Pos} {Q : Tok → Prop} [Eat a Q] : Eat (p ▹ a) Q := ⟨fun ks h => Eat.eat ks h.starts⟩
instance {p : Pos} {Q : Tok → Prop} [Eat a Q] : Eat (a ◃ p) Q := ⟨fun ks h => Eat.eat ks h.ends⟩
instance {p p' : Pos} {Q : Tok → Prop} [Eat a Q] : Eat (spans p p' a) Q := ⟨fun ks h => Eat.eat ks h.spans⟩

instance : Blank eps True := ⟨fun ks h => by obtain ⟨_, rfl, _, rfl⟩ := h; exact ⟨rfl, trivial⟩⟩
instance {p : Pos} : Blank (unset p) (p = Pos.zero) := ⟨fun ks h => by obtain ⟨_, ⟨rfl, h⟩, _, rfl⟩ := h; exact ⟨rfl, h⟩⟩
instance {c : Prop} : Blank (only c) c := ⟨fun ks h => by obtain ⟨_, ⟨rfl, h⟩, _, rfl⟩ := h; exact ⟨rfl, h⟩⟩
instance {c c' : Prop} [Blank a c] [Blank b c'] : Blank (a ⬝ b) (c ∧ c') := ⟨fun ks h => by
  obtain ⟨us, vs, rfl, ha, hb⟩ := h.cat
  obtain ⟨rfl, h1⟩ := Blank.nil _ ha
  obtain ⟨rfl, h2⟩ := Blank.nil _ hb
  exact ⟨rfl, h1, h2⟩⟩
instance {p p' : Pos} : Blank (unset2 p p') (p = Pos.zero ∧ p' = Pos.zero) :=
  ⟨fun ks h => K.nil (a := unset p ⬝ unset p') h⟩

/-- The token is the keyword. -/
def IsKw (k : KW) (t : Tok) : Prop := ∃ w, t = .word w ∧ fk (.word w) = .kw k ∧ kwOf w.keyword = some k

theorem isKw_of {w : SQLWord} {k : KW} (hg : Regular (.word w)) (h : spells w.value k) : IsKw k (.word w) := by
  obtain ⟨h1, h2⟩ := hg w rfl
  have hu : upper w.value = k.str := h.elim (h2 k).1 id
  have hk : kwOf w.keyword = some k := by rw [h1, hu, kwOf_str]
  refine ⟨w, rfl, ?_, hk⟩
  simp [fk, hk, (h2 k).2 hu]

instance {k : KW} : Eat (kwd k) (IsKw k) := ⟨fun ks h => by
  obtain ⟨_, ⟨t, w, rfl, ht, hw⟩, hg, rfl⟩ := h
  have := hg t (by simp)
  rw [ht] at this
  exact ⟨_, rfl, by simp only [ht]; exact isKw_of this hw⟩⟩

instance {k : Sym} : Eat (sym k) (fun t => ∃ s, t = .sym k s) := ⟨fun ks h => by
  obtain ⟨_, ⟨t, w, rfl, ht⟩, hg, rfl⟩ := h
  exact ⟨_, rfl, _, ht⟩⟩

/-- The next token is a name or may be one anywhere. -/
def Fk.free : Fk → Bool
  | .id => true
  | .kw k => k.free
  | _ => false

/-- A keyword that may be a name anywhere, or none. -/
def freeKw : Option KW → Bool
  | some k => k.free
  | none => true

theorem KW.soft_of_free {k : KW} (h : k.free = true) : k.soft = true := by cases k <;> first | rfl | cases h
theorem soft_of_free {o : Option KW} (h : freeKw o = true) : softKw o = true := by
  cases o with
  | none => rfl
  | some k => exact KW.soft_of_free h

/-- What the parser can tell of such a token. -/
abbrev Free (f : Fk) : Prop :=
  f.free = true ∧ f.soft = true ∧ (∀ k, f ≠ .sym k) ∧ f ≠ .eof ∧ f ≠ .odd ∧ f ≠ .lit ∧ ∀ k : KW, k.free = false → f ≠ .kw k

theorem Fk.free_facts {f : Fk} (h : f.free = true) : Free f := by
  have hs : f.soft = true := by
    cases f with
    | kw k => exact KW.soft_of_free h
    | id => rfl
    | _ => cases h
  obtain ⟨-, h1, h2, h3, h4, -⟩ := Fk.soft_facts hs
  refine ⟨h, hs, h1, h2, h3, h4, ?_⟩
  rintro k hk rfl; rw [Fk.free, hk] at h; cases h

@[zx] theorem unfree_AND : KW.free .AND = false := (rfl)
@[zx] theorem unfree_AS : KW.free .AS = false := (rfl)
@[zx] theorem unfree_BETWEEN : KW.free .BETWEEN = false := (rfl)
@[zx] theorem unfree_CASE : KW.free .CASE = false := (rfl)
@[zx] theorem unfree_CAST : KW.free .CAST = false := (rfl)
@[zx] theorem unfree_CHECK : KW.free .CHECK = false := (rfl)
@[zx] theorem unfree_CONSTRAINT : KW.free .CONSTRAINT = false := (rfl)
@[zx] theorem unfree_CROSS : KW.free .CROSS = false := (rfl)
@[zx] theorem unfree_DISTINCT : KW.free .DISTINCT = false := (rfl)
@[zx] theorem unfree_EXCEPT : KW.free .EXCEPT = false := (rfl)
@[zx] theorem unfree_EXISTS : KW.free .EXISTS = false := (rfl)
@[zx] theorem unfree_FALSE : KW.free .FALSE = false := (rfl)
@[zx] theorem unfree_FOREIGN : KW.free .FOREIGN = false := (rfl)
@[zx] theorem unfree_FROM : KW.free .FROM = false := (rfl)
@[zx] theorem unfree_FULL : KW.free .FULL = false := (rfl)
@[zx] theorem unfree_GROUP : KW.free .GROUP = false := (rfl)
@[zx] theorem unfree_IF : KW.free .IF = false := (rfl)
@[zx] theorem unfree_IN : KW.free .IN = false := (rfl)
@[zx] theorem unfree_INNER : KW.free .INNER = false := (rfl)
@[zx] theorem unfree_INTERSECT : KW.free .INTERSECT = false := (rfl)
@[zx] theorem unfree_IS : KW.free .IS = false := (rfl)
@[zx] theorem unfree_JOIN : KW.free .JOIN = false := (rfl)
@[zx] theorem unfree_LATERAL : KW.free .LATERAL = false := (rfl)
@[zx] theorem unfree_LEFT : KW.free .LEFT = false := (rfl)
@[zx] theorem unfree_LIKE : KW.free .LIKE = false := (rfl)
@[zx] theorem unfree_NATURAL : KW.free .NATURAL = false := (rfl)
@[zx] theorem unfree_NOT : KW.free .NOT = false := (rfl)
@[zx] theorem unfree_NULL : KW.free .NULL = false := (rfl)
@[zx] theorem unfree_ON : KW.free .ON = false := (rfl)
@[zx] theorem unfree_OR : KW.free .OR = false := (rfl)
@[zx] theorem unfree_ORDER : KW.free .ORDER = false := (rfl)
@[zx] theorem unfree_OVER : KW.free .OVER = false := (rfl)
@[zx] theorem unfree_PRIMARY : KW.free .PRIMARY = false := (rfl)
@[zx] theorem unfree_RIGHT : KW.free .RIGHT = false := (rfl)
@[zx] theorem unfree_SELECT : KW.free .SELECT = false := (rfl)
@[zx] theorem unfree_TRUE : KW.free .TRUE = false := (rfl)
@[zx] theorem unfree_UNION : KW.free .UNION = false := (rfl)
@[zx] theorem unfree_UNIQUE : KW.free .UNIQUE = false := (rfl)
@[zx] theorem unfree_UNSIGNED : KW.free .UNSIGNED = false := (rfl)
@[zx] theorem unfree_USING : KW.free .USING = false := (rfl)
@[zx] theorem unfree_VARYING : KW.free .VARYING = false := (rfl)
@[zx] theorem unfree_WHEN : KW.free .WHEN = false := (rfl)
@[zx] theorem unfree_WHERE : KW.free .WHERE = false := (rfl)
@[zx] theorem unfree_WITH : KW.free .WITH = false := (rfl)
@[zx] theorem unfree_WITHOUT : KW.free .WITHOUT = false := (rfl)

theorem isReserved_free {s : Str} (this : freeKw (kwOf s) = true) {table : KW → Bool}
    (ht : ∀ k : KW, k.free = true → table k = false) : isReserved table s = false := by
  unfold isReserved
  cases hk : kwOf s with
  | none => rfl
  | some k => rw [hk] at this; exact ht k this
theorem free_table (k : KW) (hk : k.free = true) : reservedForTableAlias k = false := by cases k <;> first | rfl | cases hk
theorem free_column (k : KW) (hk : k.free = true) : reservedForColumnAlias k = false := by cases k <;> first | rfl | cases hk

theorem free_noKeyword_facts {w : Str} (hw : freeWord.noKeyword w = true) {o : Option Char} :
    freeKw (kwOf (upper w)) = true ∧ (fk (.word ⟨w, o, upper w⟩)).free = true := by
  unfold freeWord.noKeyword at hw
  unfold fk
  cases h : kwOf (upper w) with
  | none =>
    rw [h] at hw
    simp only [List.all_eq_true, Bool.not_eq_true'] at hw
    have : (KW.all.any fun k => equalFold w k.str) = false := by
      rw [List.any_eq_false]; intro k hk; simp [hw k hk]
    simp [freeKw, this, h, Fk.free]
  | some k =>
    rw [h] at hw
    simp only [Bool.and_eq_true] at hw
    simp [freeKw, h, hw, Fk.free]

theorem noKeyword_fk {w : SQLWord} (hg : Regular (.word w)) (h : freeWord.noKeyword w.value = true) :
    Free (fk (.word w)) ∧ freeKw (kwOf w.keyword) = true := by
  have h1 := (hg w rfl).1
  obtain ⟨v, q, k⟩ := w
  simp only at h1 h; subst h1
  exact ⟨Fk.free_facts (free_noKeyword_facts h).2, (free_noKeyword_facts h (o := none)).1⟩

/-- A quote does not begin a keyword. -/
theorem noKeyword_quote {q : Char} {v : Str} (hq : q = '"' ∨ q = '[' ∨ q = '`') : freeWord.noKeyword (q :: v) = true := by
  have key : ∀ k ∈ KW.all, ∀ q ∈ ['"', '[', '`'], k.str.head? ≠ some (upperC q) ∧
      (k.str.map foldC).head? ≠ some (foldC q) := by decide +kernel
  have hq' : q ∈ ['"', '[', '`'] := by simpa using hq
  have hn : kwOf (upper (q :: v)) = none := by
    cases h : kwOf (upper (q :: v)) with
    | none => rfl
    | some k =>
      have := kwOf_eq_some.1 h
      exact absurd (by rw [← this]; rfl) (key k (KW.mem_all k) q hq').1
  simp only [freeWord.noKeyword, hn, List.all_eq_true, Bool.not_eq_true']
  · intro k hk
    cases h : equalFold (q :: v) k.str with
    | false => rfl
    | true =>
      simp only [equalFold, beq_iff_eq] at h
      exact absurd (by rw [← h]; rfl) (key k hk q hq').2

theorem freeWord_value {w : SQLWord} (h : freeWord w.string = true) : freeWord.noKeyword w.value = true := by
  obtain ⟨v, q, kw⟩ := w
  cases q with
  | none =>
    simp only [SQLWord.string] at h ⊢
    cases v with
    | nil => simp [freeWord] at h
    | cons c v =>
      simp only [freeWord] at h
      split at h
      · exact noKeyword_quote ‹_›
      · exact h
  | some q =>
    simp only [SQLWord.string] at h
    split at h
    · next hq =>
      simp only [List.cons_append, List.nil_append, freeWord, if_pos hq, List.dropLast_concat] at h
      exact h
    · simp [freeWord] at h

/-- The token is the name. -/
def IsId (i : Ident) (t : Tok) : Prop := freeWord i.value = true →
  ∃ w, t = .word w ∧ Free (fk (.word w)) ∧ freeKw (kwOf w.keyword) = true ∧ w.string = i.value

instance {bad : List KW} {i : Ident} : Eat (word bad i) (IsId i) := ⟨fun ks h => by
  obtain ⟨_, ⟨t, w, rfl, ht, hs, -⟩, hg, rfl⟩ := h
  have := hg t (by simp)
  rw [ht] at this
  refine ⟨_, rfl, fun hi => ?_⟩
  rw [← hs] at hi
  obtain ⟨h1, h2⟩ := noKeyword_fk this (freeWord_value hi)
  exact ⟨w, ht, h1, h2, hs⟩⟩

/-- The token is the number. -/
def IsNum (n : Nat) (t : Tok) : Prop := ∃ s, t = .number s ∧ (sizeOK n = true → atoi s = ((n : Int), true))

theorem atoi_of_denotes {s : Str} {n : Nat} (h : Denotes s n) (hn : sizeOK n = true) : atoi s = ((n : Int), true) := by
  have h1 : n ≤ maxInt := by
    simp only [sizeOK, decide_eq_true_eq] at hn
    unfold maxInt; omega
  simp [atoi, digitsVal_denotes h, h1]

instance {n : Nat} : Eat (number n) (IsNum n) := ⟨fun ks h => by
  obtain ⟨_, ⟨t, s, rfl, ht, hd, -⟩, hg, rfl⟩ := h
  exact ⟨_, rfl, s, ht, atoi_of_denotes hd⟩⟩

instance {v : Int} : Eat (numberZ v) (IsNum v.toNat) := ⟨fun ks h => by
  obtain ⟨_, ⟨n, rfl, h⟩, hg, rfl⟩ := h
  exact K.eat1 (a := number n) ⟨_, h, hg, rfl⟩⟩

/-! ### Tactics -/

set_option hygiene false in
/-- Takes the first token off a sentence. -/
macro "eat " h:ident " with " p:rcasesPat : tactic => `(tactic| first
  | (have hnew_ := K.eat $h; clear $h; rcases hnew_ with ⟨_, _, rfl, $p:rcasesPat, $h:ident⟩)
  | (have hnew_ := K.eat1 $h; clear $h; rcases hnew_ with ⟨_, rfl, $p:rcasesPat⟩))
set_option hygiene false in
/-- The first token is a keyword. -/
macro "eatK " h:ident w:ident f:ident k:ident : tactic => `(tactic| eat $h with ⟨$w:ident, rfl, $f:ident, $k:ident⟩)
set_option hygiene false in
/-- The first token is a symbol. -/
macro "eatS " h:ident s:ident : tactic => `(tactic| eat $h with ⟨$s:ident, rfl⟩)
set_option hygiene false in
/-- The first token is a name. -/
macro "eatI " h:ident hi:term:max w:ident f:ident k:ident e:ident : tactic => `(tactic|
  (eat $h with hid_; rcases hid_ $hi with ⟨$w:ident, rfl, $f:ident, $k:ident, $e:ident⟩))
set_option hygiene false in
/-- Splits a sequence. -/
macro "split_ " h:ident hu:ident u:ident v:ident : tactic => `(tactic|
  (have hnew_ := K.cat $h; clear $h; rcases hnew_ with ⟨$u:ident, $v:ident, rfl, $hu:ident, $h:ident⟩))
set_option hygiene false in
/-- Removes an empty part at the end or at the beginning. -/
macro "drop_ " h:ident " with " p:rcasesPat : tactic => `(tactic| first
  | (have hnew_ := K.nil $h; clear $h; rcases hnew_ with ⟨rfl, $p:rcasesPat⟩)
  | (have hnew_ := K.drop $h; clear $h; rcases hnew_ with ⟨$h:ident, $p:rcasesPat⟩)
  | (have hnew_ := K.skip $h; clear $h; rcases hnew_ with ⟨$p:rcasesPat, $h:ident⟩))

set_option hygiene false in
/-- One of two. -/
macro "alt_ " h:ident : tactic => `(tactic| (replace $h := K.alt $h; rcases $h:ident with $h:ident | $h:ident))
set_option hygiene false in
/-- There or not. -/
macro "opt_ " h:ident : tactic => `(tactic| (replace $h := K.opt $h; rcases $h:ident with rfl | $h:ident))

/-! ### Execution -/

@[zx] theorem tok_word (w : SQLWord) : (zt (.word w)).tok = .word w := rfl
@[zx] theorem word_word (w : SQLWord) : (zt (.word w)).word? = some w := rfl
@[zx] theorem kw?_word (w : SQLWord) : (zt (.word w)).kw? = kwOf w.keyword := rfl
@[zx] theorem tok_number (s : Str) : (zt (.number s)).tok = .number s := rfl

@[zx] theorem parseIdentifier_word (w : SQLWord) (b a : List Token) :
    parseIdentifier.runZ b (zt (.word w) :: a) = .ok ⟨w.string, Pos.zero, Pos.zero⟩ (zt (.word w) :: b, a) := by
  simp [parseIdentifier, zx]

theorem literalInt_number {s : Str} {n : Nat} (h : atoi s = ((n : Int), true)) (b a : List Token) :
    parseLiteralInt.runZ b (zt (.number s) :: a) = .ok ((n : Int), zt (.number s)) (zt (.number s) :: b, a) := by
  simp only [parseLiteralInt, runZ_bindM, runZ_mustNext_cons, Res.bind_ok]
  simp only [zt, h]
  rfl

end Verif
