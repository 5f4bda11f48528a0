import Verif.Proofs.PrintText
import Verif.Props.Tokenizer
/-
The tokens of a printed tree are separated: reading the text again cuts it at the same places.
-/
set_option linter.unusedSimpArgs false
namespace Verif
open Spec

/-- A token of one character that continues no token and is continued by none. -/
def isBreak : Tok → Bool
  | .whitespace s => s == [' ']
  | .sym _ t => t == ['('] || t == [')'] || t == [','] || t == [';'] || t == ['['] || t == [']']
  | _ => false

def isWordTok : Tok → Bool
  | .word _ => true
  | _ => false

/-- The two tokens can stand side by side. -/
def adj (t u : Tok) : Bool :=
  isBreak t || isBreak u || t == dot || (isWordTok t && u == dot)

def adjs : List Tok → Bool
  | [] => true
  | [_] => true
  | t :: u :: ts => adj t u && adjs (u :: ts)

def notComment : Tok → Bool
  | .comment _ => false
  | _ => true

/-- Every token is spelled in the usual way and any two neighbours can stand side by side. -/
structure Spaced (d : Dialect) (ts : List Tok) : Prop where
  spells : ∀ t ∈ ts, Spells d t (spell t) ∧ notComment t = true
  adjs : adjs ts = true

/-- The list is empty or starts with a break. -/
def startsB : List Tok → Bool
  | [] => true
  | t :: _ => isBreak t

theorem Spaced.nil {d : Dialect} : Spaced d [] := ⟨by simp, rfl⟩

theorem adjs_append {ts us : List Tok} (h1 : adjs ts = true) (h2 : adjs us = true)
    (h : ∀ t u, ts.getLast? = some t → us.head? = some u → adj t u = true) : adjs (ts ++ us) = true := by
  induction ts with
  | nil => simpa
  | cons t ts ih =>
    cases ts with
    | nil =>
      cases us with
      | nil => rfl
      | cons u us => simp only [List.cons_append, List.nil_append, Verif.adjs, Bool.and_eq_true]; exact ⟨h t u rfl rfl, h2⟩
    | cons t' ts =>
      simp only [Verif.adjs, Bool.and_eq_true] at h1
      simp only [List.cons_append, Verif.adjs, Bool.and_eq_true]
      exact ⟨h1.1, ih h1.2 (fun a b ha hb => h a b (by simpa [List.getLast?_cons] using ha) hb)⟩

theorem Spaced.append {d : Dialect} {ts us : List Tok} (h1 : Spaced d ts) (h2 : Spaced d us) (h : startsB us = true) :
    Spaced d (ts ++ us) := by
  refine ⟨fun t ht => ?_, adjs_append h1.adjs h2.adjs fun t u _ hu => ?_⟩
  · rcases List.mem_append.1 ht with h | h
    · exact h1.spells t h
    · exact h2.spells t h
  · cases us with
    | nil => simp at hu
    | cons u' us =>
      simp only [List.head?_cons, Option.some.injEq] at hu
      subst hu
      simp only [startsB] at h
      simp [adj, h]

theorem Spaced.cons {d : Dialect} {t : Tok} {us : List Tok} (h0 : Spells d t (spell t)) (hc : notComment t = true)
    (h2 : Spaced d us) (h : isBreak t = true ∨ startsB us = true) : Spaced d (t :: us) := by
  refine ⟨fun t ht => ?_, ?_⟩
  · rcases List.mem_cons.1 ht with h | h
    · subst h; exact ⟨h0, hc⟩
    · exact h2.spells t h
  · cases us with
    | nil => rfl
    | cons u us =>
      simp only [Verif.adjs, Bool.and_eq_true]
      refine ⟨?_, h2.adjs⟩
      simp only [startsB] at h
      rcases h with h | h <;> simp [adj, h]

theorem startsB_append {ts us : List Tok} (h1 : startsB ts = true) (h2 : startsB us = true) :
    startsB (ts ++ us) = true := by
  cases ts with
  | nil => exact h2
  | cons t ts => exact h1

theorem startsB_cons {t : Tok} {us : List Tok} (h : isBreak t = true) : startsB (t :: us) = true := h

theorem Spaced.brk {d : Dialect} {t : Tok} {us : List Tok} (h : isBreak t = true) (hs : Spells d t (spell t))
    (h2 : Spaced d us) : Spaced d (t :: us) := by
  refine Spaced.cons hs ?_ h2 (.inl h)
  cases t <;> first | rfl | simp [isBreak] at h

theorem Spaced.sp {d : Dialect} {us : List Tok} (h : Spaced d us) : Spaced d (sp :: us) := Spaced.brk rfl .space h
theorem Spaced.lpar {d : Dialect} {us : List Tok} (h : Spaced d us) : Spaced d (lpar :: us) :=
  Spaced.brk rfl (.sym .LParen ['('] (by decide)) h
theorem Spaced.rpar {d : Dialect} {us : List Tok} (h : Spaced d us) : Spaced d (rpar :: us) :=
  Spaced.brk rfl (.sym .RParen [')'] (by decide)) h
theorem Spaced.comma {d : Dialect} {us : List Tok} (h : Spaced d us) : Spaced d (comma :: us) :=
  Spaced.brk rfl (.sym .Comma [','] (by decide)) h
theorem Spaced.semi {d : Dialect} {us : List Tok} (h : Spaced d us) : Spaced d (semi :: us) :=
  Spaced.brk rfl (.sym .Semicolon [';'] (by decide)) h
theorem Spaced.sym {d : Dialect} {us : List Tok} (k : Sym) (t : Str) (hk : t ∈ symText k) (h : Spaced d us)
    (hs : startsB us = true) : Spaced d (.sym k t :: us) := Spaced.cons (.sym k t hk) rfl h (.inr hs)

def wordLike : Str → Bool
  | [] => false
  | c :: w => isLetter c && w.all fun x => isLetter x || x == '_'

theorem letters_upper (k : KW) : wordLike k.str = true := by cases k <;> decide

theorem letters_lower (k : KW) : upper (lower k.str) = k.str ∧ wordLike (lower k.str) = true := by
  cases k <;> decide

theorem upper_kw : ∀ k : KW, upper k.str = k.str := by
  intro k; cases k <;> decide

theorem BuiltIn.letter {d : Dialect} (hd : BuiltIn d) {c : Char} (h : isLetter c = true) : d.isIdentStart c = true := by
  rcases hd with rfl | rfl | rfl <;> simp [genericDialect, mysqlDialect, postgresDialect, h]

theorem BuiltIn.letterPart {d : Dialect} (hd : BuiltIn d) {c : Char} (h : (isLetter c || c == '_') = true) :
    d.isIdentPart c = true := by
  simp only [Bool.or_eq_true] at h
  rcases hd with rfl | rfl | rfl <;> simp [genericDialect, mysqlDialect, postgresDialect] <;> grind

theorem spells_kT {d : Dialect} (hd : BuiltIn d) (k : KW) : Spells d (kT k) (spell (kT k)) := by
  have h := letters_upper k
  have e := upper_kw k
  simp only [kT, spell]
  cases hk : k.str with
  | nil => rw [hk] at h; simp [wordLike] at h
  | cons c w =>
    rw [hk] at h e
    simp only [wordLike, Bool.and_eq_true, List.all_eq_true] at h
    have := Spells.word (d := d) c w (.inr (hd.letter h.1)) (fun x hx => hd.letterPart (h.2 x hx))
    rwa [e] at this

theorem spells_klT {d : Dialect} (hd : BuiltIn d) (k : KW) : Spells d (klT k) (spell (klT k)) := by
  obtain ⟨e, h⟩ := letters_lower k
  simp only [klT, spell]
  cases hk : lower k.str with
  | nil => rw [hk] at h; simp [wordLike] at h
  | cons c w =>
    rw [hk] at h e
    simp only [wordLike, Bool.and_eq_true, List.all_eq_true] at h
    have := Spells.word (d := d) c w (.inr (hd.letter h.1)) (fun x hx => hd.letterPart (h.2 x hx))
    rwa [e] at this

theorem spells_ident {d : Dialect} {v : Str} (h : identOK d v = true) : Spells d (identTok v) (spell (identTok v)) := by
  have hs := identOK_spell h
  unfold identOK at h
  cases v with
  | nil => simp at h
  | cons q rest =>
    unfold identTok at hs ⊢
    simp only at h hs ⊢
    split
    · rename_i hq
      rw [if_pos hq] at h hs
      simp only [Bool.and_eq_true, beq_iff_eq, Bool.not_eq_true', List.contains_eq_mem, decide_eq_false_iff_not] at h
      exact .delim q rest.dropLast h.1.1.1 h.1.2
    · rename_i hq
      rw [if_neg hq] at h
      simp only [Bool.and_eq_true, Bool.or_eq_true, beq_iff_eq, List.all_eq_true] at h
      exact .word q rest h.1.1 h.1.2

theorem digit_char : ∀ n, n < 10 → isDigit (Char.ofNat (48 + n)) = true := by decide

theorem natStr_all (n : Nat) : ∀ x ∈ natStr n, isDigit x = true := by
  induction n using Nat.strongRecOn with
  | ind n ih =>
    intro x hx
    rw [natStr] at hx
    split at hx
    · simp only [List.mem_singleton] at hx; subst hx; exact digit_char n (by omega)
    · rcases List.mem_append.1 hx with h | h
      · exact ih _ (by omega) x h
      · simp only [List.mem_singleton] at h; subst h; exact digit_char _ (by omega)

theorem natStr_digits (n : Nat) : ∃ c w, natStr n = c :: w ∧ isDigit c = true ∧ ∀ x ∈ w, isDigit x = true := by
  have h2 := natStr_all n
  cases h : natStr n with
  | nil => rw [natStr] at h; split at h <;> simp at h
  | cons c w =>
    rw [h] at h2
    exact ⟨c, w, rfl, h2 c (by simp), fun x hx => h2 x (by simp [hx])⟩

theorem spells_num {d : Dialect} (n : Nat) : Spells d (numTok n) (spell (numTok n)) := by
  obtain ⟨c, w, e, h1, h2⟩ := natStr_digits n
  simp only [numTok, spell, e]
  exact .number c w h1 (fun x hx => .inl (h2 x hx))

theorem spells_float {d : Dialect} {fns : FloatFns} {v : F64} (h : floatOK fns v = true) :
    Spells d (.number (fns.format v)) (spell (.number (fns.format v))) := by
  unfold floatOK at h
  simp only [spell]
  cases e : fns.format v with
  | nil => rw [e] at h; simp at h
  | cons c w =>
    rw [e] at h
    simp only [Bool.and_eq_true, List.all_eq_true, Bool.or_eq_true, beq_iff_eq] at h
    exact .number c w h.1.1.1 h.1.1.2

theorem Spaced.kT {d : Dialect} (hd : BuiltIn d) {us : List Tok} (k : KW) (h : Spaced d us) (hs : startsB us = true) :
    Spaced d (kT k :: us) := Spaced.cons (spells_kT hd k) rfl h (.inr hs)
theorem Spaced.klT {d : Dialect} (hd : BuiltIn d) {us : List Tok} (k : KW) (h : Spaced d us) (hs : startsB us = true) :
    Spaced d (klT k :: us) := Spaced.cons (spells_klT hd k) rfl h (.inr hs)
theorem notComment_ident (v : Str) : notComment (identTok v) = true ∧ isWordTok (identTok v) = true := by
  unfold identTok
  cases v with
  | nil => exact ⟨rfl, rfl⟩
  | cons q r => simp only; split <;> exact ⟨rfl, rfl⟩
theorem Spaced.ident {d : Dialect} {us : List Tok} {v : Str} (hv : identOK d v = true) (h : Spaced d us)
    (hs : startsB us = true) : Spaced d (identTok v :: us) :=
  Spaced.cons (spells_ident hv) (notComment_ident v).1 h (.inr hs)
theorem Spaced.num {d : Dialect} {us : List Tok} (n : Nat) (h : Spaced d us) (hs : startsB us = true) :
    Spaced d (numTok n :: us) := Spaced.cons (spells_num n) rfl h (.inr hs)

theorem Separated_nonempty {d : Dialect} {t : Tok} {p : Str} (h : Spells d t p) : p ≠ [] := by
  cases h with
  | sym k text hk => intro e; subst e; cases k <;> simp [symText] at hk
  | _ => simp

theorem ends_adj {d : Dialect} (hd : BuiltIn d) {t u : Tok} (ht : notComment t = true) (hu : Spells d u (spell u))
    (h : adj t u = true) : Ends d t (spell u).head? := by
  have part : ∀ y : Char, y ∈ [' ', '(', ')', ',', ';', '[', ']', '.'] → d.isIdentPart y = false := by
    intro y hy
    simp only [List.mem_cons, List.not_mem_nil, or_false] at hy
    rcases hd with rfl | rfl | rfl <;> rcases hy with rfl | rfl | rfl | rfl | rfl | rfl | rfl | rfl <;> decide
  simp only [adj, Bool.or_eq_true, Bool.and_eq_true, beq_iff_eq] at h
  rcases h with ((h | h) | h) | h
  · -- the first token is a break
    cases t <;> simp [isBreak] at h
    · trivial
    · rename_i k s
      simp only [Ends, SymEnds]
      intro x y hs hy
      rcases h with ((((h | h) | h) | h) | h) | h <;> (subst h; cases hs; simp [gluing])
  · have : ∃ y ∈ [' ', '(', ')', ',', ';', '[', ']'], (spell u).head? = some y := by
      cases u <;> simp [isBreak] at h
      · subst h; exact ⟨' ', by decide, rfl⟩
      · rename_i k s
        rcases h with ((((h | h) | h) | h) | h) | h <;> (subst h; simp [spell])
    obtain ⟨y, hy, e⟩ := this
    rw [e]
    have hp := part y (by simp at hy ⊢; grind)
    have hq : y ≠ '\'' ∧ isDigit y = false ∧ y ≠ '.' := by
      simp only [List.mem_cons, List.not_mem_nil, or_false] at hy
      rcases hy with rfl | rfl | rfl | rfl | rfl | rfl | rfl <;> decide
    have hg : ∀ x, (x, y) ∉ gluing := by
      intro x
      simp only [List.mem_cons, List.not_mem_nil, or_false] at hy
      rcases hy with rfl | rfl | rfl | rfl | rfl | rfl | rfl <;> simp [gluing]
    cases t with
    | word w =>
      obtain ⟨v, q, k⟩ := w
      cases q with
      | none => exact ⟨fun z hz => by cases hz; exact hp, fun _ e => hq.1 (by injection e)⟩
      | some q => trivial
    | number s => exact fun z hz => by cases hz; exact hq.2
    | char c => trivial
    | single s => exact fun e => hq.1 (by injection e)
    | national s => exact fun e => hq.1 (by injection e)
    | whitespace s => trivial
    | comment s => simp [notComment] at ht
    | sym k s => exact fun x z _ hz => by cases hz; exact hg x
  · subst h
    exact fun x y hs _ => by cases hs; simp [gluing]
  · obtain ⟨h1, rfl⟩ := h
    cases t <;> simp [isWordTok] at h1
    rename_i w
    obtain ⟨v, q, k⟩ := w
    cases q with
    | none => exact ⟨fun z hz => by cases hz; exact part '.' (by decide), fun _ e => by cases e⟩
    | some q => trivial

theorem Spaced.separated {d : Dialect} (hd : BuiltIn d) {ts : List Tok} (h : Spaced d ts) : Separated d ts := by
  induction ts with
  | nil => trivial
  | cons t ts ih =>
    have ht := h.spells t (by simp)
    cases ts with
    | nil =>
      refine ⟨ht.1, ?_, trivial⟩
      have hc := ht.2
      cases t with
      | word w =>
        obtain ⟨v, q, k⟩ := w
        cases q with
        | none => exact ⟨fun z hz => by simp at hz, fun _ e => by simp at e⟩
        | some q => trivial
      | number s => exact fun z hz => by simp at hz
      | char c => trivial
      | single s => simp [Ends]
      | national s => simp [Ends]
      | whitespace s => trivial
      | comment s => simp [notComment] at hc
      | sym k s => exact fun x z _ hz => by simp at hz
    | cons u ts =>
      have hu := h.spells u (by simp)
      have ha := h.adjs
      simp only [Verif.adjs, Bool.and_eq_true] at ha
      refine ⟨ht.1, ?_, ih ⟨fun x hx => h.spells x (by simp [hx]), ha.2⟩⟩
      have he := ends_adj hd ht.2 hu.1 ha.1
      rw [List.flatMap_cons]
      cases e : spell u with
      | nil => exact absurd e (Separated_nonempty hu.1)
      | cons c w => rw [e] at he; exact he


/-! ### The tokens of trees -/

/-- Splits a token list at its breaks. -/
macro "spc" : tactic => `(tactic| repeat' first
  | assumption
  | exact Spaced.nil
  | apply Spaced.sp
  | apply Spaced.lpar
  | apply Spaced.rpar
  | apply Spaced.comma
  | apply Spaced.semi
  | apply Spaced.kT (by assumption)
  | apply Spaced.klT (by assumption)
  | apply Spaced.num
  | (apply Spaced.ident (by assumption))
  | (apply Spaced.sym _ _ (by decide))
  | apply Spaced.append
  | rfl
  | apply startsB_append)

variable {d : Dialect} {fns : FloatFns}

theorem Spaced.idents {is : List Ident} (h : (is.all fun i => identOK d i.value) = true) : Spaced d (identsT is) := by
  induction is with
  | nil => exact .nil
  | cons i is ih =>
    simp only [List.all_cons, Bool.and_eq_true] at h
    have h1 := h.1
    have h2 := ih h.2
    cases is with
    | nil => simp only [identsT, sepT]; spc
    | cons j is => simp only [identsT, sepT] at h2 ⊢; spc

theorem Spaced.identsOK {is : List Ident} (h : identsOK d is = true) : Spaced d (identsT is) := by
  simp only [Verif.identsOK, Bool.and_eq_true] at h
  exact .idents h.2

theorem spells_dot : Spells d dot (spell dot) := .sym .Period ['.'] (by decide)

/-- A list that is empty or starts with a period. -/
def startsDot : List Tok → Bool
  | [] => true
  | t :: _ => t == dot

theorem dotTail_starts (is : List Ident) (us : List Tok) (h : startsDot us = true ∨ startsB us = true) :
    startsDot (dotTail is ++ us) = true ∨ startsB (dotTail is ++ us) = true := by
  cases is with
  | nil => exact h
  | cons i is => exact .inl rfl

theorem Spaced.word {v : Str} (hv : identOK d v = true) {us : List Tok} (h : Spaced d us)
    (hs : startsDot us = true ∨ startsB us = true) : Spaced d (identTok v :: us) := by
  refine ⟨fun t ht => ?_, ?_⟩
  · rcases List.mem_cons.1 ht with h' | h'
    · subst h'; exact ⟨spells_ident hv, (notComment_ident v).1⟩
    · exact h.spells t h'
  · cases us with
    | nil => rfl
    | cons u us =>
      simp only [Verif.adjs, Bool.and_eq_true]
      refine ⟨?_, h.adjs⟩
      simp only [startsB, startsDot] at hs
      rcases hs with hs | hs <;> simp [adj, hs, (notComment_ident v).2]

theorem Spaced.dot {us : List Tok} (h : Spaced d us) : Spaced d (dot :: us) := by
  refine ⟨fun t ht => ?_, ?_⟩
  · rcases List.mem_cons.1 ht with h' | h'
    · subst h'; exact ⟨spells_dot, rfl⟩
    · exact h.spells t h'
  · cases us with
    | nil => rfl
    | cons u us =>
      simp only [Verif.adjs, Bool.and_eq_true]
      exact ⟨by simp [adj], h.adjs⟩

theorem Spaced.dotTail {is : List Ident} (h : (is.all fun i => identOK d i.value) = true) {us : List Tok}
    (hu : Spaced d us) (hs : startsDot us = true ∨ startsB us = true) : Spaced d (dotTail is ++ us) := by
  induction is with
  | nil => exact hu
  | cons i is ih =>
    simp only [List.all_cons, Bool.and_eq_true] at h
    exact Spaced.dot (Spaced.word h.1 (ih h.2) (dotTail_starts is us hs))

theorem Spaced.dotted' {is : List Ident} (h : Verif.identsOK d is = true) {us : List Tok}
    (hu : Spaced d us) (hs : startsDot us = true ∨ startsB us = true) : Spaced d (dottedT is ++ us) := by
  simp only [Verif.identsOK, Bool.and_eq_true] at h
  cases is with
  | nil => simp at h
  | cons i is =>
    have h2 := h.2
    simp only [List.all_cons, Bool.and_eq_true] at h2
    exact Spaced.word h2.1 (Spaced.dotTail h2.2 hu hs) (dotTail_starts is us hs)

theorem Spaced.dotted {is : List Ident} (h : Verif.identsOK d is = true) : Spaced d (dottedT is) := by
  have := Spaced.dotted' h (us := []) .nil (.inl rfl)
  simpa using this

theorem ObjectName.spaced {o : ObjectName} (h : o.wf d = true) : Spaced d o.toks := Spaced.dotted h

theorem Spaced.star {us : List Tok} (h : Spaced d us) (hs : startsB us = true) : Spaced d (star :: us) :=
  Spaced.sym .Mult ['*'] (by decide) h hs

theorem Spaced.dottedStar {is : List Ident} (h : Verif.identsOK d is = true) :
    Spaced d (dottedT is ++ [Verif.dot, Verif.star]) :=
  Spaced.dotted' h (Spaced.dot (Spaced.star .nil rfl)) (.inl rfl)

theorem Spaced.size (o : Option Nat) : Spaced d (sizeT o) := by
  cases o <;> simp only [sizeT] <;> spc

theorem startsB_size (o : Option Nat) : startsB (sizeT o) = true := by cases o <;> rfl

theorem Spaced.unsigned (hd : BuiltIn d) (b : Bool) : Spaced d (unsignedT b) := by
  cases b
  · exact .nil
  · exact Spaced.sp (Spaced.klT hd _ .nil rfl)

theorem startsB_unsigned (b : Bool) : startsB (unsignedT b) = true := by cases b <;> rfl

theorem DataType.spaced (hd : BuiltIn d) {t : DataType} (h : t.wf d = true) : Spaced d t.toks := by
  cases t with
  | custom ty => simp only [DataType.wf, Bool.and_eq_true] at h; exact ObjectName.spaced h.1
  | array ty r =>
    cases ty <;> simp [DataType.wf] at h
    exact Spaced.klT hd _ (Spaced.brk rfl (.sym .LBracket ['['] (by decide))
      (Spaced.brk rfl (.sym .RBracket [']'] (by decide)) .nil)) rfl
  | decimal p s a b u c =>
    have hu := Spaced.unsigned hd u
    have hu' := startsB_unsigned u
    cases p with
    | none => simp [DataType.wf] at h
    | some p => cases s <;> simp only [DataType.toks, List.cons_append, List.nil_append] <;> spc
  | char s => have h1 := Spaced.size (d := d) s; have h2 := startsB_size s; simp only [DataType.toks]; spc
  | varchar s => have h1 := Spaced.size (d := d) s; have h2 := startsB_size s; simp only [DataType.toks]; spc
  | float s a b c u =>
    have h1 := Spaced.size (d := d) s
    have h2 := startsB_size s
    have hu := Spaced.unsigned hd u
    have hu' := startsB_unsigned u
    simp only [DataType.toks]; spc
  | smallInt a b u => have hu := Spaced.unsigned hd u; have hu' := startsB_unsigned u; simp only [DataType.toks]; spc
  | int a b u => have hu := Spaced.unsigned hd u; have hu' := startsB_unsigned u; simp only [DataType.toks]; spc
  | bigInt a b u => have hu := Spaced.unsigned hd u; have hu' := startsB_unsigned u; simp only [DataType.toks]; spc
  | real a b u => have hu := Spaced.unsigned hd u; have hu' := startsB_unsigned u; simp only [DataType.toks]; spc
  | timestamp tz a b => cases tz <;> simp only [DataType.toks, Bool.false_eq_true, if_true, if_false] <;> spc
  | clob a b c => exact .nil
  | binary a b c => exact .nil
  | varbinary a b c => exact .nil
  | blob a b c => exact .nil
  | _ => simp only [DataType.toks]; spc

theorem FrameBound.spaced (hd : BuiltIn d) (b : FrameBound) : Spaced d b.toks := by
  cases b <;> simp only [FrameBound.toks] <;> spc

theorem WindowFrame.spaced (hd : BuiltIn d) (f : WindowFrame) : Spaced d f.toks := by
  obtain ⟨u, s, e⟩ := f
  have h1 := FrameBound.spaced hd s
  cases e with
  | none => simp only [WindowFrame.toks]; spc
  | some e => have h2 := FrameBound.spaced hd e; simp only [WindowFrame.toks]; spc

theorem LimitExpr.spaced (hd : BuiltIn d) (l : LimitExpr) : Spaced d l.toks := by
  obtain ⟨c, a, b, o⟩ := l
  cases c <;> cases o <;> simp only [LimitExpr.toks, List.cons_append, List.nil_append] <;> spc

theorem Spaced.alias (hd : BuiltIn d) {a : Option Ident} (h : optIdentOK d a = true) : Spaced d (aliasT a) := by
  cases a with
  | none => exact .nil
  | some a => simp only [optIdentOK] at h; simp only [aliasT]; spc

theorem startsB_alias (a : Option Ident) : startsB (aliasT a) = true := by cases a <;> rfl

theorem Spaced.not (hd : BuiltIn d) (b : Bool) {us : List Tok} (h : Spaced d us) : Spaced d (notT b ++ us) := by
  cases b
  · exact h
  · simp only [notT, if_true, List.cons_append, List.nil_append]; spc

theorem Spaced.sep {α : Type} (xs : List α) {us : List Tok} (h : Spaced d us) : Spaced d (sepT xs ++ us) := by
  cases xs
  · exact h
  · simp only [sepT, List.cons_append, List.nil_append]; spc

theorem startsB_sep {α : Type} (xs : List α) {us : List Tok} (h : xs = [] → us = []) :
    startsB (sepT xs ++ us) = true := by
  cases xs
  · rw [h rfl]; rfl
  · rfl

mutual

theorem Expr.spaced (hd : BuiltIn d) : (e : Expr) → e.wf d fns = true → Spaced d (e.toks fns)
  | .ident i, h => by
    simp only [Expr.wf] at h
    simp only [Expr.toks]; spc
  | .wildcard _, _ => by simp only [Expr.toks]; exact Spaced.star .nil rfl
  | .qualifiedWildcard is, h => by
    simp only [Expr.wf] at h
    simp only [Expr.toks]; exact Spaced.dottedStar h
  | .compoundIdent is, h => by
    simp only [Expr.wf, Bool.and_eq_true] at h
    simp only [Expr.toks]; exact Spaced.dotted h.1
  | .isNull x, h => by
    simp only [Expr.wf, Bool.and_eq_true] at h
    have h1 := Expr.spaced hd x h.1
    simp only [Expr.toks]; spc
  | .isNotNull x, h => by
    simp only [Expr.wf, Bool.and_eq_true] at h
    have h1 := Expr.spaced hd x h.1
    simp only [Expr.toks]; spc
  | .inList x l neg _, h => by
    simp only [Expr.wf, Bool.and_eq_true] at h
    have h1 := Expr.spaced hd x h.1.1.1
    have h2 := Expr.spacedL hd l h.2
    simp only [Expr.toks]
    refine .append h1 (.sp (.not hd neg ?_)) rfl
    spc
  | .inSubQuery x q neg _, h => by
    simp only [Expr.wf, Bool.and_eq_true] at h
    have h1 := Expr.spaced hd x h.1.1.1
    have h2 := QueryStmt.spaced hd q h.1.2
    simp only [Expr.toks]
    refine .append h1 (.sp (.not hd neg ?_)) rfl
    spc
  | .between x neg low high, h => by
    simp only [Expr.wf, Bool.and_eq_true] at h
    have h1 := Expr.spaced hd x h.1.1.1.1.1.1
    have h2 := Expr.spaced hd low h.1.1.1.1.2
    have h3 := Expr.spaced hd high h.1.2
    simp only [Expr.toks]
    refine .append h1 (.sp (.not hd neg ?_)) rfl
    spc
  | .binary l ⟨op, _, _⟩ r, h => by
    simp only [Expr.wf, Bool.and_eq_true] at h
    have h1 := Expr.spaced hd l h.1.1.1.1
    have h2 := Expr.spaced hd r h.1.1.1.2
    simp only [Expr.toks]
    cases op <;> simp only [OpType.toks, List.cons_append, List.nil_append, star, eqT] <;> spc
  | .cast e ty _ _, h => by
    simp only [Expr.wf, Bool.and_eq_true] at h
    have h1 := Expr.spaced hd e h.1
    have h2 := DataType.spaced hd h.2
    simp only [Expr.toks]; spc
  | .nested e _ _, h => by
    simp only [Expr.wf] at h
    have h1 := Expr.spaced hd e h
    simp only [Expr.toks]; spc
  | .unary _ ⟨op, _, _⟩ e, h => by
    simp only [Expr.wf, Bool.and_eq_true] at h
    have h1 := Expr.spaced hd e h.1
    simp only [Expr.toks]
    cases op <;> simp only [OpType.toks, List.cons_append, List.nil_append, star, eqT] <;> spc
  | .function name args _ over _, h => by
    simp only [Expr.wf, Bool.and_eq_true] at h
    have h1 := ObjectName.spaced h.1.1
    have h2 := Expr.spacedL hd args h.1.2
    have h3 := WindowSpec.spacedO hd over h.2
    have h4 : startsB (WindowSpec.toksO fns over) = true := by cases over <;> simp only [WindowSpec.toksO] <;> rfl
    simp only [Expr.toks]; spc
  | .caseExpr _ _ operand conds results else_, h => by
    simp only [Expr.wf, Bool.and_eq_true, beq_iff_eq] at h
    have h1 := Expr.spacedO hd (pre := [sp]) (fun x => by spc) operand h.1.1.1.1.1
    have h2 := Expr.spacedW hd conds (Expr.toksS fns results) (Expr.spacedS hd results h.1.2) h.1.1.2
    have h3 := Expr.spacedO hd (pre := [sp, kT .ELSE, sp])
      (fun x => by simp only [List.cons_append, List.nil_append]; spc) else_ h.2
    have h4 : startsB (Expr.toksO fns [sp] operand) = true := by
      cases operand <;> simp only [Expr.toksO] <;> rfl
    have h5 : startsB (Expr.toksO fns [sp, kT .ELSE, sp] else_) = true := by
      cases else_ <;> simp only [Expr.toksO] <;> rfl
    have h6 : startsB (Expr.toksW fns conds (Expr.toksS fns results)) = true := by
      cases conds <;> cases results <;> simp only [Expr.toksW, Expr.toksS] <;> rfl
    simp only [Expr.toks]; spc
  | .exists_ neg q _ _ _, h => by
    simp only [Expr.wf] at h
    have h2 := QueryStmt.spaced hd q h
    simp only [Expr.toks]
    refine .not hd neg ?_
    spc
  | .subQuery _ _ q, h => by
    simp only [Expr.wf, Bool.and_eq_true] at h
    have h2 := QueryStmt.spaced hd q h.1
    simp only [Expr.toks]; spc
  | .long v, h => by simp only [Expr.toks]; spc
  | .double _ _ v, h => by
    simp only [Expr.wf] at h
    simp only [Expr.toks]; exact Spaced.cons (spells_float h) rfl .nil (.inr rfl)
  | .singleQuoted _ _ s, h => by simp only [Expr.toks]; exact Spaced.cons (.single s) rfl .nil (.inr rfl)
  | .national _ _ s, h => by simp only [Expr.toks]; exact Spaced.cons (.national s) rfl .nil (.inr rfl)
  | .boolean _ _ b, _ => by simp only [Expr.toks]; spc
  | .null _ _, _ => by simp only [Expr.toks]; spc
  | .timeValue _ _ _ _, h => by simp [Expr.wf] at h

theorem Expr.spacedO (hd : BuiltIn d) {pre : List Tok} (hp : ∀ {us}, Spaced d us → Spaced d (pre ++ us)) :
    (e : Option Expr) → Expr.wfO d fns e = true → Spaced d (Expr.toksO fns pre e)
  | none, _ => by simp only [Expr.toksO]; exact .nil
  | some e, h => by
    simp only [Expr.wfO] at h
    simp only [Expr.toksO]
    exact hp (Expr.spaced hd e h)

theorem Expr.spacedL (hd : BuiltIn d) : (es : List Expr) → Expr.wfs d fns es = true → Spaced d (Expr.toksL fns es)
  | [], _ => by simp only [Expr.toksL]; exact .nil
  | e :: es, h => by
    simp only [Expr.wfs, Bool.and_eq_true] at h
    have h1 := Expr.spaced hd e h.1
    have h2 := Expr.spacedL hd es h.2
    simp only [Expr.toksL]
    exact .append h1 (.sep es h2) (startsB_sep es (by rintro rfl; rw [Expr.toksL]))

theorem Expr.spacedS (hd : BuiltIn d) : (es : List Expr) → Expr.wfs d fns es = true →
    ∀ ts ∈ Expr.toksS fns es, Spaced d ts
  | [], _ => by simp [Expr.toksS]
  | e :: es, h => by
    simp only [Expr.wfs, Bool.and_eq_true] at h
    have h1 := Expr.spaced hd e h.1
    have h2 := Expr.spacedS hd es h.2
    simp only [Expr.toksS, List.mem_cons, forall_eq_or_imp]
    exact ⟨h1, h2⟩

theorem Expr.spacedW (hd : BuiltIn d) : (cs : List Expr) → (rs : List (List Tok)) → (∀ ts ∈ rs, Spaced d ts) →
    Expr.wfs d fns cs = true → Spaced d (Expr.toksW fns cs rs)
  | [], _, _, _ => by simp only [Expr.toksW]; exact .nil
  | _ :: _, [], _, _ => by simp only [Expr.toksW]; exact .nil
  | c :: cs, r :: rs, hr, h => by
    simp only [Expr.wfs, Bool.and_eq_true] at h
    simp only [List.mem_cons, forall_eq_or_imp] at hr
    have h1 := Expr.spaced hd c h.1
    have h2 := Expr.spacedW hd cs rs hr.2 h.2
    have h3 := hr.1
    have h6 : startsB (Expr.toksW fns cs rs) = true := by
      cases cs <;> cases rs <;> simp only [Expr.toksW] <;> rfl
    simp only [Expr.toksW]; spc

theorem WindowSpec.spacedO (hd : BuiltIn d) : (w : Option WindowSpec) → WindowSpec.wfO d fns w = true →
    Spaced d (WindowSpec.toksO fns w)
  | none, _ => by simp only [WindowSpec.toksO]; exact .nil
  | some w, h => by
    simp only [WindowSpec.wfO] at h
    have h1 := WindowSpec.spaced hd w h
    simp only [WindowSpec.toksO]; spc

theorem WindowSpec.spaced (hd : BuiltIn d) : (w : WindowSpec) → w.wf d fns = true → Spaced d (w.toks fns)
  | .mk ps os frame _ _, h => by
    simp only [WindowSpec.wf, Bool.and_eq_true] at h
    have h1 := Expr.spacedL hd ps h.1.1
    have h2 := OrderByExpr.spacedL hd os h.1.2
    have hf : ∀ f : WindowFrame, Spaced d f.toks := WindowFrame.spaced hd
    cases hp : ps.isEmpty <;> cases ho : os.isEmpty <;> cases frame <;>
      simp only [WindowSpec.toks, hp, ho, Bool.false_eq_true, if_true, if_false, List.nil_append, List.append_nil,
        List.cons_append, Bool.and_true, Bool.and_false] <;> first | (have hf := hf ‹_›; spc; done) | spc

theorem OrderByExpr.spaced (hd : BuiltIn d) : (o : OrderByExpr) → o.wf d fns = true → Spaced d (o.toks fns)
  | .mk e _ asc, h => by
    simp only [OrderByExpr.wf] at h
    have h1 := Expr.spaced hd e h
    cases asc with
    | none => simp only [OrderByExpr.toks]; spc
    | some b => cases b <;> simp only [OrderByExpr.toks] <;> spc

theorem OrderByExpr.spacedL (hd : BuiltIn d) : (es : List OrderByExpr) → OrderByExpr.wfs d fns es = true →
    Spaced d (OrderByExpr.toksL fns es)
  | [], _ => by simp only [OrderByExpr.toksL]; exact .nil
  | e :: es, h => by
    simp only [OrderByExpr.wfs, Bool.and_eq_true] at h
    have h1 := OrderByExpr.spaced hd e h.1
    have h2 := OrderByExpr.spacedL hd es h.2
    simp only [OrderByExpr.toksL]
    exact .append h1 (.sep es h2) (startsB_sep es (by rintro rfl; rw [OrderByExpr.toksL]))

theorem QueryStmt.spaced (hd : BuiltIn d) : (q : QueryStmt) → q.wf d fns = true → Spaced d (q.toks fns)
  | .mk _ ctes body os limit, h => by
    simp only [QueryStmt.wf, Bool.and_eq_true] at h
    have h1 := CTE.spacedL hd ctes h.1.1.1
    have h2 := SetExpr.spaced hd body h.1.1.2
    have h3 := OrderByExpr.spacedL hd os h.1.2
    have hf : ∀ f : LimitExpr, Spaced d f.toks := LimitExpr.spaced hd
    cases hp : ctes.isEmpty <;> cases ho : os.isEmpty <;> cases limit <;>
      simp only [QueryStmt.toks, hp, ho, Bool.false_eq_true, if_true, if_false, List.nil_append, List.append_nil,
        List.cons_append, List.append_assoc] <;> first | (have hf := hf ‹_›; spc; done) | spc

theorem CTE.spaced (hd : BuiltIn d) : (c : CTE) → c.wf d fns = true → Spaced d (c.toks fns)
  | .mk alias q _, h => by
    simp only [CTE.wf, Bool.and_eq_true] at h
    have h0 := h.1
    have h1 := QueryStmt.spaced hd q h.2
    simp only [CTE.toks]; spc

theorem CTE.spacedL (hd : BuiltIn d) : (es : List CTE) → CTE.wfs d fns es = true → Spaced d (CTE.toksL fns es)
  | [], _ => by simp only [CTE.toksL]; exact .nil
  | e :: es, h => by
    simp only [CTE.wfs, Bool.and_eq_true] at h
    have h1 := CTE.spaced hd e h.1
    have h2 := CTE.spacedL hd es h.2
    simp only [CTE.toksL]
    exact .append h1 (.sep es h2) (startsB_sep es (by rintro rfl; rw [CTE.toksL]))

theorem SetExpr.spaced (hd : BuiltIn d) : (s : SetExpr) → s.wf d fns = true → Spaced d (s.toks fns)
  | .selectExpr _, h => by simp [SetExpr.wf] at h
  | .select s, h => by
    simp only [SetExpr.wf] at h
    simp only [SetExpr.toks]; exact SQLSelect.spaced hd s h
  | .query _ _ q, h => by
    simp only [SetExpr.wf] at h
    have h1 := QueryStmt.spaced hd q h
    simp only [SetExpr.toks]; spc
  | .setOp op all l r, h => by
    simp only [SetExpr.wf, Bool.and_eq_true] at h
    have h1 := SetExpr.spaced hd l h.1.1.1
    have h2 := SetExpr.spaced hd r h.1.1.2
    cases all <;> simp only [SetExpr.toks, Bool.false_eq_true, if_true, if_false, List.nil_append, List.cons_append] <;> spc

theorem SQLSelect.spaced (hd : BuiltIn d) : (s : SQLSelect) → s.wf d fns = true → Spaced d (s.toks fns)
  | .mk distinct projection from_ where_ groupBy having _, h => by
    simp only [SQLSelect.wf, Bool.and_eq_true] at h
    have h1 := SelectItem.spacedL hd projection h.1.1.1.1.1.2
    have h2 := TableRef.spacedL hd from_ h.1.1.1.1.2
    have h3 := Expr.spacedO hd (pre := [sp, kT .WHERE, sp])
      (fun x => by simp only [List.cons_append, List.nil_append]; spc) where_ h.1.1.1.2
    have h4 := Expr.spacedL hd groupBy h.1.1.2
    have h5 := Expr.spacedO hd (pre := [sp, kT .HAVING, sp])
      (fun x => by simp only [List.cons_append, List.nil_append]; spc) having h.1.2
    have h6 : startsB (Expr.toksO fns [sp, kT .WHERE, sp] where_) = true := by
      cases where_ <;> simp only [Expr.toksO] <;> rfl
    have h7 : startsB (Expr.toksO fns [sp, kT .HAVING, sp] having) = true := by
      cases having <;> simp only [Expr.toksO] <;> rfl
    cases distinct <;> cases hf : from_.isEmpty <;> cases hg : groupBy.isEmpty <;>
      simp only [SQLSelect.toks, hf, hg, Bool.false_eq_true, if_true, if_false, List.nil_append, List.cons_append] <;> spc

theorem SelectItem.spaced (hd : BuiltIn d) : (s : SelectItem) → s.wf d fns = true → Spaced d (s.toks fns)
  | .unnamed e, h => by
    simp only [SelectItem.wf, Bool.and_eq_true] at h
    simp only [SelectItem.toks]; exact Expr.spaced hd e h.1
  | .alias e a, h => by
    simp only [SelectItem.wf, Bool.and_eq_true] at h
    have h1 := Expr.spaced hd e h.1.1
    have h2 := h.1.2
    simp only [SelectItem.toks]; spc
  | .qualifiedWildcard p, h => by
    simp only [SelectItem.wf] at h
    simp only [SelectItem.toks]; exact Spaced.dottedStar h
  | .wildcard _ _, h => by simp [SelectItem.wf] at h

theorem SelectItem.spacedL (hd : BuiltIn d) : (es : List SelectItem) → SelectItem.wfs d fns es = true →
    Spaced d (SelectItem.toksL fns es)
  | [], _ => by simp only [SelectItem.toksL]; exact .nil
  | e :: es, h => by
    simp only [SelectItem.wfs, Bool.and_eq_true] at h
    have h1 := SelectItem.spaced hd e h.1
    have h2 := SelectItem.spacedL hd es h.2
    simp only [SelectItem.toksL]
    exact .append h1 (.sep es h2) (startsB_sep es (by rintro rfl; rw [SelectItem.toksL]))

theorem TableFactor.spaced (hd : BuiltIn d) : (t : TableFactor) → t.wf d fns = true → Spaced d (t.toks fns)
  | .table name alias args _ hints _, h => by
    simp only [TableFactor.wf, Bool.and_eq_true, List.isEmpty_iff] at h
    obtain ⟨⟨⟨hn, ha⟩, rfl⟩, hh⟩ := h
    have h1 := ObjectName.spaced hn
    have h2 := Spaced.alias hd ha
    have h3 := startsB_alias alias
    have h4 := Expr.spacedL hd hints hh
    cases hg : hints.isEmpty <;>
      simp only [TableFactor.toks, hg, Bool.false_eq_true, if_true, if_false, List.nil_append, List.cons_append,
        List.isEmpty_nil] <;> spc
  | .derived lateral _ _ _ q alias, h => by
    simp only [TableFactor.wf, Bool.and_eq_true] at h
    have h1 := QueryStmt.spaced hd q h.1
    have h2 := Spaced.alias hd h.2
    have h3 := startsB_alias alias
    cases lateral <;>
      simp only [TableFactor.toks, Bool.false_eq_true, if_true, if_false, List.nil_append, List.cons_append] <;> spc

theorem TableRef.spaced (hd : BuiltIn d) : (t : TableRef) → t.wf d fns = true → Spaced d (t.toks fns)
  | .factor f, h => by
    simp only [TableRef.wf] at h
    simp only [TableRef.toks]; exact TableFactor.spaced hd f h
  | .cross l f, h => by
    simp only [TableRef.wf, Bool.and_eq_true] at h
    have h1 := TableRef.spaced hd l h.1.1
    have h2 := TableFactor.spaced hd f h.2
    simp only [TableRef.toks]; spc
  | .partitioned _ _ _, h => by simp [TableRef.wf] at h
  | .qualified l ⟨c, _, _⟩ r spec, h => by
    simp only [TableRef.wf, Bool.and_eq_true] at h
    have h1 := TableRef.spaced hd l h.1.1.1
    have h2 := TableRef.spaced hd r h.1.2
    have h3 := JoinSpec.spaced hd spec h.2
    cases c <;> simp only [TableRef.toks, JoinCond.toks, List.nil_append, List.cons_append] <;> spc
  | .natural l ⟨c, _, _⟩ r, h => by
    simp only [TableRef.wf, Bool.and_eq_true] at h
    have h1 := TableRef.spaced hd l h.1.1
    have h2 := TableRef.spaced hd r h.2
    cases c <;> simp only [TableRef.toks, JoinCond.toks, List.nil_append, List.cons_append] <;> spc

theorem TableRef.spacedL (hd : BuiltIn d) : (es : List TableRef) → TableRef.wfs d fns es = true →
    Spaced d (TableRef.toksL fns es)
  | [], _ => by simp only [TableRef.toksL]; exact .nil
  | e :: es, h => by
    simp only [TableRef.wfs, Bool.and_eq_true] at h
    have h1 := TableRef.spaced hd e h.1
    have h2 := TableRef.spacedL hd es h.2
    simp only [TableRef.toksL]
    exact .append h1 (.sep es h2) (startsB_sep es (by rintro rfl; rw [TableRef.toksL]))

theorem JoinSpec.spaced (hd : BuiltIn d) : (s : JoinSpec) → s.wf d fns = true → Spaced d (s.toks fns)
  | .namedColumns cols _ _, h => by
    simp only [JoinSpec.wf] at h
    have h1 := Spaced.identsOK h
    simp only [JoinSpec.toks]; spc
  | .condition e _, h => by
    simp only [JoinSpec.wf] at h
    have h1 := Expr.spaced hd e h
    simp only [JoinSpec.toks]; spc

end


theorem Spaced.list {α : Type} {tl : List α → List Tok} {tk : α → List Tok} {ok : α → Bool}
    (hnil : tl [] = []) (hcons : ∀ x xs, tl (x :: xs) = tk x ++ (sepT xs ++ tl xs))
    (h1 : ∀ x, ok x = true → Spaced d (tk x)) {xs : List α} (h : xs.all ok = true) : Spaced d (tl xs) := by
  induction xs with
  | nil => rw [hnil]; exact .nil
  | cons x xs ih =>
    simp only [List.all_cons, Bool.and_eq_true] at h
    rw [hcons]
    exact .append (h1 x h.1) (.sep xs (ih h.2)) (startsB_sep xs (by rintro rfl; exact hnil))

theorem RowValueExpr.spaced (hd : BuiltIn d) {r : RowValueExpr} (h : r.wf d fns = true) : Spaced d (r.toks fns) := by
  simp only [RowValueExpr.wf, Bool.and_eq_true] at h
  have h1 := Expr.spacedL hd r.values h.2
  simp only [RowValueExpr.toks]; spc

theorem InsertSource.spaced (hd : BuiltIn d) {s : InsertSource} (h : s.wf d fns = true) : Spaced d (s.toks fns) := by
  cases s with
  | subQuery q => exact QueryStmt.spaced hd q h
  | constructor p rows =>
    simp only [InsertSource.wf, Bool.and_eq_true] at h
    have := Spaced.list (tl := rowsT fns) (tk := RowValueExpr.toks fns) rfl (fun _ _ => rfl)
      (fun _ hx => RowValueExpr.spaced (d := d) (fns := fns) hd hx) h.2
    simp only [InsertSource.toks]; spc

theorem Assignment.spaced (hd : BuiltIn d) {a : Assignment} (h : a.wf d fns = true) : Spaced d (a.toks fns) := by
  simp only [Assignment.wf, Bool.and_eq_true] at h
  have h0 := h.1
  have h1 := Expr.spaced hd a.value h.2
  simp only [Assignment.toks, eqT]; spc

theorem assignments_spaced (hd : BuiltIn d) {as : List Assignment} (h : as.all (Assignment.wf d fns) = true) :
    Spaced d (assignmentsT fns as) :=
  Spaced.list rfl (fun _ _ => rfl) (fun _ hx => Assignment.spaced (d := d) (fns := fns) hd hx) h

theorem Spaced.cols {cols : List Ident} (h : Verif.identsOK d cols = true) : Spaced d (colsT cols) := by
  have h1 := Spaced.identsOK h
  simp only [colsT]; spc

theorem startsB_cols (cols : List Ident) : startsB (colsT cols) = true := rfl

attribute [local irreducible] colsT

theorem TableConstraintSpec.spaced (hd : BuiltIn d) {s : TableConstraintSpec} (h : s.wf d fns = true) :
    Spaced d (s.toks fns) := by
  cases s with
  | unique p a b c cols =>
    have h1 := Spaced.cols h
    have h5 := startsB_cols cols
    cases p <;> simp only [TableConstraintSpec.toks, Bool.false_eq_true, if_true, if_false, List.nil_append,
      List.cons_append] <;> spc
  | referential p cols key =>
    simp only [TableConstraintSpec.wf, Bool.and_eq_true] at h
    have h1 := Spaced.cols h.1.1
    have h2 := Spaced.cols h.2
    have h3 := h.1.2
    have h5 := startsB_cols cols
    have h6 := startsB_cols key.columns
    simp only [TableConstraintSpec.toks]; spc
  | check a b e =>
    have h1 := Expr.spaced hd e h
    simp only [TableConstraintSpec.toks]; spc

theorem Spaced.constraintName (hd : BuiltIn d) {n : Option Ident} (h : optIdentOK d n = true) {us : List Tok}
    (hu : Spaced d us) : Spaced d (constraintNameT n ++ us) := by
  cases n with
  | none => exact hu
  | some n =>
    simp only [optIdentOK] at h
    simp only [constraintNameT, List.nil_append, List.cons_append]; spc

theorem TableConstraint.spaced (hd : BuiltIn d) {s : TableConstraint} (h : s.wf d fns = true) :
    Spaced d (s.toks fns) := by
  simp only [TableConstraint.wf, Bool.and_eq_true] at h
  exact Spaced.constraintName hd h.1 (TableConstraintSpec.spaced hd h.2)

theorem ColumnSpec.spaced (hd : BuiltIn d) {s : ColumnSpec} (h : s.wf d fns = true) : Spaced d (s.toks fns) := by
  cases s with
  | notNull => simp only [ColumnSpec.toks]; spc
  | unique p a b c =>
    cases p <;> simp only [ColumnSpec.toks, Bool.false_eq_true, if_true, if_false] <;> spc
  | references a b name cols =>
    simp only [ColumnSpec.wf, Bool.and_eq_true] at h
    have h1 := Spaced.cols h.2
    have h2 := ObjectName.spaced h.1
    have h5 := startsB_cols cols
    simp only [ColumnSpec.toks]; spc
  | check e a b =>
    have h1 := Expr.spaced hd e h
    simp only [ColumnSpec.toks]; spc

theorem startsB_columnConstraints (cs : List ColumnConstraint) : startsB (columnConstraintsT fns cs) = true := by
  cases cs <;> rfl

theorem columnConstraints_spaced (hd : BuiltIn d) {cs : List ColumnConstraint}
    (h : cs.all (ColumnConstraint.wf d fns) = true) : Spaced d (columnConstraintsT fns cs) := by
  induction cs with
  | nil => exact .nil
  | cons c cs ih =>
    simp only [List.all_cons, Bool.and_eq_true, ColumnConstraint.wf] at h
    have h1 := ih h.2
    have h2 := startsB_columnConstraints (fns := fns) cs
    exact .sp (.constraintName hd h.1.1 (.append (ColumnSpec.spaced hd h.1.2) h1 h2))

theorem decorations_spaced (hd : BuiltIn d) (ds : List AutoIncrement) :
    Spaced d (decorationsT ds) ∧ startsB (decorationsT ds) = true := by
  induction ds with
  | nil => exact ⟨.nil, rfl⟩
  | cons c cs ih => exact ⟨.sp (.kT hd _ ih.1 ih.2), rfl⟩

theorem ColumnDef.spaced (hd : BuiltIn d) {c : ColumnDef} (h : c.wf d fns = true) : Spaced d (c.toks fns) := by
  obtain ⟨name, ty, def_, decs, cons⟩ := c
  simp only [ColumnDef.wf, Bool.and_eq_true] at h
  have h0 := h.1.1.1
  have h1 := DataType.spaced hd h.1.1.2
  have h2 := columnConstraints_spaced hd h.1.2
  have h3 := startsB_columnConstraints (fns := fns) cons
  obtain ⟨h4, h5⟩ := decorations_spaced hd decs
  simp only [ColumnDef.toks]
  cases def_ with
  | none => simp only [Expr.toksO, List.nil_append]; spc
  | some e =>
    have hh := h.2
    simp only [Bool.and_eq_true] at hh
    have h6 := Expr.spaced hd e hh.1.1
    simp only [Expr.toksO, List.nil_append, List.cons_append]; spc

theorem TableElement.spaced (hd : BuiltIn d) {c : TableElement} (h : c.wf d fns = true) : Spaced d (c.toks fns) := by
  cases c with
  | constraint c => exact TableConstraint.spaced hd h
  | column c => exact ColumnDef.spaced hd h

theorem TableOption.spaced (hd : BuiltIn d) {c : TableOption} (h : c.wf d = true) : Spaced d c.toks := by
  cases c with
  | engine a e n =>
    simp only [TableOption.wf] at h
    cases e <;> simp only [TableOption.toks, Bool.false_eq_true, if_true, if_false, List.nil_append,
      List.cons_append, eqT] <;> spc
  | charset dflt a b e n =>
    simp only [TableOption.wf] at h
    cases e <;> cases dflt <;> simp only [TableOption.toks, Bool.false_eq_true, if_true, if_false, List.nil_append,
      List.cons_append, eqT] <;> spc

theorem AlterColumnAction.spaced (hd : BuiltIn d) {c : AlterColumnAction} (h : c.wf d fns = true) :
    Spaced d (c.toks fns) := by
  cases c with
  | setDefault p e =>
    simp only [AlterColumnAction.wf, Bool.and_eq_true] at h
    have h1 := Expr.spaced hd e h.1
    simp only [AlterColumnAction.toks]; spc
  | pgAlterDataType p ty =>
    have h1 := DataType.spaced hd h
    simp only [AlterColumnAction.toks]; spc
  | _ => simp only [AlterColumnAction.toks]; spc

theorem cascade_spaced (hd : BuiltIn d) (b : Bool) : Spaced d (cascadeT b) ∧ startsB (cascadeT b) = true := by
  cases b
  · exact ⟨.nil, rfl⟩
  · exact ⟨.sp (.kT hd _ .nil rfl), rfl⟩

theorem AlterTableAction.spaced (hd : BuiltIn d) {c : AlterTableAction} (h : c.wf d fns = true) :
    Spaced d (c.toks fns) := by
  cases c with
  | addColumn p c =>
    have h1 := ColumnDef.spaced hd h
    simp only [AlterTableAction.toks]; spc
  | alterColumn n p a =>
    simp only [AlterTableAction.wf, Bool.and_eq_true] at h
    have h0 := h.1
    have h1 := AlterColumnAction.spaced hd h.2
    simp only [AlterTableAction.toks]; spc
  | removeColumn n c a b =>
    simp only [AlterTableAction.wf] at h
    obtain ⟨h1, h2⟩ := cascade_spaced hd c
    simp only [AlterTableAction.toks]; spc
  | addConstraint p c =>
    have h1 := TableConstraint.spaced hd h
    simp only [AlterTableAction.toks]; spc
  | dropConstraint n a c b =>
    simp only [AlterTableAction.wf] at h
    obtain ⟨h1, h2⟩ := cascade_spaced hd c
    simp only [AlterTableAction.toks]; spc

theorem startsB_optE (k : KW) (e : Option Expr) : startsB (Expr.toksO fns [sp, kT k, sp] e) = true := by
  cases e <;> simp only [Expr.toksO] <;> rfl

theorem Spaced.optE (hd : BuiltIn d) (k : KW) {e : Option Expr} (h : Expr.wfO d fns e = true) :
    Spaced d (Expr.toksO fns [Verif.sp, Verif.kT k, Verif.sp] e) :=
  Expr.spacedO hd (fun x => by simp only [List.cons_append, List.nil_append]; spc) e h

theorem Stmt.spaced (hd : BuiltIn d) : (s : Stmt) → s.wf d fns = true → Spaced d (s.toks fns)
  | .query q, h => by
    simp only [Stmt.wf, Bool.and_eq_true] at h
    exact QueryStmt.spaced hd q h.1
  | .insert p name cols source assigns, h => by
    simp only [Stmt.wf, Bool.and_eq_true] at h
    have h1 := InsertSource.spaced hd h.1.1.2
    have h2 := assignments_spaced hd h.1.2
    have h3 := ObjectName.spaced h.1.1.1.1
    have h4 : cols.isEmpty = false → Spaced d (colsT cols) := fun e => Spaced.cols (by simpa [e] using h.1.1.1.2)
    have h5 := startsB_cols cols
    cases e1 : cols.isEmpty <;> cases e2 : assigns.isEmpty <;>
      simp only [Stmt.toks, e1, e2, Bool.false_eq_true, if_true, if_false, List.nil_append,
        List.cons_append, List.append_nil, List.append_assoc] <;> first | (have h4 := h4 e1; spc; done) | spc
  | .copy _ _ _ _, h => by simp [Stmt.wf] at h
  | .update p name assigns selection, h => by
    simp only [Stmt.wf, Bool.and_eq_true] at h
    have h1 := ObjectName.spaced h.1.1.1
    have h2 := assignments_spaced hd h.1.2
    have h3 := Spaced.optE hd .WHERE h.2
    have h4 := startsB_optE (fns := fns) .WHERE selection
    simp only [Stmt.toks]; spc
  | .delete p name selection, h => by
    simp only [Stmt.wf, Bool.and_eq_true] at h
    have h1 := ObjectName.spaced h.1
    have h3 := Spaced.optE hd .WHERE h.2
    have h4 := startsB_optE (fns := fns) .WHERE selection
    simp only [Stmt.toks]; spc
  | .createView p name q m, h => by
    simp only [Stmt.wf, Bool.and_eq_true] at h
    have h1 := ObjectName.spaced h.1.1
    have h2 := QueryStmt.spaced hd q h.1.2
    cases m <;> simp only [Stmt.toks, Bool.false_eq_true, if_true, if_false, List.nil_append,
        List.cons_append] <;> spc
  | .createTable p name elements ne options, h => by
    simp only [Stmt.wf, Bool.and_eq_true] at h
    have h0 := ObjectName.spaced h.1.1.1.1
    have h1 := Spaced.list (tl := elementsT fns) rfl (fun _ _ => rfl)
      (fun _ hx => TableElement.spaced (d := d) (fns := fns) hd hx) h.1.1.2
    have h2 := Spaced.list (tl := optionsT) rfl (fun _ _ => rfl)
      (fun _ hx => TableOption.spaced (d := d) hd hx) h.2
    cases ne <;> simp only [Stmt.toks, Bool.false_eq_true, if_true, if_false, List.nil_append,
        List.cons_append] <;> spc
  | .alterTable p name action, h => by
    simp only [Stmt.wf, Bool.and_eq_true] at h
    have h1 := ObjectName.spaced h.1
    have h2 := AlterTableAction.spaced hd h.2
    simp only [Stmt.toks]; spc
  | .dropTable names c a ie b, h => by
    simp only [Stmt.wf, Bool.and_eq_true] at h
    have h1 := Spaced.list (tl := Stmt.toks.namesT) rfl (fun _ _ => rfl)
      (fun _ hx => ObjectName.spaced (d := d) hx) h.2
    obtain ⟨h3, h2⟩ := cascade_spaced hd c
    cases ie <;> simp only [Stmt.toks, Bool.false_eq_true, if_true, if_false, List.nil_append,
        List.cons_append] <;> spc
  | .createIndex p name u iname mname cols a selection, h => by
    simp only [Stmt.wf, Bool.and_eq_true] at h
    have h0 := ObjectName.spaced h.1.1.1.1
    have hi : ∀ i, iname = some i → identOK d i.value = true := fun i e => by
      simpa [e, optIdentOK] using h.1.1.1.2
    have hm : ∀ i, mname = some i → identOK d i.value = true := fun i e => by
      simpa [e, optIdentOK] using h.1.1.2
    have h3 := Spaced.optE hd .WHERE h.2
    have h4 := startsB_optE (fns := fns) .WHERE selection
    have h5 := Spaced.cols h.1.2
    have h6 := startsB_cols cols
    cases iname with
    | none =>
      cases mname with
      | none => cases u <;> simp only [Stmt.toks, Bool.false_eq_true, if_true, if_false, List.nil_append,
          List.cons_append] <;> spc
      | some m => have hm := hm m rfl; cases u <;> simp only [Stmt.toks, Bool.false_eq_true, if_true, if_false,
          List.nil_append, List.cons_append] <;> spc
    | some i =>
      have hi := hi i rfl
      cases mname with
      | none => cases u <;> simp only [Stmt.toks, Bool.false_eq_true, if_true, if_false, List.nil_append,
          List.cons_append] <;> spc
      | some m => have hm := hm m rfl; cases u <;> simp only [Stmt.toks, Bool.false_eq_true, if_true, if_false,
          List.nil_append, List.cons_append] <;> spc
  | .dropIndex p names, h => by
    have h1 := Spaced.identsOK (d := d) (is := names) (by simpa [Stmt.wf] using h)
    simp only [Stmt.toks]; spc
  | .explain s p, h => by
    simp only [Stmt.wf] at h
    have h1 := Stmt.spaced hd s h
    simp only [Stmt.toks]; spc

end Verif
