import Verif.Proofs.Exec
import Verif.Proofs.Decimal
import Verif.Proofs.PrintSep
import Verif.Proofs.ParseAttr
/-
Symbolic execution of the parser on the tokens of printed trees: significant tokens at the zero position,
classified by what the parser can see of the next token.
-/
set_option linter.unusedSimpArgs false
namespace Verif

/-- A token at the zero position. -/
def zt (k : Tok) : Token := ⟨k, Pos.zero, Pos.zero⟩
def Z (ts : List Tok) : List Token := ts.map zt
/-- The consumed tokens after consuming `ts`. -/
def R (ts : List Tok) (b : List Token) : List Token := (Z ts).reverse ++ b
/-- The significant tokens. -/
def sg (ts : List Tok) : List Tok := ts.filter fun k => !k.insignificant

theorem Z_nil : Z [] = [] := rfl
theorem Z_cons (t : Tok) (ts : List Tok) : Z (t :: ts) = zt t :: Z ts := rfl
theorem R_nil (b : List Token) : R [] b = b := rfl
theorem R_cons (t : Tok) (ts : List Tok) (b : List Token) : R (t :: ts) b = R ts (zt t :: b) := by
  simp [R, Z_cons]
theorem R_append (ts us : List Tok) (b : List Token) : R (ts ++ us) b = R us (R ts b) := by
  simp [R, Z]
theorem sg_nil : sg [] = [] := rfl
theorem sg_append (ts us : List Tok) : sg (ts ++ us) = sg ts ++ sg us := by simp [sg]
theorem sg_sp (ts : List Tok) : sg (sp :: ts) = sg ts := rfl
theorem sg_kT (k : KW) (ts : List Tok) : sg (kT k :: ts) = kT k :: sg ts := rfl
theorem sg_klT (k : KW) (ts : List Tok) : sg (klT k :: ts) = klT k :: sg ts := rfl
theorem sg_sym (k : Sym) (s : Str) (ts : List Tok) : sg (.sym k s :: ts) = .sym k s :: sg ts := rfl
theorem sg_lpar (ts : List Tok) : sg (lpar :: ts) = lpar :: sg ts := rfl
theorem sg_rpar (ts : List Tok) : sg (rpar :: ts) = rpar :: sg ts := rfl
theorem sg_comma (ts : List Tok) : sg (comma :: ts) = comma :: sg ts := rfl
theorem sg_dot (ts : List Tok) : sg (dot :: ts) = dot :: sg ts := rfl
theorem sg_star (ts : List Tok) : sg (star :: ts) = star :: sg ts := rfl
theorem sg_semi (ts : List Tok) : sg (semi :: ts) = semi :: sg ts := rfl
theorem sg_eqT (ts : List Tok) : sg (eqT :: ts) = eqT :: sg ts := rfl
theorem sg_num (n : Nat) (ts : List Tok) : sg (numTok n :: ts) = numTok n :: sg ts := rfl
theorem sg_number (s : Str) (ts : List Tok) : sg (.number s :: ts) = .number s :: sg ts := rfl
theorem sg_single (s : Str) (ts : List Tok) : sg (.single s :: ts) = .single s :: sg ts := rfl
theorem sg_national (s : Str) (ts : List Tok) : sg (.national s :: ts) = .national s :: sg ts := rfl

/-- The word of an identifier. -/
def identWord (v : Str) : SQLWord :=
  match v with
  | q :: rest =>
    if q = '"' ∨ q = '[' ∨ q = '`' then ⟨rest.dropLast, some q, upper rest.dropLast⟩
    else ⟨v, none, upper v⟩
  | [] => ⟨[], none, []⟩

theorem identTok_eq (v : Str) : identTok v = .word (identWord v) := by
  unfold identTok identWord
  cases v with
  | nil => rfl
  | cons q r => simp only; split <;> rfl

theorem sg_ident (v : Str) (ts : List Tok) : sg (identTok v :: ts) = identTok v :: sg ts := by
  simp [sg, identTok_eq, Tok.insignificant]

/-- What the parser can see of the next token: its kind and, for words, the keyword.  A word whose text and
keyword field disagree, which no tokenizer output contains, is `odd`. -/
inductive Fk where
  | eof
  | kw (k : KW)
  | sym (k : Sym)
  | id
  | lit
  | odd
  deriving DecidableEq

def fk : Tok → Fk
  | .word w =>
    match kwOf w.keyword with
    | some k => if equalFold w.value k.str then .kw k else .odd
    | none => if KW.all.any (fun k => equalFold w.value k.str) then .odd else .id
  | .sym k _ => .sym k
  | .number _ => .lit
  | .single _ => .lit
  | .national _ => .lit
  | .char _ => .odd
  | .whitespace _ => .odd
  | .comment _ => .odd

/-- The next token. -/
def hd : List Tok → Fk
  | [] => .eof
  | t :: _ => fk t

theorem hd_nil : hd [] = .eof := (rfl)
theorem hd_cons (t : Tok) (ts : List Tok) : hd (t :: ts) = fk t := (rfl)

theorem fk_kT (k : KW) : fk (kT k) = .kw k := by
  simp [fk, kT, equalFold]
theorem lower_upper_kw (k : KW) : equalFold (lower k.str) k.str = true := by
  have key : ∀ k ∈ KW.all, equalFold (lower k.str) k.str = true := by decide +kernel
  exact key k (KW.mem_all k)
theorem fk_klT (k : KW) : fk (klT k) = .kw k := by
  simp [fk, klT, lower_upper_kw]
theorem fk_sym (k : Sym) (s : Str) : fk (.sym k s) = .sym k := (rfl)
theorem fk_lpar : fk lpar = .sym .LParen := (rfl)
theorem fk_rpar : fk rpar = .sym .RParen := (rfl)
theorem fk_comma : fk comma = .sym .Comma := (rfl)
theorem fk_dot : fk dot = .sym .Period := (rfl)
theorem fk_star : fk star = .sym .Mult := (rfl)
theorem fk_semi : fk semi = .sym .Semicolon := (rfl)
theorem fk_eqT : fk eqT = .sym .Eq := (rfl)
theorem fk_num (n : Nat) : fk (numTok n) = .lit := (rfl)
theorem fk_number (s : Str) : fk (.number s) = .lit := (rfl)
theorem fk_single (s : Str) : fk (.single s) = .lit := (rfl)
theorem fk_national (s : Str) : fk (.national s) = .lit := (rfl)

/-- A keyword that may serve as a name, or none. -/
def softKw : Option KW → Bool
  | some k => k.soft
  | none => true

/-- The next token may be a name. -/
def Fk.soft : Fk → Bool
  | .id => true
  | .kw k => k.soft
  | _ => false

/-- What the parser can tell of a token that may be a name. -/
abbrev Soft (f : Fk) : Prop :=
  f.soft = true ∧ (∀ k, f ≠ .sym k) ∧ f ≠ .eof ∧ f ≠ .odd ∧ f ≠ .lit ∧ ∀ k : KW, k.soft = false → f ≠ .kw k

theorem Fk.soft_facts {f : Fk} (h : f.soft = true) : Soft f := by
  refine ⟨h, ?_, ?_, ?_, ?_, ?_⟩
  · rintro k rfl; cases h
  · rintro rfl; cases h
  · rintro rfl; cases h
  · rintro rfl; cases h
  · rintro k hk rfl; rw [Fk.soft, hk] at h; cases h

@[zx] theorem hard_TRUE : KW.soft .TRUE = false := (rfl)
@[zx] theorem hard_FALSE : KW.soft .FALSE = false := (rfl)
@[zx] theorem hard_NULL : KW.soft .NULL = false := (rfl)
@[zx] theorem hard_CASE : KW.soft .CASE = false := (rfl)
@[zx] theorem hard_CAST : KW.soft .CAST = false := (rfl)
@[zx] theorem hard_EXISTS : KW.soft .EXISTS = false := (rfl)
@[zx] theorem hard_NOT : KW.soft .NOT = false := (rfl)
@[zx] theorem hard_DISTINCT : KW.soft .DISTINCT = false := (rfl)
@[zx] theorem hard_CONSTRAINT : KW.soft .CONSTRAINT = false := (rfl)
@[zx] theorem hard_PRIMARY : KW.soft .PRIMARY = false := (rfl)
@[zx] theorem hard_CHECK : KW.soft .CHECK = false := (rfl)
@[zx] theorem hard_FOREIGN : KW.soft .FOREIGN = false := (rfl)
@[zx] theorem hard_UNIQUE : KW.soft .UNIQUE = false := (rfl)
@[zx] theorem hard_LATERAL : KW.soft .LATERAL = false := (rfl)
@[zx] theorem hard_ON : KW.soft .ON = false := (rfl)
@[zx] theorem hard_SELECT : KW.soft .SELECT = false := (rfl)
@[zx] theorem hard_WITH : KW.soft .WITH = false := (rfl)
@[zx] theorem hard_WHEN : KW.soft .WHEN = false := (rfl)

theorem noKeyword_facts {w : Str} (hw : identOK.noKeyword w = true) {o : Option Char} :
    softKw (kwOf (upper w)) = true ∧ (fk (.word ⟨w, o, upper w⟩)).soft = true := by
  unfold identOK.noKeyword at hw
  unfold fk
  cases h : kwOf (upper w) with
  | none =>
    rw [h] at hw
    simp only [List.all_eq_true, Bool.not_eq_true'] at hw
    have : (KW.all.any fun k => equalFold w k.str) = false := by
      rw [List.any_eq_false]; intro k hk; simp [hw k hk]
    simp [softKw, this, h, Fk.soft]
  | some k =>
    rw [h] at hw
    simp only [Bool.and_eq_true] at hw
    simp [softKw, h, hw, Fk.soft]

theorem identWord_facts {d : Dialect} {v : Str} (h : identOK d v = true) :
    softKw (kwOf (identWord v).keyword) = true ∧ (fk (.word (identWord v))).soft = true ∧
    (identWord v).string = v := by
  unfold identOK at h
  cases v with
  | nil => simp at h
  | cons q rest =>
    simp only at h
    unfold identWord
    simp only
    by_cases hq : q = '"' ∨ q = '[' ∨ q = '`'
    · rw [if_pos hq] at h ⊢
      simp only [Bool.and_eq_true] at h
      obtain ⟨⟨⟨-, hl⟩, -⟩, hk⟩ := h
      refine ⟨(noKeyword_facts hk (o := none)).1, (noKeyword_facts hk).2, ?_⟩
      simp only [SQLWord.string]
      rw [if_pos hq]
      have hl' : rest.getLast? = some (matchingEndQuote q) := by simpa using hl
      obtain ⟨ys, hys⟩ := List.getLast?_eq_some_iff.mp hl'
      rw [hys]; simp
    · rw [if_neg hq] at h ⊢
      simp only [Bool.and_eq_true] at h
      exact ⟨(noKeyword_facts h.2 (o := none)).1, (noKeyword_facts h.2).2, rfl⟩

theorem soft_ident {d : Dialect} {v : Str} (h : identOK d v = true) : (fk (identTok v)).soft = true := by
  rw [identTok_eq]; exact (identWord_facts h).2.1

theorem fk_ident {d : Dialect} {v : Str} (h : identOK d v = true) : Soft (fk (identTok v)) := Fk.soft_facts (soft_ident h)

theorem fk_ident_sym {d : Dialect} {v : Str} (h : identOK d v = true) (k : Sym) : (fk (identTok v) = .sym k) = False := by
  simp [fk_ident h]
theorem fk_ident_eof {d : Dialect} {v : Str} (h : identOK d v = true) : (fk (identTok v) = .eof) = False := by
  simp [fk_ident h]
theorem fk_ident_odd {d : Dialect} {v : Str} (h : identOK d v = true) : (fk (identTok v) = .odd) = False := by
  simp [fk_ident h]
theorem fk_ident_lit {d : Dialect} {v : Str} (h : identOK d v = true) : (fk (identTok v) = .lit) = False := by
  simp [fk_ident h]
theorem fk_ident_kw {d : Dialect} {v : Str} (h : identOK d v = true) {k : KW} (hk : k.soft = false) :
    (fk (identTok v) = .kw k) = False := by
  simp [fk_ident h, hk]

theorem word_kT (k : KW) : (zt (kT k)).word? = some ⟨k.str, none, k.str⟩ := rfl
theorem word_klT (k : KW) : (zt (klT k)).word? = some ⟨lower k.str, none, k.str⟩ := rfl
theorem word_ident (v : Str) : (zt (identTok v)).word? = some (identWord v) := by
  rw [identTok_eq]; rfl
theorem word_sym (k : Sym) (s : Str) : (zt (.sym k s)).word? = none := rfl

theorem isSym_iff (t : Tok) (k : Sym) : (zt t).isSym k = true ↔ fk t = .sym k := by
  cases t with
  | word w =>
    simp only [Token.isSym, zt, fk, Bool.false_eq_true, false_iff]
    cases kwOf w.keyword with
    | none => simp only; split <;> simp
    | some j => simp only; split <;> simp
  | sym j s => simp [Token.isSym, zt, fk]
  | _ => simp [Token.isSym, zt, fk]
theorem isSym_fk (t : Tok) (k : Sym) : (zt t).isSym k = decide (fk t = .sym k) := by
  rw [Bool.eq_iff_iff, isSym_iff, decide_eq_true_iff]

theorem matchesKw_iff {t : Tok} (h : fk t ≠ .odd) (k : KW) : (zt t).matchesKw k.str = true ↔ fk t = .kw k := by
  cases t with
  | word w =>
    simp only [fk] at h ⊢
    simp only [Token.matchesKw, zt]
    cases hk : kwOf w.keyword with
    | none =>
      simp only [hk] at h ⊢
      have : ¬ (KW.all.any fun k => equalFold w.value k.str) = true := fun he => h (by simp [he])
      rw [if_neg this]
      simp only [List.any_eq_true, not_exists, not_and, Bool.not_eq_true] at this
      simp [this k (KW.mem_all k)]
    | some j =>
      simp only [hk] at h ⊢
      have hj : equalFold w.value j.str = true := by
        cases e : equalFold w.value j.str
        · simp [e] at h
        · rfl
      simp only [hj, if_true, Fk.kw.injEq]
      constructor
      · intro e; exact equalFold_trans_kw hj e
      · rintro rfl; exact hj
  | _ => simp [fk, Token.matchesKw, zt]
theorem matchesKw_fk {t : Tok} (h : fk t ≠ .odd) (k : KW) : (zt t).matchesKw k.str = decide (fk t = .kw k) := by
  rw [Bool.eq_iff_iff, matchesKw_iff h, decide_eq_true_iff]

theorem kw?_fk {t : Tok} : (zt t).kw? = none ∨ (∃ k, (zt t).kw? = some k ∧ (fk t = .kw k ∨ fk t = .odd)) := by
  cases t with
  | word w =>
    simp only [Token.kw?, Token.word?, zt, fk, Option.bind_some]
    cases hk : kwOf w.keyword with
    | none => simp
    | some j => right; refine ⟨j, rfl, ?_⟩; simp only; split <;> simp
  | _ => left; rfl

theorem kw?_of_fk {t : Tok} {k : KW} (h : fk t = .kw k) : (zt t).kw? = some k := by
  cases t with
  | word w =>
    simp only [fk] at h
    simp only [Token.kw?, Token.word?, zt, Option.bind_some]
    cases hk : kwOf w.keyword with
    | none => simp only [hk] at h; split at h <;> cases h
    | some j => simp only [hk] at h; split at h <;> cases h; rfl
  | _ => simp [fk] at h

/-- A token that is neither odd nor a keyword has no keyword. -/
theorem kw?_none {t : Tok} (h : ∀ k, fk t ≠ .kw k) (ho : fk t ≠ .odd) : (zt t).kw? = none := by
  rcases kw?_fk (t := t) with h1 | ⟨k, -, h2 | h2⟩
  · exact h1
  · exact absurd h2 (h k)
  · exact absurd h2 ho

/-- The binding strength of the next token as an infix operator. -/
def prec : Fk → Nat
  | .kw .OR => 5
  | .kw .AND => 10
  | .kw .NOT => 15
  | .kw .IS => 17
  | .kw .IN => 20
  | .kw .BETWEEN => 20
  | .kw .LIKE => 20
  | .sym .Eq | .sym .Lt | .sym .LtEq | .sym .Neq | .sym .Gt | .sym .GtEq => 20
  | .sym .Plus | .sym .Minus => 30
  | .sym .Mult | .sym .Div | .sym .Mod => 40
  | .sym .DoubleColon => 50
  | _ => 0

theorem getPrecedence_fk {t : Tok} (h : fk t ≠ .odd) : getPrecedence (zt t) = prec (fk t) := by
  cases t with
  | word w =>
    simp only [fk] at h ⊢
    simp only [getPrecedence, zt]
    cases hk : kwOf w.keyword with
    | none =>
      simp only
      by_cases hj : (KW.all.any fun k => equalFold w.value k.str) = true
      · rw [if_pos hj]; rfl
      · rw [if_neg hj]; rfl
    | some j =>
      simp only [hk] at h
      by_cases hj : equalFold w.value j.str = true
      · simp only; rw [if_pos hj]; cases j <;> rfl
      · rw [if_neg hj] at h; exact absurd rfl h
  | sym k s => cases k <;> rfl
  | _ => rfl

/-! Keywords and symbols. -/

theorem Z_kw_no {l : List Tok} {k : KW} (h : hd l ≠ .kw k) (ho : hd l ≠ .odd) (b : List Token) :
    (kw k).runZ b (Z l) = .ok false (b, Z l) := by
  apply runZ_kw_no
  cases l with
  | nil => intro t ht; cases ht
  | cons t l => intro t' ht; cases ht; rw [matchesKw_fk ho]; simpa [hd] using h
theorem zt_kw_no {t : Tok} {k : KW} (h : fk t ≠ .kw k) (ho : fk t ≠ .odd) (b a : List Token) :
    (kw k).runZ b (zt t :: a) = .ok false (b, zt t :: a) := by
  apply runZ_kw_no
  intro t' ht; cases ht; rw [matchesKw_fk ho]; simpa using h
theorem zt_kw_yes {t : Tok} {k : KW} (h : fk t = .kw k) (b a : List Token) :
    (kw k).runZ b (zt t :: a) = .ok true (zt t :: b, a) := by
  apply runZ_kw_yes; rw [matchesKw_fk (by simp [h])]; simpa using h
theorem Z_kwTok_no {l : List Tok} {k : KW} (h : hd l ≠ .kw k) (ho : hd l ≠ .odd) (b : List Token) :
    (kwTok k).runZ b (Z l) = .ok none (b, Z l) := by
  apply runZ_kwTok_no
  cases l with
  | nil => intro t ht; cases ht
  | cons t l => intro t' ht; cases ht; rw [matchesKw_fk ho]; simpa [hd] using h
theorem zt_kwTok_no {t : Tok} {k : KW} (h : fk t ≠ .kw k) (ho : fk t ≠ .odd) (b a : List Token) :
    (kwTok k).runZ b (zt t :: a) = .ok none (b, zt t :: a) := by
  apply runZ_kwTok_no
  intro t' ht; cases ht; rw [matchesKw_fk ho]; simpa using h
theorem zt_kwTok_yes {t : Tok} {k : KW} (h : fk t = .kw k) (b a : List Token) :
    (kwTok k).runZ b (zt t :: a) = .ok (some (zt t)) (zt t :: b, a) := by
  apply runZ_kwTok_yes; rw [matchesKw_fk (by simp [h])]; simpa using h
theorem zt_kwOrErr_yes {t : Tok} {k : KW} (h : fk t = .kw k) (b a : List Token) :
    (kwOrErr k).runZ b (zt t :: a) = .ok (zt t) (zt t :: b, a) := by
  apply runZ_kwOrErr_yes; rw [matchesKw_fk (by simp [h])]; simpa using h
theorem zt_expectKeyword_yes {t : Tok} {k : KW} (h : fk t = .kw k) (b a : List Token) :
    (expectKeyword k).runZ b (zt t :: a) = .ok (zt t) (zt t :: b, a) := by
  apply runZ_expectKeyword_yes; rw [matchesKw_fk (by simp [h])]; simpa using h
theorem zt_parseKeyword_yes {t : Tok} {k : KW} (h : fk t = .kw k) (b a : List Token) :
    (parseKeyword k).runZ b (zt t :: a) = .ok (.yes (zt t)) (zt t :: b, a) := by
  apply runZ_parseKeyword_yes; rw [matchesKw_fk (by simp [h])]; simpa using h
theorem zt_parseKeyword_no {t : Tok} {k : KW} (h : fk t ≠ .kw k) (ho : fk t ≠ .odd) (b a : List Token) :
    (parseKeyword k).runZ b (zt t :: a) = .ok (.no (zt t)) (b, zt t :: a) := by
  apply runZ_parseKeyword_no; rw [matchesKw_fk ho]; simpa using h

theorem Z_consume_no {l : List Tok} {k : Sym} (h : hd l ≠ .sym k) (b : List Token) :
    (consumeToken k).runZ b (Z l) = .ok false (b, Z l) := by
  apply runZ_consumeToken_no
  cases l with
  | nil => intro t ht; cases ht
  | cons t l => intro t' ht; cases ht; rw [isSym_fk]; simpa [hd] using h
theorem zt_consume_no {t : Tok} {k : Sym} (h : fk t ≠ .sym k) (b a : List Token) :
    (consumeToken k).runZ b (zt t :: a) = .ok false (b, zt t :: a) := by
  apply runZ_consumeToken_no
  intro t' ht; cases ht; rw [isSym_fk]; simpa using h
theorem zt_consume_yes {t : Tok} {k : Sym} (h : fk t = .sym k) (b a : List Token) :
    (consumeToken k).runZ b (zt t :: a) = .ok true (zt t :: b, a) := by
  apply runZ_consumeToken_yes; rw [isSym_fk]; simpa using h
theorem zt_expect_yes {t : Tok} {k : Sym} (h : fk t = .sym k) (b a : List Token) :
    (expectToken k).runZ b (zt t :: a) = .ok () (zt t :: b, a) := by
  apply runZ_expectToken_yes; rw [isSym_fk]; simpa using h
theorem zt_nextSym_yes {t : Tok} {k : Sym} (h : fk t = .sym k) (b a : List Token) :
    (nextSym k).runZ b (zt t :: a) = .ok (zt t) (zt t :: b, a) := by
  apply runZ_nextSym_yes; rw [isSym_fk]; simpa using h

theorem Z_prec {l : List Tok} (ho : hd l ≠ .odd) (b : List Token) :
    getNextPrecedence.runZ b (Z l) = .ok (prec (hd l)) (b, Z l) := by
  cases l with
  | nil => rfl
  | cons t l =>
    simp only [getNextPrecedence, runZ_bindM, runZ_peekToken, Z_cons, List.head?_cons, Res.bind_ok, runZ_pure,
      getPrecedence_fk ho, hd_cons]
theorem zt_prec {t : Tok} (ho : fk t ≠ .odd) (b a : List Token) :
    getNextPrecedence.runZ b (zt t :: a) = .ok (prec (fk t)) (b, zt t :: a) := by
  simp only [getNextPrecedence, runZ_bindM, runZ_peekToken, List.head?_cons, Res.bind_ok, runZ_pure,
      getPrecedence_fk ho]

/-! `parseKeywords` -/

theorem runZ_parseKeywords (ks : List KW) (b a : List Token) :
    (parseKeywords ks).runZ b a = match takeKws (ks.map KW.str) a with
      | some (ts, s) => .ok (some ts) (ts.reverse ++ b, s)
      | none => .ok none (b, a) := by
  simp only [parseKeywords, P.runZ]
  cases takeKws (ks.map KW.str) a with
  | none => rfl
  | some r => rfl

theorem takeKws_yes {t : Tok} {k : KW} (h : fk t = .kw k) (ks : List Str) (a : List Token) :
    takeKws (k.str :: ks) (zt t :: a) = (takeKws ks a).map fun r => (zt t :: r.1, r.2) := by
  simp only [takeKws]; rw [matchesKw_fk (by simp [h])]; simp [h]
theorem takeKws_no {t : Tok} {k : KW} (h : fk t ≠ .kw k) (ho : fk t ≠ .odd) (ks : List Str) (a : List Token) :
    takeKws (k.str :: ks) (zt t :: a) = none := by
  simp only [takeKws]; rw [matchesKw_fk ho]; simp [h]
theorem takeKws_noZ {l : List Tok} {k : KW} (h : hd l ≠ .kw k) (ho : hd l ≠ .odd) (ks : List Str) :
    takeKws (k.str :: ks) (Z l) = none := by
  cases l with
  | nil => rfl
  | cons t l => exact takeKws_no h ho ks _
theorem Z_kws_no {l : List Tok} {k : KW} {ks : List KW} (h : hd l ≠ .kw k) (ho : hd l ≠ .odd) (b : List Token) :
    (parseKeywords (k :: ks)).runZ b (Z l) = .ok none (b, Z l) := by
  simp only [runZ_parseKeywords, List.map_cons, takeKws_noZ h ho]
theorem zt_kws_no {t : Tok} {k : KW} {ks : List KW} (h : fk t ≠ .kw k) (ho : fk t ≠ .odd) (b a : List Token) :
    (parseKeywords (k :: ks)).runZ b (zt t :: a) = .ok none (b, zt t :: a) := by
  simp only [runZ_parseKeywords, List.map_cons, takeKws_no h ho]
theorem zt_kws_yes1 {t : Tok} {k k2 : KW} (h : fk t = .kw k) (ks : List KW) (b a : List Token) :
    (parseKeywords (k :: k2 :: ks)).runZ b (zt t :: a) = match takeKws ((k2 :: ks).map KW.str) a with
      | some (ts, s) => .ok (some (zt t :: ts)) (ts.reverse ++ zt t :: b, s)
      | none => .ok none (b, zt t :: a) := by
  rw [runZ_parseKeywords, List.map_cons, takeKws_yes h]
  cases takeKws ((k2 :: ks).map KW.str) a with
  | none => rfl
  | some r => simp

/-! Numbers -/

theorem natStr_denotes (n : Nat) : digitsVal (natStr n) = some n := by
  have key : ∀ n : Nat, ∀ k : Nat, (natStr n).foldl digitStep (some k) = some (k * 10 ^ (natStr n).length + n) := by
    intro n
    induction n using Nat.strongRecOn with
    | ind n ih =>
      intro k
      have hd : ∀ r, r < 10 → ∀ j, digitStep (some j) (Char.ofNat (48 + r)) = some (j * 10 + r) := by
        intro r hr j
        have : r = 0 ∨ r = 1 ∨ r = 2 ∨ r = 3 ∨ r = 4 ∨ r = 5 ∨ r = 6 ∨ r = 7 ∨ r = 8 ∨ r = 9 := by omega
        rcases this with rfl | rfl | rfl | rfl | rfl | rfl | rfl | rfl | rfl | rfl <;> rfl
      rw [natStr]
      split
      · next h => simp only [List.foldl_cons, List.foldl_nil, hd n h]; simp
      · next h =>
        rw [List.foldl_append, ih (n / 10) (by omega)]
        simp only [List.foldl_cons, List.foldl_nil, hd (n % 10) (by omega), List.length_append,
          List.length_singleton, Nat.pow_succ]
        congr 1
        rw [Nat.add_mul, Nat.mul_assoc, Nat.add_assoc]
        congr 1
        omega
  have := key n 0
  obtain ⟨c, w, h, -, -⟩ := natStr_digits n
  rw [h] at this ⊢
  rw [digitsVal_cons, this]; simp

theorem atoi_natStr {n : Nat} (h : n < 2 ^ 63) : atoi (natStr n) = ((n : Int), true) := by
  have : n ≤ maxInt := by unfold maxInt; omega
  simp [atoi, natStr_denotes, this]

theorem zt_literalInt {n : Nat} (h : sizeOK n = true) (b a : List Token) :
    parseLiteralInt.runZ b (zt (numTok n) :: a) = .ok ((n : Int), zt (numTok n)) (zt (numTok n) :: b, a) := by
  simp only [parseLiteralInt, runZ_bindM, runZ_mustNext_cons, Res.bind_ok]
  simp only [zt, numTok, atoi_natStr (by simpa [sizeOK] using h)]
  rfl

/-! Budgets -/

/-- From some budget on. -/
def Ev (Q : Nat → Prop) : Prop := ∃ n, ∀ m, n ≤ m → Q m

theorem Ev.mono {Q Q' : Nat → Prop} (h : Ev Q) (hi : ∀ m, Q m → Q' m) : Ev Q' :=
  let ⟨n, hn⟩ := h; ⟨n, fun m hm => hi m (hn m hm)⟩
theorem Ev.and {Q Q' : Nat → Prop} (h : Ev Q) (h' : Ev Q') : Ev fun m => Q m ∧ Q' m :=
  let ⟨n, hn⟩ := h; let ⟨n', hn'⟩ := h'
  ⟨max n n', fun m hm => ⟨hn m (by omega), hn' m (by omega)⟩⟩
/-- One more level of calls. -/
theorem Ev.succ {Q : Nat → Prop} (h : Ev fun m => Q (m + 1)) : Ev Q :=
  let ⟨n, hn⟩ := h
  ⟨n + 1, fun m hm => by
    obtain ⟨k, rfl⟩ : ∃ k, m = k + 1 := ⟨m - 1, by omega⟩
    exact hn k (by omega)⟩
theorem Ev.of {Q : Nat → Prop} (h : ∀ m, Q m) : Ev Q := ⟨0, fun m _ => h m⟩
theorem Ev.add {Q : Nat → Prop} (h : Ev Q) (c : Nat) : Ev fun m => Q (m + c) :=
  let ⟨n, hn⟩ := h; ⟨n, fun m hm => hn (m + c) (by omega)⟩

attribute [zx] Z_nil Z_cons R_nil R_cons R_append sg_nil sg_append sg_sp
  sg_kT sg_klT sg_sym sg_lpar sg_rpar sg_comma sg_dot sg_star
  sg_semi sg_eqT sg_num sg_number sg_single sg_national sg_ident hd_nil
  hd_cons fk_kT fk_klT fk_sym fk_lpar fk_rpar fk_comma fk_dot
  fk_star fk_semi fk_eqT fk_num fk_number fk_single fk_national fk_ident_sym fk_ident_eof fk_ident_odd fk_ident_lit fk_ident_kw
  word_kT word_klT word_ident word_sym Z_kw_no zt_kw_no zt_kw_yes Z_kwTok_no
  zt_kwTok_no zt_kwTok_yes zt_kwOrErr_yes zt_expectKeyword_yes zt_parseKeyword_yes zt_parseKeyword_no Z_consume_no zt_consume_no
  zt_consume_yes zt_expect_yes zt_nextSym_yes Z_prec zt_prec Z_kws_no zt_kws_no zt_kws_yes1
  takeKws_yes takeKws_no takeKws_noZ zt_literalInt isSym_fk runZ_bindM Res.bind_ok runZ_pure
  runZ_ite runZ_nextToken_cons runZ_nextToken_nil runZ_peekToken runZ_prevToken_cons runZ_nextOrErr_cons runZ_mustNext_cons runZ_mustPeek_cons
  kwOf_str

/-- `p` reads exactly `ts` and returns `x`, whatever comes before and provided that the next token is as
described by `C`. -/
def Parses (p : P α) (ts : List Tok) (x : α) (C : Fk → Bool) : Prop :=
  ∀ (b : List Token) (rest : List Tok), C (hd rest) = true →
    p.runZ b (Z (ts ++ rest)) = .ok x (R ts b, Z rest)

end Verif
