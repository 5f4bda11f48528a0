import Verif.Proofs.Mono
import Verif.Proofs.Keyword
/-
Symbolic execution of parser programs on significant tokens: equations for `simp`.
-/
set_option linter.unusedSimpArgs false
namespace Verif

/-- Continue with the result and the state. -/
def Res.bind (r : Res σ α) (f : α → σ → Res τ β) : Res τ β :=
  match r with
  | .ok a s => f a s
  | .err => .err
  | .panic => .panic
  | .oof => .oof

@[simp] theorem Res.bind_ok (a : α) (s : σ) (f : α → σ → Res τ β) : (Res.ok a s).bind f = f a s := rfl
@[simp] theorem Res.bind_err (f : α → σ → Res τ β) : (Res.err : Res σ α).bind f = .err := rfl
@[simp] theorem Res.bind_panic (f : α → σ → Res τ β) : (Res.panic : Res σ α).bind f = .panic := rfl
@[simp] theorem Res.bind_oof (f : α → σ → Res τ β) : (Res.oof : Res σ α).bind f = .oof := rfl

theorem runZ_bindM (p : P α) (f : α → P β) (b a : List Token) :
    (p >>= f).runZ b a = (p.runZ b a).bind fun x s => (f x).runZ s.1 s.2 := by
  rw [P.bind_eq, runZ_bind]
  cases p.runZ b a <;> rfl

theorem runZ_pure (x : α) (b a : List Token) : (pure x : P α).runZ b a = .ok x (b, a) := rfl
theorem runZ_err (b a : List Token) : (P.err : P α).runZ b a = .err := rfl
theorem runZ_panic (b a : List Token) : (P.panic : P α).runZ b a = .panic := rfl

theorem runZ_ite {c : Prop} [Decidable c] (p q : P α) (b a : List Token) :
    (if c then p else q).runZ b a = if c then p.runZ b a else q.runZ b a := by split <;> rfl

theorem runZ_nextToken_cons (t : Token) (b a : List Token) :
    nextToken.runZ b (t :: a) = .ok (some t) (t :: b, a) := rfl
theorem runZ_nextToken_nil (b : List Token) : nextToken.runZ b [] = .ok none (b, []) := rfl
theorem runZ_peekToken (b a : List Token) : peekToken.runZ b a = .ok a.head? (b, a) := rfl
theorem runZ_prevToken_cons (t : Token) (b a : List Token) :
    prevToken.runZ (t :: b) a = .ok () (b, t :: a) := rfl
theorem runZ_prevToken_nil (a : List Token) : prevToken.runZ [] a = .panic := rfl
theorem runZ_nextOrErr_cons (t : Token) (b a : List Token) :
    nextOrErr.runZ b (t :: a) = .ok t (t :: b, a) := rfl
theorem runZ_nextOrErr_nil (b : List Token) : nextOrErr.runZ b [] = .err := rfl
theorem runZ_mustNext_cons (t : Token) (b a : List Token) :
    mustNext.runZ b (t :: a) = .ok t (t :: b, a) := rfl
theorem runZ_mustNext_nil (b : List Token) : mustNext.runZ b [] = .panic := rfl
theorem runZ_mustPeek_cons (t : Token) (b a : List Token) :
    mustPeek.runZ b (t :: a) = .ok t (b, t :: a) := rfl
theorem runZ_mustPeek_nil (b : List Token) : mustPeek.runZ b [] = .panic := rfl

/-- The next token is not the keyword `k`. -/
def NotKw (k : KW) (a : List Token) : Prop := ∀ t, a.head? = some t → t.matchesKw k.str = false
/-- The next token is not the symbol `k`. -/
def NotSym (k : Sym) (a : List Token) : Prop := ∀ t, a.head? = some t → t.isSym k = false

theorem runZ_parseKeyword_yes {k : KW} {t : Token} (h : t.matchesKw k.str = true) (b a : List Token) :
    (parseKeyword k).runZ b (t :: a) = .ok (.yes t) (t :: b, a) := by
  simp only [parseKeyword, runZ_bindM, runZ_peekToken, Res.bind_ok, List.head?_cons, h, if_true,
    runZ_mustNext_cons, runZ_pure]
theorem runZ_parseKeyword_no {k : KW} {t : Token} (h : t.matchesKw k.str = false) (b a : List Token) :
    (parseKeyword k).runZ b (t :: a) = .ok (.no t) (b, t :: a) := by
  simp only [parseKeyword, runZ_bindM, runZ_peekToken, Res.bind_ok, List.head?_cons, h, Bool.false_eq_true,
    if_false, runZ_pure]
theorem runZ_parseKeyword_nil (k : KW) (b : List Token) :
    (parseKeyword k).runZ b [] = .ok .eof (b, []) := rfl

theorem runZ_kw_yes {k : KW} {t : Token} (h : t.matchesKw k.str = true) (b a : List Token) :
    (kw k).runZ b (t :: a) = .ok true (t :: b, a) := by
  simp only [kw, runZ_bindM, runZ_parseKeyword_yes h, Res.bind_ok, runZ_pure]
theorem runZ_kw_no {k : KW} {a : List Token} (h : NotKw k a) (b : List Token) :
    (kw k).runZ b a = .ok false (b, a) := by
  cases a with
  | nil => rfl
  | cons t a => simp only [kw, runZ_bindM, runZ_parseKeyword_no (h t rfl), Res.bind_ok, runZ_pure]
theorem runZ_kwTok_yes {k : KW} {t : Token} (h : t.matchesKw k.str = true) (b a : List Token) :
    (kwTok k).runZ b (t :: a) = .ok (some t) (t :: b, a) := by
  simp only [kwTok, runZ_bindM, runZ_parseKeyword_yes h, Res.bind_ok, runZ_pure]
theorem runZ_kwTok_no {k : KW} {a : List Token} (h : NotKw k a) (b : List Token) :
    (kwTok k).runZ b a = .ok none (b, a) := by
  cases a with
  | nil => rfl
  | cons t a => simp only [kwTok, runZ_bindM, runZ_parseKeyword_no (h t rfl), Res.bind_ok, runZ_pure]
theorem runZ_kwOrErr_yes {k : KW} {t : Token} (h : t.matchesKw k.str = true) (b a : List Token) :
    (kwOrErr k).runZ b (t :: a) = .ok t (t :: b, a) := by
  simp only [kwOrErr, runZ_bindM, runZ_parseKeyword_yes h, Res.bind_ok, runZ_pure]
theorem runZ_kwOrErr_no {k : KW} {a : List Token} (h : NotKw k a) (b : List Token) :
    (kwOrErr k).runZ b a = .err := by
  cases a with
  | nil => rfl
  | cons t a => simp only [kwOrErr, runZ_bindM, runZ_parseKeyword_no (h t rfl), Res.bind_ok, runZ_err]
theorem runZ_expectKeyword_yes {k : KW} {t : Token} (h : t.matchesKw k.str = true) (b a : List Token) :
    (expectKeyword k).runZ b (t :: a) = .ok t (t :: b, a) := by
  simp only [expectKeyword, runZ_bindM, runZ_parseKeyword_yes h, Res.bind_ok, runZ_pure]
theorem runZ_expectKeyword_no {k : KW} {a : List Token} (h : NotKw k a) (b : List Token) :
    (expectKeyword k).runZ b a = .panic := by
  cases a with
  | nil => rfl
  | cons t a => simp only [expectKeyword, runZ_bindM, runZ_parseKeyword_no (h t rfl), Res.bind_ok, runZ_panic]

theorem runZ_consumeToken_yes {k : Sym} {t : Token} (h : t.isSym k = true) (b a : List Token) :
    (consumeToken k).runZ b (t :: a) = .ok true (t :: b, a) := by
  simp only [consumeToken, runZ_bindM, runZ_peekToken, Res.bind_ok, List.head?_cons, h, if_true,
    runZ_nextOrErr_cons, runZ_pure]
theorem runZ_consumeToken_no {k : Sym} {a : List Token} (h : NotSym k a) (b : List Token) :
    (consumeToken k).runZ b a = .ok false (b, a) := by
  cases a with
  | nil => rfl
  | cons t a =>
    simp only [consumeToken, runZ_bindM, runZ_peekToken, Res.bind_ok, List.head?_cons, h t rfl,
      Bool.false_eq_true, if_false, runZ_pure]
theorem runZ_expectToken_yes {k : Sym} {t : Token} (h : t.isSym k = true) (b a : List Token) :
    (expectToken k).runZ b (t :: a) = .ok () (t :: b, a) := by
  simp only [expectToken, runZ_bindM, runZ_consumeToken_yes h, Res.bind_ok, if_true, runZ_pure]
theorem runZ_expectToken_no {k : Sym} {a : List Token} (h : NotSym k a) (b : List Token) :
    (expectToken k).runZ b a = .panic := by
  simp only [expectToken, runZ_bindM, runZ_consumeToken_no h, Res.bind_ok, Bool.false_eq_true, if_false,
    runZ_panic]
theorem runZ_nextSym_yes {k : Sym} {t : Token} (h : t.isSym k = true) (b a : List Token) :
    (nextSym k).runZ b (t :: a) = .ok t (t :: b, a) := by
  simp only [nextSym, runZ_bindM, runZ_mustNext_cons, Res.bind_ok, h, if_true, runZ_pure]

/-- Folding a keyword recovers it. -/
theorem KW.equalFold_inj {j k : KW} (h : equalFold j.str k.str = true) : j = k := by
  have key : ∀ a ∈ KW.all, ∀ b ∈ KW.all, equalFold a.str b.str = true → a = b := by decide +kernel
  exact key j (KW.mem_all j) k (KW.mem_all k) h

theorem equalFold_trans_kw {w : Str} {j k : KW} (h1 : equalFold w j.str = true) (h2 : equalFold w k.str = true) :
    j = k := by
  apply KW.equalFold_inj
  simp only [equalFold, beq_iff_eq] at *
  rw [← h1, h2]

/-- A token matches at most one keyword. -/
theorem matchesKw_unique {t : Token} {j k : KW} (h1 : t.matchesKw j.str = true) (h2 : t.matchesKw k.str = true) :
    j = k := by
  unfold Token.matchesKw at h1 h2
  cases ht : t.tok <;> simp only [ht, Bool.false_eq_true] at h1 h2
  exact equalFold_trans_kw h1 h2

end Verif
