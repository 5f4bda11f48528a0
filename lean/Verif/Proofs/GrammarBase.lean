import Verif.Spec.Grammar
import Verif.Proofs.Alphabet
import Verif.Proofs.Shape
import Verif.Proofs.Decimal
/-
Lemmas for Proofs/Grammar*.lean: stretches of tokens that belong to a language, and what the token primitives of
the parser read.
-/
set_option linter.unusedSimpArgs false
set_option linter.unusedVariables false
namespace Verif
open Spec

variable {T : List Token} {α β : Type} {i j k : Nat} {A B C : Lang}

/-- The tokens from index `i` to before `j`. -/
def between (T : List Token) (i j : Nat) : List Token := (T.drop i).take (j - i)

/-- The tokens from `i` to before `j` belong to the language. -/
def Span (T : List Token) (i j : Nat) (L : Lang) : Prop := i ≤ j ∧ L (between T i j)

theorem between_append (h1 : i ≤ k) (h2 : k ≤ j) : between T i j = between T i k ++ between T k j := by
  unfold between
  have : j - i = (k - i) + (j - k) := by omega
  rw [this, List.take_add, List.drop_drop]
  congr 3; omega

theorem Span.cat (h1 : Span T i k A) (h2 : Span T k j B) : Span T i j (A ⬝ B) :=
  ⟨Nat.le_trans h1.1 h2.1, _, _, between_append h1.1 h2.1, h1.2, h2.2⟩

theorem Span.left (h : Span T i j A) : Span T i j (A ⊹ B) := ⟨h.1, .inl h.2⟩
theorem Span.right (h : Span T i j B) : Span T i j (A ⊹ B) := ⟨h.1, .inr h.2⟩

theorem between_self : between T i i = [] := by simp [between]

theorem Span.eps : Span T i i eps := ⟨Nat.le_refl _, between_self⟩

theorem Span.opt (h : Span T i j A) : Span T i j (opt A) := h.right
theorem Span.optNone : Span T i i (Spec.opt A) := Span.left Span.eps

theorem between_one {t : Token} (h : T[i]? = some t) : between T i (i + 1) = [t] := by
  have hl := (List.getElem?_eq_some_iff.1 h).1
  unfold between
  rw [List.drop_eq_getElem_cons hl]
  have : T[i] = t := (List.getElem?_eq_some_iff.1 h).2
  simp [this]

theorem Span.one {t : Token} (h : T[i]? = some t) (hL : A [t]) : Span T i (i + 1) A :=
  ⟨Nat.le_succ _, by rw [between_one h]; exact hL⟩

theorem Span.mono (h : Span T i j A) (hm : ∀ ts, A ts → B ts) : Span T i j B := ⟨h.1, hm _ h.2⟩

/-- A stretch of tokens that may be dropped. -/
theorem Span.anything (h : Span T i j A) (hA : Over A) : Span T i j anything :=
  h.mono fun ts hts => ⟨(hA ts hts).1, fun s => (hA ts hts).2 s⟩

theorem cat_assoc {ts : List Token} (h : ((A ⬝ B) ⬝ C) ts) : (A ⬝ B ⬝ C) ts := by
  obtain ⟨_, c, rfl, ⟨a, b, rfl, ha, hb⟩, hc⟩ := h
  exact ⟨a, b ++ c, by simp, ha, b, c, rfl, hb, hc⟩

/-- Continue a stretch that ends with a sequence. -/
theorem Span.assoc (h : Span T i j ((A ⬝ B) ⬝ C)) : Span T i j (A ⬝ B ⬝ C) := h.mono fun _ => cat_assoc

/-! Positions -/

theorem Span.startsAt {t : Token} (ht : T[i]? = some t) (h : Span T i (i + 1) A) : Span T i (i + 1) (t.from_ ▹ A) :=
  ⟨h.1, h.2, t, [], between_one ht, rfl⟩

theorem Span.endsAt {t : Token} (ht : T[i]? = some t) (h : Span T i (i + 1) A) : Span T i (i + 1) (A ◃ t.to_) :=
  ⟨h.1, h.2, [], t, between_one ht, rfl⟩

theorem Span.spans {t : Token} (ht : T[i]? = some t) (h : Span T i (i + 1) A) :
    Span T i (i + 1) (spans t.from_ t.to_ A) := Span.startsAt ht (Span.endsAt ht h)

/-- Forget where the tokens end, where they begin, or both. -/
theorem Span.F {p p' : Pos} (h : Span T i j (Spec.spans p p' A)) : Span T i j (p ▹ A) := ⟨h.1, h.2.1.1, h.2.2⟩
theorem Span.E {p p' : Pos} (h : Span T i j (Spec.spans p p' A)) : Span T i j (A ◃ p') := ⟨h.1, h.2.1⟩
theorem Span.P {p p' : Pos} (h : Span T i j (Spec.spans p p' A)) : Span T i j A := ⟨h.1, h.2.1.1⟩

theorem Span.spansMono {p p' : Pos} (h : Span T i j (Spec.spans p p' A)) (hm : ∀ ts, A ts → B ts) :
    Span T i j (Spec.spans p p' B) := ⟨h.1, ⟨hm _ h.2.1.1, h.2.1.2⟩, h.2.2⟩

theorem Span.startsMono {p : Pos} (h : Span T i j (p ▹ A)) (hm : ∀ ts, A ts → B ts) :
    Span T i j (p ▹ B) := ⟨h.1, hm _ h.2.1, h.2.2⟩

theorem starts_cat {p : Pos} {ts : List Token} (h : (p ▹ A ⬝ B) ts) : (p ▹ (A ⬝ B)) ts := by
  obtain ⟨_, b, rfl, ⟨ha, t, us, rfl, rfl⟩, hb⟩ := h
  exact ⟨⟨_, _, rfl, ha, hb⟩, t, us ++ b, rfl, rfl⟩

theorem Span.startsCat {p : Pos} (h : Span T i j (p ▹ A ⬝ B)) : Span T i j (p ▹ (A ⬝ B)) := h.mono fun _ => starts_cat

theorem Span.only {c : Prop} (h : c) : Span T i i (Spec.only c) := ⟨Nat.le_refl _, between_self, h⟩
theorem Span.unset : Span T i i (unset Pos.zero) := ⟨Nat.le_refl _, between_self, rfl⟩
theorem Span.unset2 : Span T i i (unset2 Pos.zero Pos.zero) := Span.unset.cat Span.unset

theorem Span.flagFromT {p : Pos} (h : Span T i j (p ▹ A)) : Span T i j (flagFrom true p A) := h
theorem Span.flagFromF : Span T i i (flagFrom false Pos.zero A) := Span.unset
theorem Span.flagToT {p : Pos} (h : Span T i j (A ◃ p)) : Span T i j (flagTo true p A) := h
theorem Span.flagToF : Span T i i (flagTo false Pos.zero A) := Span.unset

theorem Span.flagT (h : Span T i j A) : Span T i j (flag true A) := h
theorem Span.flagF : Span T i i (flag false A) := Span.eps

theorem Span.lostT {b : Bool} (hb : b = true) (h : Span T i j A) : Span T i j (lost b A) := by
  subst hb; exact h.right

theorem Span.lostNone {b : Bool} : Span T i i (lost b A) := by
  cases b
  · exact Span.eps
  · exact Span.left Span.eps

theorem Span.lostEps {b : Bool} (h : Span T i j Spec.eps) : Span T i j (Spec.lost b A) := by
  cases b
  · exact h
  · exact Span.left h

/-! ### Single tokens -/

theorem span_kw {t : Token} {k : KW} (ht : T[i]? = some t) (hm : t.matchesKw k.str = true) :
    Span T i (i + 1) (spans t.from_ t.to_ (kwd k)) := by
  refine Span.spans ht (Span.one ht ?_)
  unfold Token.matchesKw at hm
  split at hm
  · rename_i w hw; exact ⟨t, w, rfl, hw, .inl hm⟩
  · cases hm

theorem span_sym {t : Token} {k : Sym} (ht : T[i]? = some t) (hm : t.isSym k = true) :
    Span T i (i + 1) (spans t.from_ t.to_ (sym k)) := by
  refine Span.spans ht (Span.one ht ?_)
  unfold Token.isSym at hm
  split at hm
  · rename_i k' s hw
    simp only [beq_iff_eq] at hm
    exact ⟨t, s, rfl, by rw [hw, hm]⟩
  · cases hm

theorem word_tok {t : Token} {w : SQLWord} (h : t.word? = some w) : t.tok = .word w := by
  unfold Token.word? at h
  split at h
  · rename_i w' hw; cases h; exact hw
  · cases h

/-- A word whose keyword is `k`. -/
theorem span_kwOf (hk : KwOK T) {t : Token} {w : SQLWord} {k : KW} (ht : T[i]? = some t) (hw : t.tok = .word w)
    (h : kwOf w.keyword = some k) : Span T i (i + 1) (spans t.from_ t.to_ (kwd k)) := by
  refine Span.spans ht (Span.one ht ?_)
  exact ⟨t, w, rfl, hw, .inr (by rw [← hk t (List.mem_of_getElem? ht) w hw]; exact kwOf_eq_some.1 h)⟩

theorem span_kw? (hk : KwOK T) {t : Token} {k : KW} (ht : T[i]? = some t) (h : t.kw? = some k) :
    Span T i (i + 1) (spans t.from_ t.to_ (kwd k)) := by
  obtain ⟨w, h1, h2⟩ := kw_word h
  exact span_kwOf hk ht h1 h2

theorem span_word {t : Token} {w : SQLWord} (ht : T[i]? = some t) (hw : t.word? = some w) :
    Span T i (i + 1) (word [] ⟨w.string, t.from_, t.to_⟩) :=
  Span.one ht ⟨t, w, rfl, word_tok hw, rfl, rfl, rfl, by simp⟩

/-- A word that is not one of the keywords. -/
theorem span_wordBut (hk : KwOK T) {bad : List KW} {t : Token} {w : SQLWord} (ht : T[i]? = some t)
    (hw : t.tok = .word w) (hb : ∀ k ∈ bad, kwOf w.keyword ≠ some k) :
    Span T i (i + 1) (word bad ⟨w.string, t.from_, t.to_⟩) := by
  refine Span.one ht ?_
  refine ⟨t, w, rfl, hw, rfl, rfl, rfl, fun k hm h => hb k hm ?_⟩
  rw [hk t (List.mem_of_getElem? ht) w hw, h, kwOf_str]

theorem span_unreserved (hk : KwOK T) {bad : List KW} {reserved : KW → Bool} {t : Token} {w : SQLWord}
    (ht : T[i]? = some t) (hw : t.tok = .word w) (hr : isReserved reserved w.keyword = false)
    (hb : ∀ k ∈ bad, reserved k = true) : Span T i (i + 1) (word bad ⟨w.string, t.from_, t.to_⟩) := by
  refine span_wordBut hk ht hw fun k hm h => ?_
  simp [isReserved, h, hb k hm] at hr

theorem digits_foldl_none (s : Str) : s.foldl digitStep none = none := by
  induction s with
  | nil => rfl
  | cons c s ih => rw [List.foldl_cons]; exact ih

theorem digits_all {s : Str} : ∀ {k n : Nat}, s.foldl digitStep (some k) = some n → ∀ c ∈ s, isDigit c = true := by
  induction s with
  | nil => intro k n _ c hc; cases hc
  | cons c s ih =>
    intro k n h
    rw [List.foldl_cons] at h
    cases hd : isDigit c with
    | false =>
      rw [show digitStep (some k) c = none by simp [digitStep, hd], digits_foldl_none] at h
      cases h
    | true =>
      rw [show digitStep (some k) c = some (k * 10 + (c.toNat - '0'.toNat)) by simp [digitStep, hd]] at h
      intro d hm
      rcases List.mem_cons.1 hm with rfl | hm
      · exact hd
      · exact ih h d hm

theorem denotes_of_digitsVal {s : Str} {n : Nat} (h : digitsVal s = some n) : Denotes s n := by
  cases s with
  | nil => cases h
  | cons c s =>
    have h1 := h
    rw [digitsVal_cons] at h1
    obtain ⟨m, hm⟩ := denotes_exists (s := c :: s) (by simp) (digits_all h1)
    have := digitsVal_denotes hm
    rw [h] at this
    cases this
    exact hm

theorem atoi_denotes {s : Str} {v : Int} (h : atoi s = (v, true)) : ∃ n : Nat, v = n ∧ Denotes s n ∧ n < 2 ^ 63 := by
  unfold atoi at h
  split at h
  · cases h
  · rename_i n hn
    split at h
    · cases h
      rename_i hle
      exact ⟨n, rfl, denotes_of_digitsVal hn, by unfold maxInt at hle; omega⟩
    · cases h

theorem atoi_integer (s : Str) : (∃ n : Nat, Denotes s n ∧ (atoi s).1 = ((min n (2 ^ 63 - 1) : Nat) : Int)) ∨
    ((∀ n, ¬ Denotes s n) ∧ (atoi s).1 = 0) := by
  unfold atoi
  split
  · rename_i h
    refine .inr ⟨fun n hn => ?_, rfl⟩
    rw [digitsVal_denotes hn] at h
    cases h
  · rename_i n hn
    refine .inl ⟨n, denotes_of_digitsVal hn, ?_⟩
    split <;> simp only [maxInt] at * <;> omega

/-! ### Lists -/

/-- The rest of a list after its first element. -/
def tailBy (s : Sym) : List Lang → Lang
  | [] => eps
  | a :: as => sym s ⬝ sepBy s (a :: as)

theorem Span.sepBy {s : Sym} {as : List Lang} (h1 : Span T i k A) (h2 : Span T k j (tailBy s as)) :
    Span T i j (sepBy s (A :: as)) := by
  cases as with
  | nil =>
    have : j = k ∨ k < j := by have := h2.1; omega
    obtain ⟨h3, h4⟩ := h2
    refine ⟨Nat.le_trans h1.1 h3, ?_⟩
    rw [between_append h1.1 h3, h4, List.append_nil]
    exact h1.2
  | cons b bs => exact h1.cat h2

theorem Span.sepOne {s : Sym} (h : Span T i j A) : Span T i j (Spec.sepBy s [A]) := h

theorem Span.sepMore {s : Sym} {as : List Lang} {m : Nat} (h1 : Span T i k A) (h2 : Span T k m (sym s))
    (h3 : Span T m j (Spec.sepBy s as)) : Span T i j (Spec.sepBy s (A :: as)) := by
  cases as with
  | nil => exact h3.2.elim
  | cons b bs => exact h1.cat (h2.cat h3)

theorem Span.tailMore {s : Sym} {as : List Lang} (h1 : Span T i k (sym s)) (h2 : Span T k j (Spec.sepBy s as)) :
    Span T i j (tailBy s as) := by
  cases as with
  | nil => exact h2.2.elim
  | cons b bs => exact h1.cat h2

theorem Span.clauseOr {other : Lang} {wrap : Lang → Lang} {as : List Lang}
    (h : Span T i j (wrap (Spec.sepBy .Comma as))) (hn : ∃ k l, Span T k l (Spec.sepBy .Comma as)) :
    Span T i j (Spec.clauseOr other wrap as) := by
  cases as with
  | nil => obtain ⟨_, _, h⟩ := hn; exact h.2.elim
  | cons b bs => exact h

theorem Span.clause {wrap : Lang → Lang} {as : List Lang} (h : Span T i j (wrap (Spec.sepBy .Comma as)))
    (hn : ∃ k l, Span T k l (Spec.sepBy .Comma as)) : Span T i j (Spec.clause wrap as) := Span.clauseOr h hn

theorem Span.clauseOrNone {other : Lang} {wrap : Lang → Lang} (h : Span T i j other) :
    Span T i j (Spec.clauseOr other wrap []) := h

theorem Span.clauseNone {wrap : Lang → Lang} : Span T i i (Spec.clause wrap []) := Span.eps

/-- The parts of a dotted name after the first. -/
def parts : List Ident → Lang
  | [] => eps
  | i :: is => sym .Period ⬝ word [] i ⬝ parts is

theorem cat_eps {ts : List Token} (h : (A ⬝ eps) ts) : A ts := by
  obtain ⟨a, b, rfl, ha, rfl⟩ := h
  simpa using ha

theorem parts_idents {x : Ident} : ∀ {xs : List Ident} {ts : List Token}, (word [] x ⬝ parts xs) ts →
    idents .Period (x :: xs) ts
  | [], _, h => cat_eps h
  | y :: ys, ts, h => by
    obtain ⟨a, b, rfl, ha, c, d, rfl, hc, hd⟩ := h
    exact ⟨a, _, rfl, ha, c, d, rfl, hc, parts_idents hd⟩

theorem parts_exprName {x : Ident} : ∀ {xs : List Ident} {ts : List Token}, (word exprKeywords x ⬝ parts xs) ts →
    exprName (x :: xs) ts
  | [], _, h => cat_eps h
  | y :: ys, ts, h => by
    obtain ⟨a, b, rfl, ha, c, d, rfl, hc, hd⟩ := h
    exact ⟨a, _, rfl, ha, c, d, rfl, hc, parts_idents hd⟩

/-! ### Token primitives -/

section rules
variable {Q : β → Nat → Prop}

theorem pg_kw {k : KW} {f : Bool → P β} (h1 : Span T i (i + 1) (kwd k) → pc T (f true) (i + 1) Q)
    (h2 : pc T (f false) i Q) : pc T (kw k >>= f) i Q :=
  pc_bindOf (wp_kw (fun _ ht hm _ => h1 (span_kw ht hm).P) fun _ => h2)

theorem pg_kwIf {k : KW} {p p' : P β} (h1 : Span T i (i + 1) (kwd k) → pc T p (i + 1) Q)
    (h2 : pc T p' i Q) : pc T (kw k >>= fun b => if b = true then p else p') i Q := pg_kw h1 h2

theorem pg_kwTok {k : KW} {f : Option Token → P β}
    (h1 : ∀ t, Span T i (i + 1) (spans t.from_ t.to_ (kwd k)) → pc T (f (some t)) (i + 1) Q)
    (h2 : pc T (f none) i Q) : pc T (kwTok k >>= f) i Q :=
  pc_bindOf (wp_kwTok' (fun t ht hm _ => h1 t (span_kw ht hm)) fun _ => h2)

theorem pg_kwOrErr {k : KW} {f : Token → P β}
    (h1 : ∀ t, Span T i (i + 1) (spans t.from_ t.to_ (kwd k)) → pc T (f t) (i + 1) Q) : pc T (kwOrErr k >>= f) i Q :=
  pc_bindOf (wp_kwOrErr fun t ht hm _ => h1 t (span_kw ht hm))

theorem pg_expectKeyword {k : KW} {f : Token → P β}
    (h1 : ∀ t, Span T i (i + 1) (spans t.from_ t.to_ (kwd k)) → pc T (f t) (i + 1) Q) : pc T (expectKeyword k >>= f) i Q :=
  pc_bindOf (wp_expectKeyword fun t ht hm _ => h1 t (span_kw ht hm))

theorem pg_consume {k : Sym} {f : Bool → P β} (h1 : Span T i (i + 1) (sym k) → pc T (f true) (i + 1) Q)
    (h2 : pc T (f false) i Q) : pc T (consumeToken k >>= f) i Q :=
  pc_bindOf (wp_consumeToken (fun _ ht hm _ => h1 (span_sym ht hm).P) h2)

theorem pg_consumeIf {k : Sym} {p p' : P β} (h1 : Span T i (i + 1) (sym k) → pc T p (i + 1) Q)
    (h2 : pc T p' i Q) : pc T (consumeToken k >>= fun b => if b = true then p else p') i Q := pg_consume h1 h2

theorem pg_expectToken {k : Sym} {f : Unit → P β} (h1 : Span T i (i + 1) (sym k) → pc T (f ()) (i + 1) Q) :
    pc T (expectToken k >>= f) i Q :=
  pc_bindOf (wp_expectToken fun _ ht hm _ => h1 (span_sym ht hm).P)

theorem pg_nextSym {k : Sym} {f : Token → P β}
    (h1 : ∀ t, Span T i (i + 1) (spans t.from_ t.to_ (sym k)) → pc T (f t) (i + 1) Q) : pc T (nextSym k >>= f) i Q :=
  pc_bindOf (wp_nextSym fun t ht hm _ => h1 t (span_sym ht hm))

theorem takeKws_span : ∀ {ks : List KW} {i : Nat} {ts s : List Token},
    takeKws (ks.map KW.str) (T.drop i) = some (ts, s) → Span T i (i + ts.length) (kwds ks)
  | [], i, ts, s, h => by
    simp [takeKws] at h; obtain ⟨rfl, -⟩ := h; exact Span.eps
  | k :: ks, i, ts, s, h => by
    cases hd : T.drop i with
    | nil => rw [hd] at h; simp [takeKws] at h
    | cons t a =>
      have ht : T[i]? = some t := by rw [← List.head?_drop, hd]; rfl
      have ha : a = T.drop (i + 1) := by rw [← List.drop_drop, hd]; rfl
      rw [hd] at h
      simp only [List.map_cons, takeKws] at h
      split at h
      · rename_i hm
        simp only [Option.map_eq_some_iff, Prod.mk.injEq] at h
        obtain ⟨⟨ts', s''⟩, h1, rfl, rfl⟩ := h
        rw [ha] at h1
        have h2 := takeKws_span h1
        have h3 := (span_kw ht hm).P
        rw [show i + 1 + ts'.length = i + (ts'.length + 1) by omega] at h2
        cases ks with
        | nil =>
          have h4 := h3.cat h2
          exact ⟨h4.1, cat_eps h4.2⟩
        | cons k' ks => exact h3.cat h2
      · cases h

theorem pg_keywords {ks : List KW} {f : Option (List Token) → P β}
    (h1 : ∀ ts j, Span T i j (kwds ks) → pc T (f (some ts)) j Q) (h2 : pc T (f none) i Q) :
    pc T (parseKeywords ks >>= f) i Q := by
  refine pc_bindOf ?_
  simp only [wp, parseKeywords, P.runI]
  cases htk : takeKws (ks.map KW.str) (T.drop i) with
  | none => exact h2
  | some r =>
    obtain ⟨ts, s'⟩ := r
    exact h1 ts _ (takeKws_span htk)

/-- Two keywords, with their tokens. -/
theorem pg_keywords2 {k k' : KW} {f : Option (List Token) → P β}
    (h1 : ∀ t t', Span T i (i + 1) (spans t.from_ t.to_ (kwd k)) →
      Span T (i + 1) (i + 1 + 1) (spans t'.from_ t'.to_ (kwd k')) → pc T (f (some [t, t'])) (i + 1 + 1) Q)
    (h2 : pc T (f none) i Q) : pc T (parseKeywords [k, k'] >>= f) i Q := by
  refine pc_bindOf ?_
  simp only [wp, parseKeywords, P.runI]
  cases htk : takeKws ([k, k'].map KW.str) (T.drop i) with
  | none => exact h2
  | some r =>
    obtain ⟨ts, s'⟩ := r
    have drop_get : ∀ {i : Nat} {t : Token} {a : List Token}, T.drop i = t :: a → T[i]? = some t ∧ a = T.drop (i + 1) :=
      fun hd => ⟨by rw [← List.head?_drop, hd]; rfl, by rw [← List.drop_drop, hd]; rfl⟩
    cases hd : T.drop i with
    | nil => rw [hd] at htk; simp [takeKws] at htk
    | cons t a =>
      obtain ⟨ht, rfl⟩ := drop_get hd
      rw [hd] at htk
      cases hd' : T.drop (i + 1) with
      | nil => rw [hd'] at htk; simp [takeKws] at htk
      | cons t' a' =>
        obtain ⟨ht', rfl⟩ := drop_get hd'
        rw [hd'] at htk
        simp only [List.map_cons, List.map_nil, takeKws] at htk
        split at htk
        · rename_i hm
          split at htk
          · rename_i hm'
            simp only [Option.map_some, Option.some.injEq, Prod.mk.injEq] at htk
            obtain ⟨rfl, -⟩ := htk
            exact h1 t t' (span_kw ht hm) (span_kw ht' hm')
          · cases htk
        · cases htk

theorem pg_prev {f : Unit → P β} (h : pc T (f ()) i Q) : pc T (prevToken >>= f) (i + 1) Q :=
  pc_bindOf (wp_prevToken fun j hj => by cases hj; exact h)

theorem pg_identifier {f : Ident → P β} (h : ∀ x, Span T i (i + 1) (word [] x) → pc T (f x) (i + 1) Q) :
    pc T (parseIdentifier >>= f) i Q := by
  unfold parseIdentifier
  refine pc_bind (pc_bindOf (wp_nextOrErr fun t ht _ => ?_))
  split
  · exact pc_err
  · rename_i w hw
    exact pc_pure (h _ (span_word ht hw))

theorem pg_literalInt {f : Int × Token → P β} (h : ∀ x, Span T i (i + 1) (spans x.2.from_ x.2.to_ (numberZ x.1)) → pc T (f x) (i + 1) Q) :
    pc T (parseLiteralInt >>= f) i Q := by
  unfold parseLiteralInt
  refine pc_bind (pc_bindOf (wp_mustNext fun t ht _ => ?_))
  split
  · rename_i s hs
    split
    · rename_i v hv
      obtain ⟨n, rfl, hn⟩ := atoi_denotes hv
      exact pc_pure (h _ (Span.spans ht (Span.one ht ⟨n, rfl, t, s, rfl, hs, hn⟩)))
    · exact pc_err
  · exact pc_err

end rules

end Verif
