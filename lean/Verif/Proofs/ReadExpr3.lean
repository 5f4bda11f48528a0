import Verif.Proofs.ReadExpr2
/-
Completeness of the grammar: subqueries, CASE and operators.
-/
set_option linter.unusedSimpArgs false
namespace Verif
open Spec

variable {fns : FloatFns} {ks : List Tok}

/-! ### Subqueries -/

theorem hdItem {i : SelectItem} (hs : i.shape freeWord = true) (h : K (i.lang fns clean) ks) (rest : List Tok) :
    startE (hd (ks ++ rest)) = true := by
  match i with
  | .unnamed e =>
    simp only [SelectItem.shape, Bool.and_eq_true] at hs
    simp only [SelectItem.lang] at h
    exact (hdE hs.1 h rest).1
  | .alias e a =>
    simp only [SelectItem.shape, Bool.and_eq_true] at hs
    simp only [SelectItem.lang] at h
    split_ h h1 k1 k2
    rw [List.append_assoc]
    exact (hdE hs.1.1 h1 _).1
  | .qualifiedWildcard p =>
    simp only [SelectItem.shape] at hs
    simp only [SelectItem.lang] at h
    split_ h h1 k1 k2
    rw [List.append_assoc]
    exact (startE_soft (hd_exprName hs h1 _).2.1).1
  | .wildcard _ _ => simp [SelectItem.shape] at hs

theorem hdItems {is : List SelectItem} (hs : SelectItem.shapes freeWord is = true)
    (h : K (sepBy .Comma (SelectItem.langs fns clean is)) ks) (rest : List Tok) : startE (hd (ks ++ rest)) = true := by
  match is with
  | [] => simp only [SelectItem.langs, sepBy] at h; exact h.never.elim
  | [i] =>
    simp only [SelectItem.shapes, Bool.and_eq_true] at hs
    simp only [SelectItem.langs, sepBy] at h
    exact hdItem hs.1 h rest
  | i :: i' :: is =>
    simp only [SelectItem.shapes, Bool.and_eq_true] at hs
    simp only [SelectItem.langs, sepBy] at h
    split_ h hl u v
    rw [List.append_assoc]
    exact hdItem hs.1 hl _

theorem flag_K {b : Bool} {k : KW} (h : K (flag b (kwd k)) ks) :
    (b = false ∧ ks = []) ∨ ∃ w, b = true ∧ ks = [.word w] ∧ fk (.word w) = .kw k ∧ kwOf w.keyword = some k := by
  cases b with
  | false => exact .inl ⟨rfl, (K.nil (a := eps) h).1⟩
  | true =>
    replace h : K (kwd k) ks := h
    eatK h w hf hk
    exact .inr ⟨w, rfl, rfl, hf, hk⟩

theorem body_select {ks : List Tok} {s : SetExpr} (hw : s.shape freeWord = true) (hs : s.startsSelect = true)
    (h : K (s.lang fns clean) ks) : ∃ w tl, ks = .word w :: tl ∧ fk (.word w) = .kw .SELECT ∧
      ∀ rest, hd (tl ++ rest) ≠ .kw .WITH ∧ hd (tl ++ rest) ≠ .odd := by
  match s with
  | .select (.mk distinct projection from_ where_ groupBy having p) =>
    simp only [SetExpr.shape, SQLSelect.shape, Bool.and_eq_true, Bool.not_eq_true', List.isEmpty_eq_false_iff] at hw
    simp only [SetExpr.lang, SQLSelect.lang] at h
    eatK h w hf hk
    refine ⟨w, _, rfl, hf, fun rest => ?_⟩
    split_ h h1 k1 k2
    split_ h h2 k2 k3
    rcases flag_K h1 with ⟨-, rfl⟩ | ⟨w', -, rfl, hf', -⟩
    · have := startE_facts (hdItems hw.1.1.1.1.1.2 h2 (k3 ++ rest))
      simp only [List.nil_append, List.append_assoc]
      exact ⟨this.2.2.2.1, this.1⟩
    · simp [zx, hf']
  | .setOp op all l r =>
    simp only [SetExpr.shape, Bool.and_eq_true] at hw
    simp only [SetExpr.lang] at h
    obtain ⟨k1, k2, rfl, h1, h2⟩ := K.cat h
    obtain ⟨w, tl, rfl, hf, ht⟩ := body_select (s := l) hw.1.1.1 (by simpa [SetExpr.startsSelect] using hs) h1
    refine ⟨w, _, rfl, hf, fun rest => ?_⟩
    have := ht (k2 ++ rest)
    rw [← List.append_assoc] at this
    exact this

theorem query_select {q : QueryStmt} (hw : q.shape freeWord = true) (hs : q.startsSelect = true)
    (h : K (q.lang fns clean) ks) : ∃ w tl, ks = .word w :: tl ∧ ((q.hasWith = true ∧ fk (.word w) = .kw .WITH) ∨
      (q.hasWith = false ∧ fk (.word w) = .kw .SELECT ∧ ∀ rest, hd (tl ++ rest) ≠ .kw .WITH ∧ hd (tl ++ rest) ≠ .odd)) := by
  obtain ⟨p, ctes, body, os, l⟩ := q
  simp only [QueryStmt.shape, Bool.and_eq_true] at hw
  simp only [QueryStmt.lang] at h
  cases ctes with
  | nil =>
    replace h : K (eps ⬝ _) ks := h
    replace h := h.skip.2
    split_ h h1 k1 k2
    obtain ⟨w, tl, rfl, hf, ht⟩ := body_select (s := body) hw.1.1.2 (by simpa [QueryStmt.startsSelect] using hs) h1
    refine ⟨w, _, rfl, .inr ⟨rfl, hf, fun rest => ?_⟩⟩
    have := ht (k2 ++ rest)
    rw [← List.append_assoc] at this
    exact this
  | cons c cs =>
    simp only [CTE.langs] at h
    replace h : K ((kwd .WITH ⬝ _) ⬝ _) ks := h
    replace h := K.assoc h
    eatK h w hf hk
    exact ⟨w, _, rfl, .inl ⟨rfl, hf⟩⟩

/-- A query in parentheses. -/
theorem read_subqueryLang {q : QueryStmt} {rp : Pos} (hw : q.shape freeWord = true) (hs : q.startsSelect = true)
    (hq : AllQ fns q) (h : K (subqueryLang q.hasWith rp (q.lang fns clean)) ks) :
    ∃ s s' w tl, ks = .sym .LParen s :: .word w :: tl ++ [.sym .RParen s'] ∧
      ((ReadsQ fns q (.word w :: tl) ∧ (fk (.word w) = .kw .WITH ∨
        fk (.word w) = .kw .SELECT ∧ ∀ rest, hd (tl ++ rest) ≠ .kw .WITH ∧ hd (tl ++ rest) ≠ .odd)) ∨
      ∃ w' tl', tl = .word w' :: tl' ∧ fk (.word w) = .kw .SELECT ∧ fk (.word w') = .kw .WITH ∧ ReadsQ fns q tl) := by
  unfold subqueryLang at h
  eatS h s
  split_ h h1 k1 k2
  split_ h h2 k2 k3
  eatS h s'
  have hr := hq _ h2
  obtain ⟨w, tl, rfl, hh⟩ := query_select hw hs h2
  rcases hh with ⟨e, hf⟩ | ⟨e, hf, ht⟩
  · rw [e] at h1
    replace h1 : K (opt (kwd .SELECT)) k1 := h1
    opt_ h1
    · exact ⟨s, s', w, tl, by simp, .inl ⟨hr, .inl hf⟩⟩
    · eatK h1 w' hf' hk'
      exact ⟨s, s', w', _, by simp, .inr ⟨w, tl, rfl, hf', hf, hr⟩⟩
  · rw [e] at h1
    replace h1 : K eps k1 := h1
    drop_ h1 with -
    exact ⟨s, s', w, tl, by simp, .inl ⟨hr, .inr ⟨hf, ht⟩⟩⟩

theorem read_subQuery {q : QueryStmt} {x y : Pos} (hw : q.shape freeWord = true) (hs : q.startsSelect = true) (hq : AllQ fns q)
    (h : K (Expr.lang fns clean (.subQuery x y q)) ks) : ReadsP fns (.subQuery x y q) ks := by
  simp only [Expr.lang] at h
  obtain ⟨s, s', w, tl, rfl, ⟨hr, hh⟩ | ⟨w', tl', rfl, hf, hf', hr⟩⟩ := read_subqueryLang hw hs hq h.starts
  · refine (hr.mono fun m hm => ?_).succ
    intro b rest hf hr
    have e1 : (zt (.sym .LParen s)).tok = .sym .LParen s := rfl
    have h1 := fun b => hm b (.sym .RParen s' :: rest) (by nxt)
    simp only [List.cons_append, zx] at h1
    rcases hh with hk | ⟨hk, ht⟩
    · simp [Expr.erase, zx, prefixF, parseParen, h1, hk, e1]
    · have := ht (.sym .RParen s' :: rest)
      simp [Expr.erase, zx, prefixF, parseParen, h1, this, hk, e1]
  · refine (hr.mono fun m hm => ?_).succ
    intro b rest hf2 hr
    have e1 : (zt (.sym .LParen s)).tok = .sym .LParen s := rfl
    have h1 := fun b => hm b (.sym .RParen s' :: rest) (by nxt)
    simp only [List.cons_append, zx] at h1
    simp [Expr.erase, zx, prefixF, parseParen, h1, hf, hf', e1]

theorem read_exists {neg : Bool} {q : QueryStmt} {x y z : Pos} (hq : AllQ fns q)
    (h : K (Expr.lang fns clean (.exists_ neg q x y z)) ks) : ReadsP fns (.exists_ neg q x y z) ks := by
  simp only [Expr.lang] at h
  cases neg with
  | true =>
    replace h : K (x ▹ kwd .NOT ⬝ _) ks := h
    eatK h w hf hk
    eatK h w2 hf2 hk2
    replace h : K (sym .LParen ⬝ q.lang fns clean ⬝ sym .RParen ◃ z) _ := h
    eatS h s
    split_ h h1 k1 k2
    eatS h s'
    refine ((hq _ h1).mono fun m hm => ?_).succ
    intro b rest hf' hr
    have h1 := fun b => hm b (.sym .RParen s' :: rest) (by nxt)
    simp [Expr.erase, zx, prefixF, parseNot, parseExistsExpression, h1, hf, hk, hf2]
  | false =>
    replace h : K (unset x ⬝ _) ks := h
    replace h := h.skip.2
    eatK h w2 hf2 hk2
    replace h : K (sym .LParen ⬝ q.lang fns clean ⬝ sym .RParen ◃ z) _ := h
    eatS h s
    split_ h h1 k1 k2
    eatS h s'
    refine ((hq _ h1).mono fun m hm => ?_).succ
    intro b rest hf' hr
    have h1 := fun b => hm b (.sym .RParen s' :: rest) (by nxt)
    simp [Expr.erase, zx, prefixF, parseNot, parseExistsExpression, h1, hf2, hk2]

theorem read_unary {e : Expr} {op : Operator} {p : Pos} (hw : (Expr.unary p op e).shape freeWord = true)
    (he : ∀ ks, K (e.lang fns clean) ks → ReadsF fns e ks)
    (h : K (Expr.lang fns clean (.unary p op e)) ks) : ReadsP fns (.unary p op e) ks := by
  obtain ⟨ty, p1, p2⟩ := op
  simp only [Expr.shape, Bool.and_eq_true] at hw
  obtain ⟨hw, ho⟩ := hw
  simp only [Expr.lang] at h
  split_ h h1 k1 k2
  drop_ h with hc
  replace hc := clean_odd hc
  refine ((he _ h).mono fun m hm => ?_).succ
  intro b rest hf hr
  simp only [Expr.rp] at hr
  cases ty <;> simp only [Bool.false_eq_true, Bool.and_eq_true, decide_eq_true_eq, Bool.not_eq_true'] at ho
  case Plus =>
    simp only [OpType.prefixLevel] at hr
    simp only [unaryOp] at h1
    eatS h1 s
    have h1 := fun b => hm 30 b rest ho (by omega) hf (by omega) (by omega)
    have e1 : getPrecedence (zt (.sym .Plus s)) = 30 := rfl
    have e2 : (zt (.sym .Plus s)).tok = .sym .Plus s := rfl
    simp [Expr.erase, Operator.erase, zx, prefixF, e1, e2, h1]
  case Minus =>
    simp only [OpType.prefixLevel] at hr
    simp only [unaryOp] at h1
    eatS h1 s
    have h1 := fun b => hm 30 b rest ho (by omega) hf (by omega) (by omega)
    have e1 : getPrecedence (zt (.sym .Minus s)) = 30 := rfl
    have e2 : (zt (.sym .Minus s)).tok = .sym .Minus s := rfl
    simp [Expr.erase, Operator.erase, zx, prefixF, e1, e2, h1]
  case Not =>
    simp only [OpType.prefixLevel] at hr
    simp only [unaryOp] at h1
    eatK h1 w hf1 hk1
    drop_ h1 with -
    have h1 := fun b => hm 15 b rest ho.1 (by omega) hf (by omega) (by omega)
    have hs := hdE hw h rest
    have hs1 := hs.2 (by simpa using hc)
    have hs2 := (startE_facts hs.1).1
    simp [Expr.erase, Operator.erase, zx, prefixF, parseNot, h1, hs1, hs2, hk1]

/-! ### CASE -/

theorem read_caseLoop {cs rs : List Expr} (hcs : ∀ e ∈ cs, AllE fns e) (hrs : ∀ e ∈ rs, AllE fns e) (hne : cs ≠ [])
    (h : K (whens (Expr.langs fns clean cs) (Expr.langs fns clean rs)) ks) :
    ∃ w tl, ks = .word w :: tl ∧ fk (.word w) = .kw .WHEN ∧
    Ev fun m => Parses (Parsers.at fns m).caseLoop tl
      (Expr.erases cs, Expr.erases rs) (fun f => fX f && f != .kw .WHEN) := by
  induction cs generalizing rs ks with
  | nil => exact absurd rfl hne
  | cons c cs ih =>
    cases rs with
    | nil => simp only [Expr.langs, whens] at h; exact h.never.elim
    | cons r rs =>
      simp only [Expr.langs, whens] at h
      eatK h w hf hk
      split_ h h1 k1 k2
      eatK h w2 hf2 hk2
      split_ h h2 k2 k3
      refine ⟨w, _, rfl, hf, ?_⟩
      have hc := hcs c (by simp) _ h1
      have hr := hrs r (by simp) _ h2
      cases cs with
      | nil =>
        cases rs with
        | cons r' rs => simp only [Expr.langs, whens] at h; exact h.never.elim
        | nil =>
          simp only [Expr.langs, whens] at h
          drop_ h with -
          refine ((hc.and hr).mono fun m hm => ?_).succ
          intro b rest hf'
          simp only [Bool.and_eq_true, bne_iff_ne] at hf'
          have ho := fE_odd (fX_facts hf'.1).1
          have h1 := fun b rest => hm.1 b (.word w2 :: rest) (by nxt)
          have h2 := fun b => hm.2 b rest hf'.1
          simp [Expr.erases, zx, caseLoopF, parseExpr, h1, h2, hf'.2, ho, hf2]
      | cons c' cs =>
        obtain ⟨w3, tl, rfl, hf3, hl⟩ := ih (fun e he => hcs e (by simp [he])) (fun e he => hrs e (by simp [he])) (by simp) h
        refine (((hc.and hr).and hl).mono fun m hm => ?_).succ
        intro b rest hf'
        have h1 := fun b rest => hm.1.1 b (.word w2 :: rest) (by nxt)
        have h2 := fun b rest => hm.1.2 b (.word w3 :: rest) (by nxt)
        have h3 := fun b => hm.2 b rest hf'
        simp only [Expr.erases] at h3 ⊢
        simp [zx, caseLoopF, parseExpr, h1, h2, h3, hf2, hf3]

theorem read_case {operand else_ : Option Expr} {conds results : List Expr} {p q : Pos} (hne : conds ≠ [])
    (hc : ∀ e ∈ conds, AllE fns e) (hr : ∀ e ∈ results, AllE fns e)
    (ho : ∀ e, operand = some e → AllE fns e ∧ e.shape freeWord = true) (he : ∀ e, else_ = some e → AllE fns e)
    (h : K (Expr.lang fns clean (.caseExpr p q operand conds results else_)) ks) :
    ReadsP fns (.caseExpr p q operand conds results else_) ks := by
  simp only [Expr.lang] at h
  eatK h w hf hk
  split_ h h1 k1 k2
  split_ h h2 k2 k3
  split_ h h3 k3 k4
  eatK h w' hf' hk'
  obtain ⟨w2, tl, rfl, hf2, hl⟩ := read_caseLoop hc hr hne h2
  have e1 : Ev fun m => (operand = none ∧ k1 = []) ∨ ∃ e, operand = some e ∧ Parses ((Parsers.at fns m).subexpr 0) k1 e.erase fX ∧
      ∀ rest, hd (k1 ++ rest) ≠ .kw .WHEN ∧ hd (k1 ++ rest) ≠ .odd := by
    cases operand with
    | none => exact Ev.of fun m => .inl ⟨rfl, (K.nil (a := eps) (by simpa only [Expr.langO, Spec.optional, id] using h1)).1⟩
    | some e =>
      have h1 : K (e.lang fns clean) k1 := by simpa only [Expr.langO, Spec.optional, id] using h1
      refine ((ho e rfl).1 _ h1).mono fun m hm => .inr ⟨e, rfl, hm, fun rest => ?_⟩
      have := startE_facts (hdE (ho e rfl).2 h1 rest).1
      exact ⟨this.2.2.2.2.1, this.1⟩
  have e2 : Ev fun m => (else_ = none ∧ k3 = []) ∨ ∃ e w vs, else_ = some e ∧ k3 = .word w :: vs ∧ fk (.word w) = .kw .ELSE ∧
      Parses ((Parsers.at fns m).subexpr 0) vs e.erase fX := by
    cases else_ with
    | none => exact Ev.of fun m => .inl ⟨rfl, (K.nil (a := eps) (by simpa only [Expr.langO, Spec.optional] using h3)).1⟩
    | some e =>
      replace h3 : K (kwd .ELSE ⬝ e.lang fns clean) k3 := by simpa only [Expr.langO, Spec.optional] using h3
      eatK h3 w hf hk
      exact (he e rfl _ h3).mono fun m hm => .inr ⟨e, w, _, rfl, rfl, hf, hm⟩
  refine (((e1.and e2).and hl).mono fun m hm => ?_).succ
  intro b rest hf3 hrr
  obtain ⟨⟨e1, e2⟩, hl⟩ := hm
  rw [Expr.erase]
  rcases e1 with ⟨rfl, rfl⟩ | ⟨o, rfl, g4, g5⟩
  · rcases e2 with ⟨rfl, rfl⟩ | ⟨e, w4, vs, rfl, rfl, hf4, g3⟩
    · have g1 := fun b rest => hl b (.word w' :: rest) (by nxt)
      simp [Expr.eraseOpt, zx, prefixF, parseCaseExpression, parseExpr, g1, hk, hf, hf', hf2]
    · have g1 := fun b rest => hl b (.word w4 :: rest) (by nxt)
      have g2 := fun b rest => g3 b (.word w' :: rest) (by nxt)
      simp [Expr.eraseOpt, zx, prefixF, parseCaseExpression, parseExpr, g1, g2, hk, hf, hf', hf2, hf4]
  · have g6 := fun b rest => g4 b (.word w2 :: rest) (by nxt)
    rcases e2 with ⟨rfl, rfl⟩ | ⟨e, w4, vs, rfl, rfl, hf4, g3⟩
    · have g1 := fun b rest => hl b (.word w' :: rest) (by nxt)
      simp [Expr.eraseOpt, zx, prefixF, parseCaseExpression, parseExpr, g1, hk, hf, hf', hf2, g5, g6]
    · have g1 := fun b rest => hl b (.word w4 :: rest) (by nxt)
      have g2 := fun b rest => g3 b (.word w' :: rest) (by nxt)
      simp [Expr.eraseOpt, zx, prefixF, parseCaseExpression, parseExpr, g1, g2, hk, hf, hf', hf2, hf4, g5, g6]

/-! ### Infix and postfix operators -/

/-- `parseInfix`, called with the binding strength `k` of the tokens `ops`, makes `e` of `x`. -/
def ReadsI (fns : FloatFns) (x e : Expr) (k : Nat) (ops : List Tok) : Prop :=
  Ev fun m => ∀ (b : List Token) (rest : List Tok), fE (hd rest) = true → prec (hd rest) ≤ e.rp →
    (parseInfix (Parsers.at fns m) x.erase k).runZ b (Z (ops ++ rest)) = .ok e.erase (R ops b, Z rest)

theorem infix_S' {x e : Expr} {k : Nat} {t : Tok} {ops kx : List Tok} (hx : ReadsS fns x kx)
    (hf : fE (fk t) = true) (hk : prec (fk t) = k)
    (hl : ∀ p, p < e.lp → p ≤ 40 → p < k ∧ p < x.lp) (hr : k ≤ x.rp) (hi : ReadsI fns x e k (t :: ops)) :
    ReadsS fns e (kx ++ t :: ops) := by
  obtain ⟨c, hx⟩ := hx
  refine ⟨1 + c, ((hx.add 1).and hi).mono fun m hm => ?_⟩
  intro p b rest hp hp' hfr hrr
  obtain ⟨h1, h2⟩ := hm
  have e1 : m + 1 + c = m + (1 + c) := by omega
  obtain ⟨hpk, hpx⟩ := hl p hp hp'
  rw [List.append_assoc, ← e1, h1 p b (t :: ops ++ rest) hpx hp' hf (by rw [List.cons_append, hd_cons, hk]; exact hr)]
  have h3 := fun b => h2 b rest hfr hrr
  simp only [List.cons_append, zx] at h3
  simp [zx, subexprLoopF, fE_odd hf, hk, h3, show ¬ k ≤ p by omega]

theorem infix_D' {x e : Expr} {k : Nat} {t : Tok} {ops kx : List Tok} (hx : ReadsD fns x kx)
    (hf : fE (fk t) = true) (hk : prec (fk t) = k) (h0 : 0 < k)
    (hn : fk t ≠ .kw .NOT) (hr : k ≤ x.rp) (hi : ReadsI fns x e k (t :: ops)) : ReadsD fns e (kx ++ t :: ops) := by
  obtain ⟨c, hx⟩ := hx
  refine ⟨1 + c, ((hx.add 1).and hi).mono fun m hm => ?_⟩
  intro b rest hfr hrr
  obtain ⟨h1, h2⟩ := hm
  have e1 : m + 1 + c = m + (1 + c) := by omega
  rw [List.append_assoc, ← e1, h1 b (t :: ops ++ rest) hf (by rw [List.cons_append, hd_cons, hk]; exact hr)]
  have h3 := fun b => h2 b rest hfr hrr
  simp only [List.cons_append, zx] at h3
  have ho := fE_odd hf
  have hj : (zt t).kw? ≠ some .NOT ∧ (zt t).kw? ≠ some .NULL := by
    rcases kw?_fk (t := t) with h | ⟨j, h, h' | h'⟩
    · rw [h]; simp
    · rw [h]
      refine ⟨fun e => ?_, fun e => ?_⟩
      · cases e; exact hn h'
      · cases e; rw [h'] at hk; simp [prec] at hk; omega
    · exact absurd h' ho
  have h0' : ¬ k = 0 := by omega
  simp only [List.cons_append, zx, at_defaultLoop, defaultLoopF, Option.bind_some]
  split
  · next h => exact absurd h hj.1
  · next h => exact absurd h hj.2
  · simp [zx, ho, hk, h3, h0']

theorem infix_A' {x e : Expr} {k : Nat} {t : Tok} {ops kx : List Tok} (hx : ReadsA fns x kx)
    (hf : fE (fk t) = true) (hk : prec (fk t) = k) (h0 : 0 < k)
    (hn : e.defaultOK = true → fk t ≠ .kw .NOT ∧ x.defaultOK = true) (hp : e.isPrefix = false ∨ e.isColonCast = true)
    (hl : ∀ p, p < e.lp → p ≤ 40 → p < k ∧ p < x.lp) (hr : k ≤ x.rp) (hi : ReadsI fns x e k (t :: ops)) :
    ReadsA fns e (kx ++ t :: ops) :=
  ⟨infix_S' hx.sub hf hk hl hr hi, fun h => infix_D' (hx.dflt (hn h).2) hf hk h0 (hn h).1 hr hi,
    fun h h' => by rcases hp with hp | hp <;> simp_all⟩

theorem read_binary {l r : Expr} {op : Operator} (hw : (Expr.binary l op r).shape freeWord = true) (hl : AllA fns l)
    (hr : ∀ ks, K (r.lang fns clean) ks → ReadsF fns r ks) : AllA fns (.binary l op r) := by
  intro ks h
  simp only [Expr.shape, Bool.and_eq_true, decide_eq_true_eq] at hw
  obtain ⟨⟨⟨⟨h1, h2⟩, h3⟩, h4⟩, h5⟩ := hw
  obtain ⟨ty, p1, p2⟩ := op
  simp only at h3 h4 h5
  simp only [Expr.lang] at h
  split_ h hl' kx k2
  replace hl := hl _ hl'
  have hlp : ∀ p, p < (Expr.binary l ⟨ty, p1, p2⟩ r).lp → p ≤ 40 → p < ty.level ∧ p < l.lp := by
    intro p hp _
    simp only [Expr.lp] at hp
    omega
  split_ h ho k2 k3
  cases ty
  case Not => cases h3
  case None => cases h3
  case NotLike =>
    simp only [binaryOp] at ho
    eatK ho w hf hk
    eatK ho w2 hf2 hk2
    refine infix_A' hl (by nxt) (by nxt) h3 (fun h => by simp [Expr.defaultOK] at h) (.inl rfl) hlp h4 ?_
    refine (hr _ h).mono fun m hm => ?_
    intro b rest hf hrr
    simp only [Expr.rp] at hrr
    have h6 := fun b => hm _ b rest h5 (by decide) hf (by omega) (by omega)
    simp only [OpType.level] at h6
    simp [OpType.level, Expr.erase, Operator.erase, zx, parseInfix, infixOp, symOp, h6, hk, hf2]
  case And | Or | Like =>
    simp only [binaryOp] at ho
    eatK ho w hf hk
    refine infix_A' hl (by nxt) (by nxt) h3 (fun h => ⟨by simp [hf], by simpa [Expr.defaultOK] using h⟩) (.inl rfl) hlp h4 ?_
    refine (hr _ h).mono fun m hm => ?_
    intro b rest hf hrr
    simp only [Expr.rp] at hrr
    have h6 := fun b => hm _ b rest h5 (by decide) hf (by omega) (by omega)
    simp only [OpType.level] at h6
    simp [OpType.level, Expr.erase, Operator.erase, zx, parseInfix, infixOp, symOp, h6, hk]
  all_goals
    simp only [binaryOp] at ho
    eatS ho s
    refine infix_A' hl (by nxt) (by nxt) h3 (fun h => ⟨by simp [zx], by simpa [Expr.defaultOK] using h⟩) (.inl rfl) hlp h4 ?_
    refine (hr _ h).mono fun m hm => ?_
    intro b rest hf hrr
    simp only [Expr.rp] at hrr
    have h6 := fun b => hm _ b rest h5 (by decide) hf (by omega) (by omega)
    simp only [OpType.level] at h6
    have e1 : ∀ k, (zt (.sym k s)).tok = .sym k s := fun _ => rfl
    simp [OpType.level, Expr.erase, Operator.erase, zx, parseInfix, infixOp, symOp, h6, e1]

theorem read_isNull {x : Expr} (hw : (Expr.isNull x).shape freeWord = true) (hx : AllA fns x) : AllA fns (.isNull x) := by
  intro ks h
  simp only [Expr.shape, Bool.and_eq_true, decide_eq_true_eq] at hw
  simp only [Expr.lang] at h
  split_ h hl kx k2
  eatK h w hf hk
  eatK h w2 hf2 hk2
  refine infix_A' (k := 17) (hx _ hl) (by nxt) (by nxt) (by decide) (fun h => ⟨by simp [hf], h⟩) (.inl rfl)
    (fun p hp _ => by simp only [Expr.lp] at hp; omega) hw.2 ?_
  refine Ev.of fun m => ?_
  intro b rest hf' hr
  simp [Expr.erase, zx, parseInfix, infixOp, hk, hf2]

theorem read_isNotNull {x : Expr} (hw : (Expr.isNotNull x).shape freeWord = true) (hx : AllA fns x) : AllA fns (.isNotNull x) := by
  intro ks h
  simp only [Expr.shape, Bool.and_eq_true, decide_eq_true_eq] at hw
  simp only [Expr.lang] at h
  split_ h hl kx k2
  eatK h w hf hk
  eatK h w2 hf2 hk2
  eatK h w3 hf3 hk3
  refine infix_A' (k := 17) (hx _ hl) (by nxt) (by nxt) (by decide) (fun h => ⟨by simp [hf], h⟩) (.inl rfl)
    (fun p hp _ => by simp only [Expr.lp] at hp; omega) hw.2 ?_
  refine Ev.of fun m => ?_
  intro b rest hf' hr
  simp [Expr.erase, zx, parseInfix, infixOp, hk, hf2, hf3]

/-- The optional NOT before IN and BETWEEN. -/
theorem infix_not {x e : Expr} {neg : Bool} {k : KW} {kx kn : List Tok} {w : SQLWord} {ops : List Tok}
    (hx : ReadsA fns x kx) (hn : K (flag neg (kwd .NOT)) kn) (hf : fk (.word w) = .kw k) (hk : k = .IN ∨ k = .BETWEEN)
    (hd : e.defaultOK = true → neg = false ∧ x.defaultOK = true) (hp : e.isPrefix = false) (hl : e.lp = min (inLevel neg) x.lp)
    (hr : inLevel neg ≤ x.rp) (hi : ReadsI fns x e (inLevel neg) (kn ++ .word w :: ops)) :
    ReadsA fns e (kx ++ (kn ++ .word w :: ops)) := by
  rcases flag_K hn with ⟨rfl, rfl⟩ | ⟨w2, rfl, rfl, hf2, hk2⟩
  · refine infix_A' (k := 20) hx ?_ ?_ (by decide) (fun h => ⟨?_, (hd h).2⟩) (.inl hp) ?_ hr hi
    · rw [hf]; rcases hk with rfl | rfl <;> rfl
    · rw [hf]; rcases hk with rfl | rfl <;> rfl
    · rw [hf]; rcases hk with rfl | rfl <;> simp
    · intro p hp' _; rw [hl] at hp'; simp only [inLevel] at hp'; simp at hp'; omega
  · refine infix_A' (k := 15) hx (by nxt) (by nxt) (by decide) (fun h => by simpa using (hd h).1) (.inl hp) ?_ hr hi
    intro p hp' _; rw [hl] at hp'; simp only [inLevel] at hp'; simp at hp'; omega

theorem read_inList {x : Expr} {l : List Expr} {neg : Bool} {p : Pos} (hw : (Expr.inList x l neg p).shape freeWord = true)
    (hx : AllA fns x) (hl : ∀ e ∈ l, AllE fns e) : AllA fns (.inList x l neg p) := by
  intro ks h
  simp only [Expr.shape, Bool.and_eq_true, decide_eq_true_eq, Bool.not_eq_true', List.isEmpty_eq_false_iff] at hw
  obtain ⟨⟨⟨h1, h2⟩, h3⟩, h4⟩ := hw
  simp only [Expr.lang] at h
  split_ h hl' kx k2
  split_ h hn kn k3
  eatK h w hf hk
  replace h : K (sym .LParen ⬝ sepBy .Comma (Expr.langs fns clean l) ⬝ sym .RParen ◃ p) _ := h
  eatS h s
  split_ h h5 k4 k5
  eatS h s'
  refine infix_not (hx _ hl') hn hf (.inl rfl) (fun h => by simpa [Expr.defaultOK, and_comm] using h) rfl rfl h2 ?_
  refine (read_exprList hl h5).mono fun m hm => ?_
  intro b rest hf' hr
  have g5 := fun b => hm b (.sym .RParen s' :: rest) (by nxt)
  have := startE_facts (hdL h4 h5 (.sym .RParen s' :: rest))
  rcases flag_K hn with ⟨rfl, rfl⟩ | ⟨w2, rfl, rfl, hf2, hk2⟩
  · simp [Expr.erase, zx, parseInfix, infixOp, parseNotInBetween, parseIn, g5, this, hk, hf]
  · simp [Expr.erase, zx, parseInfix, infixOp, parseNotInBetween, parseIn, g5, this, hk, hf, hk2, hf2]

theorem read_inSubQuery {x : Expr} {q : QueryStmt} {neg : Bool} {p : Pos} (hw : (Expr.inSubQuery x q neg p).shape freeWord = true)
    (hx : AllA fns x) (hq : AllQ fns q) : AllA fns (.inSubQuery x q neg p) := by
  intro ks h
  simp only [Expr.shape, Bool.and_eq_true, decide_eq_true_eq] at hw
  obtain ⟨⟨⟨h1, h2⟩, h3⟩, h4⟩ := hw
  simp only [Expr.lang] at h
  split_ h hl' kx k2
  split_ h hn kn k3
  eatK h w hf hk
  refine infix_not (hx _ hl') hn hf (.inl rfl) (fun h => by simpa [Expr.defaultOK, and_comm] using h) rfl rfl h2 ?_
  obtain ⟨s, s', w', tl, rfl, ⟨hr, hh⟩ | ⟨w'', tl', rfl, hf', hf'', hr⟩⟩ := read_subqueryLang h3 h4 hq h
  · refine hr.mono fun m hm => ?_
    intro b rest hff hr
    have h1 := fun b => hm b (.sym .RParen s' :: rest) (by nxt)
    simp only [List.cons_append, zx] at h1
    have ht := fun (ht : ∀ rest, hd (tl ++ rest) ≠ .kw .WITH ∧ hd (tl ++ rest) ≠ .odd) => ht (.sym .RParen s' :: rest)
    rcases flag_K hn with ⟨rfl, rfl⟩ | ⟨w2, rfl, rfl, hf2, hk2⟩ <;> rcases hh with hk' | ⟨hk', ht'⟩
    · simp [Expr.erase, zx, parseInfix, infixOp, parseNotInBetween, parseIn, h1, hk, hf, hk']
    · simp [Expr.erase, zx, parseInfix, infixOp, parseNotInBetween, parseIn, h1, hk, hf, hk', ht ht']
    · simp [Expr.erase, zx, parseInfix, infixOp, parseNotInBetween, parseIn, h1, hk, hf, hk', hk2, hf2]
    · simp [Expr.erase, zx, parseInfix, infixOp, parseNotInBetween, parseIn, h1, hk, hf, hk', hk2, hf2, ht ht']
  · refine hr.mono fun m hm => ?_
    intro b rest hff hr
    have h1 := fun b => hm b (.sym .RParen s' :: rest) (by nxt)
    simp only [List.cons_append, zx] at h1
    rcases flag_K hn with ⟨rfl, rfl⟩ | ⟨w2, rfl, rfl, hf2, hk2⟩
    · simp [Expr.erase, zx, parseInfix, infixOp, parseNotInBetween, parseIn, h1, hk, hf, hf', hf'']
    · simp [Expr.erase, zx, parseInfix, infixOp, parseNotInBetween, parseIn, h1, hk, hf, hf', hf'', hk2, hf2]

theorem read_between {x low high : Expr} {neg : Bool} (hw : (Expr.between x neg low high).shape freeWord = true)
    (hx : AllA fns x) (hlo : AllA fns low) (hhi : AllA fns high) : AllA fns (.between x neg low high) := by
  intro ks h
  simp only [Expr.shape, Bool.and_eq_true, decide_eq_true_eq] at hw
  obtain ⟨⟨⟨⟨⟨⟨h1, h2⟩, h3⟩, h4⟩, h5⟩, h6⟩, h7⟩ := hw
  simp only [Expr.lang] at h
  split_ h hl' kx k2
  split_ h hn kn k3
  eatK h w hf hk
  split_ h hlo' k4 k5
  eatK h w2 hf2 hk2
  drop_ h with hc
  replace hc := clean_odd hc
  refine infix_not (hx _ hl') hn hf (.inr rfl) (fun h => by simpa [Expr.defaultOK, and_comm] using h) rfl rfl h2 ?_
  refine (((hlo _ hlo').pre h4 hc.1).and ((hhi _ h).pre h7 hc.2)).mono fun m hm => ?_
  intro b rest hff hr
  simp only [Expr.rp] at hr
  have g1 := fun b rest => hm.1 b (.word w2 :: rest) (by nxt) (by simpa [zx, prec, hf2] using h5)
  have g2 := fun b => hm.2 b rest hff hr
  rcases flag_K hn with ⟨rfl, rfl⟩ | ⟨w2, rfl, rfl, hf3, hk3⟩
  · simp [Expr.erase, zx, parseInfix, infixOp, parseNotInBetween, parseBetween, g1, g2, hk, hf, hf2]
  · simp [Expr.erase, zx, parseInfix, infixOp, parseNotInBetween, parseBetween, g1, g2, hk, hf, hf2, hk3, hf3]

theorem defaultOK_of_lp {e : Expr} (h : colonLevel ≤ e.lp) (hs : e.shape freeWord = true) : e.defaultOK = true := by
  unfold colonLevel at h
  cases e with
  | binary l op r =>
    obtain ⟨ty, p, q⟩ := op
    simp only [Expr.lp] at h
    have : ty.level ≤ 40 := by cases ty <;> decide
    omega
  | isNull x => simp only [Expr.lp] at h; omega
  | isNotNull x => simp only [Expr.lp] at h; omega
  | inList x l neg p => simp only [Expr.lp] at h; cases neg <;> simp only [inLevel] at h <;> simp at h <;> omega
  | inSubQuery x l neg p => simp only [Expr.lp] at h; cases neg <;> simp only [inLevel] at h <;> simp at h <;> omega
  | between x neg _ _ => simp only [Expr.lp] at h; cases neg <;> simp only [inLevel] at h <;> simp at h <;> omega
  | _ => rfl

theorem read_castA {x : Expr} {ty : DataType} {c rp : Pos} (hw : (Expr.cast x ty c rp).shape freeWord = true)
    (hx : AllA fns x) : AllA fns (.cast x ty c rp) := by
  intro ks h
  simp only [Expr.shape, Bool.and_eq_true] at hw
  simp only [Expr.lang] at h
  alt_ h
  · exact (read_cast (hx.expr hw.1) hw.2 h).all
  · split_ h hl kx k2
    eatS h s
    split_ h ht k3 k4
    drop_ h with ⟨⟨rfl, rfl⟩, hc⟩
    obtain ⟨h1, h2⟩ := clean_odd hc
    have h1' : 50 ≤ x.lp := h1
    simp only [List.append_nil]
    refine infix_A' (k := 50) (hx _ hl) (by nxt) (by nxt) (by decide) (fun h => ⟨by simp [zx], defaultOK_of_lp h1 hw.1⟩)
      (.inr rfl) (fun p hp hp' => by omega) h2 ?_
    refine (read_dataType (fns := fns) hw.2 ht).mono fun m hm => ?_
    intro b rest hff hr
    have := fun b => hm b rest (fE_facts hff).1
    have e1 : (zt (.sym .DoubleColon s)).tok = .sym .DoubleColon s := rfl
    simp [Expr.erase, zx, parseInfix, infixOp, symOp, this, e1]

end Verif
