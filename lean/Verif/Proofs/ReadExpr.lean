import Verif.Proofs.ReadNames
import Verif.Proofs.ParseExpr
/-
Completeness of the grammar: reading expressions, one lemma per construct, assuming that the parts are read.
-/
set_option linter.unusedSimpArgs false
namespace Verif
open Spec

/-- What may follow an expression without extending its last name, call or type. -/
def fE (f : Fk) : Bool := folT f && folE f
/-- What may follow a complete expression. -/
def fX (f : Fk) : Bool := fE f && prec f == 0
/-- What may follow a list of expressions. -/
def fL (f : Fk) : Bool := fX f && f != .sym .Comma

theorem fE_facts {f : Fk} (h : fE f = true) : folT f = true ∧ folE f = true := by simpa [fE] using h
theorem fX_facts {f : Fk} (h : fX f = true) : fE f = true ∧ prec f = 0 := by simpa [fX] using h
theorem fL_facts {f : Fk} (h : fL f = true) : fX f = true ∧ f ≠ .sym .Comma := by simpa [fL] using h
theorem fX_free {f : Fk} (h : f.free = true) : fX f = true := by
  cases f with
  | kw k => cases k <;> first | rfl | cases h
  | id => rfl
  | _ => cases h
theorem fE_odd {f : Fk} (h : fE f = true) : f ≠ .odd := (folE_facts (fE_facts h).2).1
theorem fE_eof {f : Fk} (h : fE f = true) : f ≠ .eof := (folT_facts (fE_facts h).1).1

/-- Decides what the class of the next token is. -/
macro "nxt" : tactic => `(tactic| first
  | rfl
  | (simp only [hd_cons, List.cons_append, List.nil_append, fk_sym, *]; first | rfl | decide))

/-- `subexpr` reads the expression and continues with the loop. -/
def ReadsS (fns : FloatFns) (e : Expr) (ks : List Tok) : Prop :=
  ∃ c, Ev fun m => ∀ (p : Nat) (b : List Token) (rest : List Tok), p < e.lp → p ≤ 40 → fE (hd rest) = true →
    prec (hd rest) ≤ e.rp →
    ((Parsers.at fns (m + c)).subexpr p).runZ b (Z (ks ++ rest)) =
      ((Parsers.at fns m).subexprLoop p e.erase).runZ (R ks b) (Z rest)

/-- `parsePrefix` reads the expression. -/
def ReadsP (fns : FloatFns) (e : Expr) (ks : List Tok) : Prop :=
  Ev fun m => ∀ (b : List Token) (rest : List Tok), fE (hd rest) = true → prec (hd rest) ≤ e.rp →
    (Parsers.at fns m).prefix_.runZ b (Z (ks ++ rest)) = .ok e.erase (R ks b, Z rest)

/-- `subexpr` reads exactly the expression. -/
def ReadsF (fns : FloatFns) (e : Expr) (ks : List Tok) : Prop :=
  Ev fun m => ∀ (p : Nat) (b : List Token) (rest : List Tok), p < e.lp → p ≤ 40 → fE (hd rest) = true →
    prec (hd rest) ≤ e.rp → prec (hd rest) ≤ p →
    ((Parsers.at fns m).subexpr p).runZ b (Z (ks ++ rest)) = .ok e.erase (R ks b, Z rest)

/-- `ParseExpr` reads exactly the expression. -/
def ReadsE (fns : FloatFns) (e : Expr) (ks : List Tok) : Prop :=
  Ev fun m => Parses ((Parsers.at fns m).subexpr 0) ks e.erase fX

def ReadsL (fns : FloatFns) (es : List Expr) (ks : List Tok) : Prop :=
  Ev fun m => Parses (Parsers.at fns m).exprList ks (Expr.erases es) fL

def ReadsQ (fns : FloatFns) (q : QueryStmt) (ks : List Tok) : Prop :=
  Ev fun m => Parses (Parsers.at fns m).query ks q.erase (folQ q.edge)

/-- `parseDefaultExpr` reads the expression and continues with its loop. -/
def ReadsD (fns : FloatFns) (e : Expr) (ks : List Tok) : Prop :=
  ∃ c, Ev fun m => ∀ (b : List Token) (rest : List Tok), fE (hd rest) = true → prec (hd rest) ≤ e.rp →
    (parseDefaultExpr (Parsers.at fns (m + c))).runZ b (Z (ks ++ rest)) =
      ((Parsers.at fns m).defaultLoop e.erase).runZ (R ks b) (Z rest)

/-- How the parser reads an expression in each of the three contexts. -/
structure ReadsA (fns : FloatFns) (e : Expr) (ks : List Tok) : Prop where
  sub : ReadsS fns e ks
  dflt : e.defaultOK = true → ReadsD fns e ks
  pre : e.isPrefix = true → e.isColonCast = false → ReadsP fns e ks

/-- All sentences of the expression are read. -/
def AllE (fns : FloatFns) (e : Expr) : Prop := ∀ ks, K (e.lang fns clean) ks → ReadsE fns e ks
def AllA (fns : FloatFns) (e : Expr) : Prop := ∀ ks, K (e.lang fns clean) ks → ReadsA fns e ks
def AllQ (fns : FloatFns) (q : QueryStmt) : Prop := ∀ ks, K (q.lang fns clean) ks → ReadsQ fns q ks

variable {fns : FloatFns} {ks : List Tok}

theorem ReadsS.full {e : Expr} (h : ReadsS fns e ks) : ReadsF fns e ks := by
  obtain ⟨c, n, hn⟩ := h
  refine ⟨n + 1 + c, fun m hm => ?_⟩
  obtain ⟨k, rfl⟩ : ∃ k, m = (k + 1) + c := ⟨m - 1 - c, by omega⟩
  intro p b rest hp hp' hf hr hq
  rw [hn (k + 1) (by omega) p b rest hp hp' hf hr]
  simp [zx, subexprLoopF, fE_odd hf, hq]

theorem lp_pos' {I : Str → Bool} {e : Expr} (h : e.shape I = true) : 0 < e.lp := by
  have key : ∀ b, 0 < inLevel b := by intro b; cases b <;> decide
  match e with
  | .binary l op r =>
    simp only [Expr.shape, Bool.and_eq_true, decide_eq_true_eq] at h
    have := lp_pos' (e := l) h.1.1.1.1
    have := h.1.1.2
    simp only [Expr.lp]; omega
  | .isNull x =>
    simp only [Expr.shape, Bool.and_eq_true, decide_eq_true_eq] at h
    have := lp_pos' (e := x) h.1
    simp only [Expr.lp]; omega
  | .isNotNull x =>
    simp only [Expr.shape, Bool.and_eq_true, decide_eq_true_eq] at h
    have := lp_pos' (e := x) h.1
    simp only [Expr.lp]; omega
  | .inList x l neg p =>
    simp only [Expr.shape, Bool.and_eq_true, decide_eq_true_eq] at h
    have := lp_pos' (e := x) h.1.1.1
    have := key neg
    simp only [Expr.lp]; omega
  | .inSubQuery x q neg p =>
    simp only [Expr.shape, Bool.and_eq_true, decide_eq_true_eq] at h
    have := lp_pos' (e := x) h.1.1.1
    have := key neg
    simp only [Expr.lp]; omega
  | .between x neg low high =>
    simp only [Expr.shape, Bool.and_eq_true, decide_eq_true_eq] at h
    have := lp_pos' (e := x) h.1.1.1.1.1.1
    have := key neg
    simp only [Expr.lp]; omega
  | .ident _ | .wildcard _ | .qualifiedWildcard _ | .compoundIdent _ | .cast _ _ _ _ | .nested _ _ _
  | .unary _ _ _ | .function _ _ _ _ _ | .caseExpr _ _ _ _ _ _ | .exists_ _ _ _ _ _ | .subQuery _ _ _
  | .long _ | .double _ _ _ | .singleQuoted _ _ _ | .national _ _ _ | .boolean _ _ _ | .null _ _
  | .timeValue _ _ _ _ => simp [Expr.lp]

theorem ReadsF.expr {e : Expr} (hw : e.shape freeWord = true) (h : ReadsF fns e ks) : ReadsE fns e ks := by
  refine h.mono fun m hm => ?_
  intro b rest hr
  obtain ⟨h1, h2⟩ := fX_facts hr
  exact hm 0 b rest (lp_pos' hw) (by omega) h1 (by omega) (by omega)

theorem ReadsP.sub {e : Expr} (h : ReadsP fns e ks) : ReadsS fns e ks := by
  refine ⟨1, h.mono fun m hm => ?_⟩
  intro p b rest hp hp' hf hr
  simp [zx, subexprF, hm b rest hf hr]

theorem ReadsP.dflt {e : Expr} (h : ReadsP fns e ks) : ReadsD fns e ks := by
  refine ⟨0, h.mono fun m hm => ?_⟩
  intro b rest hf hr
  simp [zx, parseDefaultExpr, hm b rest hf hr]

theorem ReadsP.all {e : Expr} (h : ReadsP fns e ks) : ReadsA fns e ks := ⟨h.sub, fun _ => h.dflt, fun _ _ => h⟩

theorem AllA.expr {e : Expr} (hw : e.shape freeWord = true) (h : AllA fns e) : AllE fns e :=
  fun ks hk => (h ks hk).sub.full.expr hw

/-! ### Names -/

theorem exprName_idents {is : List Ident} (h : K (exprName is) ks) : K (idents .Period is) ks := by
  have key : ∀ (bad : List KW) (i : Ident) (ts : List Token), word bad i ts → word [] i ts := by
    rintro bad i _ ⟨t, w, rfl, h1, h2, h3, h4, -⟩
    exact ⟨t, w, rfl, h1, h2, h3, h4, by simp⟩
  refine h.mono fun ts h => ?_
  match is with
  | [] => exact h.elim
  | [i] => exact key _ _ _ h
  | i :: j :: is =>
    obtain ⟨u, v, rfl, h1, h2⟩ := h
    exact ⟨u, v, rfl, key _ _ _ h1, h2⟩

/-- The tokens of the further parts of a dotted name. -/
inductive Dots : List Ident → List Tok → Prop
  | nil : Dots [] []
  | cons {i : Ident} {is : List Ident} {s : Str} {w : SQLWord} {tl : List Tok} : Free (fk (.word w)) →
      w.string = i.value → Dots is tl → Dots (i :: is) (.sym .Period s :: .word w :: tl)

theorem idents_dots {i : Ident} {is : List Ident} (hi : freeWord i.value = true) (hs : ∀ j ∈ is, freeWord j.value = true)
    (h : K (idents .Period (i :: is)) ks) : ∃ w tl, ks = .word w :: tl ∧ Free (fk (.word w)) ∧ freeKw (kwOf w.keyword) = true ∧
      w.string = i.value ∧ Dots is tl := by
  induction is generalizing i ks with
  | nil =>
    simp only [idents, List.map_cons, List.map_nil, sepBy] at h
    eatI h hi w hf hk e
    exact ⟨w, [], rfl, hf, hk, e, .nil⟩
  | cons j is ih =>
    simp only [idents, List.map_cons, sepBy] at h
    eatI h hi w hf hk e
    eatS h s
    obtain ⟨w', tl, rfl, hf', hk', e', hd⟩ := ih (hs j (by simp)) (fun j hj => hs j (by simp [hj])) h
    exact ⟨w, _, rfl, hf, hk, e, .cons hf' e' hd⟩

theorem read_idParts {is : List Ident} {tl : List Tok} (h : Dots is tl) :
    Ev fun m => Parses (Parsers.at fns m).idParts tl (is.map Ident.erase, false) (notSym .Period) := by
  induction h with
  | nil =>
    refine (Ev.of fun m => ?_).succ
    intro b rest hr
    simp only [notSym, decide_eq_true_eq] at hr
    simp [zx, idPartsF, hr]
  | cons hf e _ ih =>
    refine (ih.mono fun m hm => ?_).succ
    intro b rest hr
    have := fun b => hm b rest hr
    simp [zx, idPartsF, this, e, Ident.erase]

theorem read_idPartsStar {is : List Ident} {tl : List Tok} (h : Dots is tl) (s s' : Str) :
    Ev fun m => Parses (Parsers.at fns m).idParts (tl ++ [.sym .Period s, .sym .Mult s']) (is.map Ident.erase, true)
      (fun _ => true) := by
  induction h with
  | nil =>
    refine (Ev.of fun m => ?_).succ
    intro b rest hr
    have : (zt (.sym .Mult s')).tok = .sym .Mult s' := rfl
    simp [zx, idPartsF, this]
  | cons hf e _ ih =>
    refine (ih.mono fun m hm => ?_).succ
    intro b rest hr
    have := fun b => hm b rest hr
    simp only [List.append_assoc, List.cons_append, List.nil_append] at this
    simp [zx, idPartsF, this, e, Ident.erase]

theorem read_ident {i : Ident} (hi : freeWord i.value = true) (h : K (Expr.lang fns clean (.ident i)) ks) :
    ReadsP fns (.ident i) ks := by
  simp only [Expr.lang] at h
  eatI h hi w hf hk e
  refine (Ev.of fun m => ?_).succ
  intro b rest hf' hr
  obtain ⟨f1, f2, f3, f4⟩ := folE_facts (fE_facts hf').2
  cases rest with
  | nil => simp [Expr.erase, Ident.erase, zx, prefixF_word (soft_of_free hk), parseName, e]
  | cons t rest =>
    simp only [hd] at f1 f2 f3 f4
    simp [Expr.erase, Ident.erase, zx, prefixF_word (soft_of_free hk), parseName, e, f2, f3]

theorem read_qualifiedWildcard {is : List Ident} (hs : identsShape freeWord is = true)
    (h : K (exprName is ⬝ sym .Period ⬝ sym .Mult) ks) : ReadsP fns (.qualifiedWildcard is) ks := by
  obtain ⟨i, js, rfl, hi, hjs⟩ := identsShape_cons hs
  split_ h hn u v
  eatS h s
  eatS h s'
  obtain ⟨w, tl, rfl, hf, hk, e, hd⟩ := idents_dots hi hjs (exprName_idents hn)
  refine ((read_idPartsStar (fns := fns) hd s s').mono fun m hm => ?_).succ
  intro b rest hf' hr
  have := fun b => hm b rest rfl
  simp only [List.append_assoc, List.cons_append, List.nil_append] at this
  cases hd with
  | nil =>
    simp only [zx, List.cons_append, List.nil_append] at this
    simp [Expr.erase, Ident.erase, zx, prefixF_word (soft_of_free hk), parseName, e, this]
  | cons hf2 e2 hd =>
    simp only [zx, List.cons_append, List.nil_append] at this
    simp [Expr.erase, Ident.erase, zx, prefixF_word (soft_of_free hk), parseName, e, this]

theorem read_compound {is : List Ident} (hs : identsShape freeWord is = true) (h2 : 2 ≤ is.length)
    (h : K (Expr.lang fns clean (.compoundIdent is)) ks) : ReadsP fns (.compoundIdent is) ks := by
  obtain ⟨i, js, rfl, hi, hjs⟩ := identsShape_cons hs
  simp only [Expr.lang] at h
  obtain ⟨w, tl, rfl, hf, hk, e, hd⟩ := idents_dots hi hjs (exprName_idents h.drop.1)
  refine ((read_idParts (fns := fns) hd).mono fun m hm => ?_).succ
  intro b rest hf' hr
  obtain ⟨f1, f2, f3, f4⟩ := folE_facts (fE_facts hf').2
  have := fun b => hm b rest (by simpa [notSym] using f3)
  cases hd with
  | nil => simp at h2
  | cons hf2 e2 hd =>
    simp only [zx, List.cons_append, List.nil_append] at this
    simp [Expr.erase, Ident.erase, zx, prefixF_word (soft_of_free hk), parseName, e, this, f2]

/-! ### First tokens -/

theorem hd_exprName {is : List Ident} (hs : identsShape freeWord is = true) (h : K (exprName is) ks) (rest : List Tok) :
    Free (hd (ks ++ rest)) := by
  obtain ⟨i, js, rfl, hi, hjs⟩ := identsShape_cons hs
  obtain ⟨w, tl, rfl, hf, -⟩ := idents_dots hi hjs (exprName_idents h)
  exact hf

theorem hdE {ks : List Tok} {e : Expr} (hs : e.shape freeWord = true) (h : K (e.lang fns clean) ks) (rest : List Tok) :
    startE (hd (ks ++ rest)) = true ∧ (e.beginsExists = false → hd (ks ++ rest) ≠ .kw .EXISTS) := by
  match e with
  | .binary l op r =>
    simp only [Expr.shape, Bool.and_eq_true, decide_eq_true_eq] at hs
    simp only [Expr.lang] at h
    obtain ⟨u, v, rfl, hl, h'⟩ := K.cat h
    rw [List.append_assoc]
    exact hdE (e := l) hs.1.1.1.1 hl _
  | .isNull x =>
    simp only [Expr.shape, Bool.and_eq_true, decide_eq_true_eq] at hs
    simp only [Expr.lang] at h
    obtain ⟨u, v, rfl, hl, h'⟩ := K.cat h
    rw [List.append_assoc]
    exact hdE (e := x) hs.1 hl _
  | .isNotNull x =>
    simp only [Expr.shape, Bool.and_eq_true, decide_eq_true_eq] at hs
    simp only [Expr.lang] at h
    obtain ⟨u, v, rfl, hl, h'⟩ := K.cat h
    rw [List.append_assoc]
    exact hdE (e := x) hs.1 hl _
  | .inList x l neg p =>
    simp only [Expr.shape, Bool.and_eq_true, decide_eq_true_eq] at hs
    simp only [Expr.lang] at h
    obtain ⟨u, v, rfl, hl, h'⟩ := K.cat h
    rw [List.append_assoc]
    exact hdE (e := x) hs.1.1.1 hl _
  | .inSubQuery x q neg p =>
    simp only [Expr.shape, Bool.and_eq_true, decide_eq_true_eq] at hs
    simp only [Expr.lang] at h
    obtain ⟨u, v, rfl, hl, h'⟩ := K.cat h
    rw [List.append_assoc]
    exact hdE (e := x) hs.1.1.1 hl _
  | .between x neg low high =>
    simp only [Expr.shape, Bool.and_eq_true, decide_eq_true_eq] at hs
    simp only [Expr.lang] at h
    obtain ⟨u, v, rfl, hl, h'⟩ := K.cat h
    rw [List.append_assoc]
    exact hdE (e := x) hs.1.1.1.1.1.1 hl _
  | .cast x ty c rp =>
    simp only [Expr.shape, Bool.and_eq_true, decide_eq_true_eq] at hs
    simp only [Expr.lang] at h
    rcases K.alt h with h1 | h1
    · eatK h1 w hf hk
      simp [zx, hf, startE]
    · obtain ⟨u, v, rfl, hl, h2⟩ := K.cat h1
      obtain ⟨_, v, rfl, ⟨s, rfl⟩, h3⟩ := K.eat h2
      obtain ⟨u', v, rfl, ht, h4⟩ := K.cat h3
      obtain ⟨rfl, ⟨rfl, rfl⟩, -⟩ := K.nil h4
      have := hdE (e := x) hs.1 hl (.sym .DoubleColon s :: (u' ++ rest))
      simp only [List.append_assoc, List.cons_append, List.nil_append, Expr.beginsExists, beq_self_eq_true, Bool.true_and, List.append_nil]
      exact this
  | .ident i =>
    simp only [Expr.shape] at hs
    simp only [Expr.lang] at h
    eatI h hs w hf hk e
    simp [zx, startE_soft hf.2.1]
  | .qualifiedWildcard is =>
    simp only [Expr.shape] at hs
    simp only [Expr.lang] at h
    split_ h hl u v
    rw [List.append_assoc]
    simp [startE_soft (hd_exprName hs hl _).2.1]
  | .compoundIdent is =>
    simp only [Expr.shape, Bool.and_eq_true, decide_eq_true_eq] at hs
    simp only [Expr.lang] at h
    simp [startE_soft (hd_exprName hs.1 h.drop.1 _).2.1]
  | .function name args p over q =>
    simp only [Expr.shape, Bool.and_eq_true, decide_eq_true_eq] at hs
    cases over <;>
    · simp only [Expr.lang] at h
      split_ h hl u v
      rw [List.append_assoc]
      simp [startE_soft (hd_exprName hs.1.1 hl _).2.1]
  | .unary p op e =>
    obtain ⟨ty, p1, p2⟩ := op
    simp only [Expr.lang] at h
    split_ h hl u v
    cases ty <;> simp only [unaryOp] at hl
    case Plus => eatS hl s; simp [zx, startE]
    case Minus => eatS hl s; simp [zx, startE]
    case Not => eatK hl w hf hk; simp [zx, hf, startE]
    all_goals exact hl.never.elim
  | .exists_ neg q p1 p2 p3 =>
    simp only [Expr.lang] at h
    cases neg with
    | true =>
      replace h : K (p1 ▹ kwd .NOT ⬝ _) ks := h
      eatK h w hf hk
      simp [zx, hf, startE]
    | false =>
      replace h : K (unset p1 ⬝ _) ks := h
      replace h := (K.skip h).2
      eatK h w hf hk
      simp [zx, hf, startE, Expr.beginsExists]
  | .boolean p q b =>
    simp only [Expr.lang] at h
    cases b with
    | true => replace h : K (kwd .TRUE) ks := h.spans; eatK h w hf hk; simp [zx, hf, startE]
    | false => replace h : K (kwd .FALSE) ks := h.spans; eatK h w hf hk; simp [zx, hf, startE]
  | .timeValue _ _ _ _ => simp [Expr.shape] at hs
  | .wildcard _ => simp only [Expr.lang] at h; eatS h s; simp [zx, startE]
  | .nested _ _ _ => simp only [Expr.lang] at h; eatS h s; simp [zx, startE]
  | .subQuery _ _ _ =>
    simp only [Expr.lang] at h
    replace h : K (sym .LParen ⬝ _) ks := h.starts
    eatS h s; simp [zx, startE]
  | .caseExpr _ _ _ _ _ _ => simp only [Expr.lang] at h; eatK h w hf hk; simp [zx, hf, startE]
  | .null _ _ => simp only [Expr.lang] at h; eatK h w hf hk; simp [zx, hf, startE]
  | .long _ =>
    simp only [Expr.lang] at h
    obtain ⟨_, ⟨t, s, rfl, ht, -⟩, -, rfl⟩ := h.spans
    simp [ht, hd, fk, startE]
  | .double _ _ _ =>
    simp only [Expr.lang] at h
    obtain ⟨_, ⟨t, s, rfl, ht, -⟩, -, rfl⟩ := h.spans
    simp [ht, hd, fk, startE]
  | .singleQuoted _ _ _ =>
    simp only [Expr.lang] at h
    obtain ⟨_, ⟨t, rfl, ht⟩, -, rfl⟩ := h.spans
    simp [ht, hd, fk, startE]
  | .national _ _ _ =>
    simp only [Expr.lang] at h
    obtain ⟨_, ⟨t, rfl, ht⟩, -, rfl⟩ := h.spans
    simp [ht, hd, fk, startE]

theorem hdL {es : List Expr} (hs : Expr.shapes freeWord es = true) (h : K (sepBy .Comma (Expr.langs fns clean es)) ks)
    (rest : List Tok) : startE (hd (ks ++ rest)) = true := by
  match es with
  | [] => exact h.never.elim
  | [e] =>
    simp only [Expr.shapes, Bool.and_eq_true] at hs
    exact (hdE hs.1 h rest).1
  | e :: e' :: es =>
    simp only [Expr.shapes, Bool.and_eq_true] at hs
    simp only [Expr.langs, sepBy] at h
    split_ h hl u v
    rw [List.append_assoc]
    exact (hdE hs.1 hl _).1

/-! ### Lists -/

theorem read_exprList {es : List Expr} (hall : ∀ e ∈ es, AllE fns e)
    (h : K (sepBy .Comma (Expr.langs fns clean es)) ks) : ReadsL fns es ks := by
  induction es generalizing ks with
  | nil => exact h.never.elim
  | cons e es ih =>
    cases es with
    | nil =>
      simp only [Expr.langs, sepBy] at h
      refine ((hall e (by simp) ks h).mono fun m hm => ?_).succ
      intro b rest hr
      obtain ⟨h1, h2⟩ := fL_facts hr
      have := hm b rest h1
      cases rest with
      | nil =>
        simp only [List.append_nil] at this
        simp [Expr.erases, zx, exprListF, parseExpr, this]
      | cons t rest =>
        simp only [hd] at h2
        simp only [Z_cons] at this
        simp [Expr.erases, zx, exprListF, parseExpr, this, h2]
    | cons e' es =>
      simp only [Expr.langs, sepBy] at h
      split_ h hl u v
      eatS h s
      refine (((hall e (by simp) _ hl).and (ih (fun x hx => hall x (by simp [hx])) h)).mono fun m hm => ?_).succ
      intro b rest hr
      have h1 := fun b rest => hm.1 b (.sym .Comma s :: rest) (by nxt)
      have h2 := fun b => hm.2 b rest hr
      rw [Expr.erases]
      simp [zx, exprListF, parseExpr, h1, h2]

theorem read_direction {asc : Option Bool} {p : Pos} (h : K (directionLang asc ⬝ unset p) ks) :
    (asc = none ∧ ks = []) ∨ (∃ w, asc = some true ∧ ks = [.word w] ∧ fk (.word w) = .kw .ASC) ∨
      (∃ w, asc = some false ∧ ks = [.word w] ∧ fk (.word w) = .kw .DESC) := by
  drop_ h with -
  match asc with
  | none =>
    simp only [directionLang] at h
    drop_ h with -
    exact .inl ⟨rfl, rfl⟩
  | some true => simp only [directionLang] at h; eatK h w hf hk; exact .inr (.inl ⟨w, rfl, rfl, hf⟩)
  | some false => simp only [directionLang] at h; eatK h w hf hk; exact .inr (.inr ⟨w, rfl, rfl, hf⟩)

theorem read_orderByList {es : List OrderByExpr} (hall : ∀ e p asc, .mk e p asc ∈ es → AllE fns e)
    (h : K (sepBy .Comma (OrderByExpr.langs fns clean es)) ks) :
    Ev fun m => Parses (Parsers.at fns m).orderByList ks (OrderByExpr.erases es)
      (fun f => fL f && f != .kw .ASC && f != .kw .DESC) := by
  induction es generalizing ks with
  | nil => exact h.never.elim
  | cons o es ih =>
    obtain ⟨e, p, asc⟩ := o
    cases es with
    | nil =>
      simp only [OrderByExpr.langs, OrderByExpr.lang, sepBy] at h
      split_ h he u v
      refine ((hall e p asc (by simp) _ he).mono fun m hm => ?_).succ
      intro b rest hr
      simp only [Bool.and_eq_true, bne_iff_ne] at hr
      obtain ⟨⟨hr, ha⟩, hd'⟩ := hr
      obtain ⟨h1, h2⟩ := fL_facts hr
      have ho := fE_odd (fX_facts h1).1
      have hne := fE_eof (fX_facts h1).1
      cases rest with
      | nil => exact absurd rfl hne
      | cons t rest =>
        simp only [hd] at h2 ha hd' ho
        rcases read_direction h with ⟨rfl, rfl⟩ | ⟨w, rfl, rfl, hf⟩ | ⟨w, rfl, rfl, hf⟩
        · have e1 := fun b => hm b (t :: rest) h1
          simp only [Z_cons] at e1
          simp [OrderByExpr.erase, OrderByExpr.erases, zx, orderByListF, parseExpr, e1, h2, ha, hd', ho]
        all_goals
        · have e1 := fun b => hm b (.word w :: t :: rest) (by nxt)
          simp only [Z_cons] at e1
          simp [OrderByExpr.erase, OrderByExpr.erases, zx, orderByListF, parseExpr, e1, h2, ha, hd', ho, hf]
    | cons o' es =>
      simp only [OrderByExpr.langs, OrderByExpr.lang, sepBy] at h
      split_ h he u v
      split_ he he' u1 u2
      eatS h s
      refine (((hall e p asc (by simp) _ he').and (ih (fun x p asc hx => hall x p asc (by simp [hx])) h)).mono fun m hm => ?_).succ
      intro b rest hr
      have e4 := fun b => hm.2 b rest hr
      rw [OrderByExpr.erases]
      rcases read_direction he with ⟨rfl, rfl⟩ | ⟨w, rfl, rfl, hf⟩ | ⟨w, rfl, rfl, hf⟩
      · have e1 := fun b rest => hm.1 b (.sym .Comma s :: rest) (by nxt)
        simp only [Z_cons] at e1
        simp [OrderByExpr.erase, zx, orderByListF, parseExpr, e1, e4]
      all_goals
      · have e1 := fun b rest => hm.1 b (.word w :: rest) (by nxt)
        simp only [Z_cons] at e1
        simp [OrderByExpr.erase, zx, orderByListF, parseExpr, e1, e4, hf]

end Verif
