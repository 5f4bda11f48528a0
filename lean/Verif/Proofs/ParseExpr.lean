import Verif.Proofs.ParseNames
import Verif.Spec.WellFormed
/-
Parsing printed expressions: one lemma per construct, assuming that the parts are parsed back.
-/
set_option linter.unusedSimpArgs false
namespace Verif

/-- What may follow an expression without extending its last name or call. -/
def folE : Fk → Bool
  | .odd => false
  | .sym .LParen => false
  | .sym .Period => false
  | .kw .OVER => false
  | _ => true

/-- What may follow a complete expression. -/
def folX (f : Fk) : Bool := folE f && prec f == 0
/-- What may follow a list of expressions. -/
def folL (f : Fk) : Bool := folX f && f != .sym .Comma
/-- What may follow a query with the given edge. -/
def folQ (e : Edge) : Fk → Bool
  | .sym .RParen => true
  | .sym .Semicolon => true
  | .kw .ON => e != .col
  | _ => false

theorem folE_facts {f : Fk} (h : folE f = true) : f ≠ .odd ∧ f ≠ .sym .LParen ∧ f ≠ .sym .Period ∧ f ≠ .kw .OVER := by
  refine ⟨?_, ?_, ?_, ?_⟩ <;> fol h
theorem folX_facts {f : Fk} (h : folX f = true) : folE f = true ∧ prec f = 0 := by
  simpa [folX] using h
theorem folL_facts {f : Fk} (h : folL f = true) : folX f = true ∧ f ≠ .sym .Comma := by
  simpa [folL] using h

/-- `subexpr` reads the expression and continues with the loop. -/
def ParsesS (fns : FloatFns) (e : Expr) : Prop :=
  ∃ c, Ev fun m => ∀ (p : Nat) (b : List Token) (rest : List Tok), p < e.lp → folE (hd rest) = true →
    prec (hd rest) ≤ e.rp →
    ((Parsers.at fns (m + c)).subexpr p).runZ b (Z (sg (e.toks fns) ++ rest)) =
      ((Parsers.at fns m).subexprLoop p e.erase).runZ (R (sg (e.toks fns)) b) (Z rest)

/-- `parsePrefix` reads the expression. -/
def ParsesP (fns : FloatFns) (e : Expr) : Prop :=
  Ev fun m => ∀ (b : List Token) (rest : List Tok), folE (hd rest) = true → prec (hd rest) ≤ e.rp →
    (Parsers.at fns m).prefix_.runZ b (Z (sg (e.toks fns) ++ rest)) = .ok e.erase (R (sg (e.toks fns)) b, Z rest)

/-- `subexpr` reads exactly the expression. -/
def ParsesF (fns : FloatFns) (e : Expr) : Prop :=
  Ev fun m => ∀ (p : Nat) (b : List Token) (rest : List Tok), p < e.lp → folE (hd rest) = true →
    prec (hd rest) ≤ e.rp → prec (hd rest) ≤ p →
    ((Parsers.at fns m).subexpr p).runZ b (Z (sg (e.toks fns) ++ rest)) =
      .ok e.erase (R (sg (e.toks fns)) b, Z rest)

/-- `ParseExpr` reads exactly the expression. -/
def ParsesE (fns : FloatFns) (e : Expr) : Prop :=
  Ev fun m => Parses ((Parsers.at fns m).subexpr 0) (sg (e.toks fns)) e.erase folX

def ParsesL (fns : FloatFns) (es : List Expr) : Prop :=
  Ev fun m => Parses (Parsers.at fns m).exprList (sg (Expr.toksL fns es)) (Expr.erases es) folL

def ParsesQ (fns : FloatFns) (q : QueryStmt) : Prop :=
  Ev fun m => Parses (Parsers.at fns m).query (sg (q.toks fns)) q.erase (folQ q.edge)

variable {d : Dialect} {fns : FloatFns}

theorem ParsesS.full {e : Expr} (h : ParsesS fns e) : ParsesF fns e := by
  obtain ⟨c, n, hn⟩ := h
  refine ⟨n + 1 + c, fun m hm => ?_⟩
  obtain ⟨k, rfl⟩ : ∃ k, m = (k + 1) + c := ⟨m - 1 - c, by omega⟩
  intro p b rest hp hf hr hq
  rw [hn (k + 1) (by omega) p b rest hp hf hr]
  simp [zx, subexprLoopF, (folE_facts hf).1, hq]

theorem lp_pos {e : Expr} (h : e.wf d fns = true) : 0 < e.lp := by
  have key : ∀ b, 0 < inLevel b := by intro b; cases b <;> decide
  match e with
  | .binary l op r =>
    simp only [Expr.wf, Bool.and_eq_true, decide_eq_true_eq] at h
    have := lp_pos (e := l) h.1.1.1.1
    have := h.1.1.2
    simp only [Expr.lp]; omega
  | .isNull x =>
    simp only [Expr.wf, Bool.and_eq_true, decide_eq_true_eq] at h
    have := lp_pos (e := x) h.1
    simp only [Expr.lp]; omega
  | .isNotNull x =>
    simp only [Expr.wf, Bool.and_eq_true, decide_eq_true_eq] at h
    have := lp_pos (e := x) h.1
    simp only [Expr.lp]; omega
  | .inList x l neg p =>
    simp only [Expr.wf, Bool.and_eq_true, decide_eq_true_eq] at h
    have := lp_pos (e := x) h.1.1.1
    have := key neg
    simp only [Expr.lp]; omega
  | .inSubQuery x q neg p =>
    simp only [Expr.wf, Bool.and_eq_true, decide_eq_true_eq] at h
    have := lp_pos (e := x) h.1.1.1
    have := key neg
    simp only [Expr.lp]; omega
  | .between x neg low high =>
    simp only [Expr.wf, Bool.and_eq_true, decide_eq_true_eq] at h
    have := lp_pos (e := x) h.1.1.1.1.1.1
    have := key neg
    simp only [Expr.lp]; omega
  | .ident _ | .wildcard _ | .qualifiedWildcard _ | .compoundIdent _ | .cast _ _ _ _ | .nested _ _ _
  | .unary _ _ _ | .function _ _ _ _ _ | .caseExpr _ _ _ _ _ _ | .exists_ _ _ _ _ _ | .subQuery _ _ _
  | .long _ | .double _ _ _ | .singleQuoted _ _ _ | .national _ _ _ | .boolean _ _ _ | .null _ _
  | .timeValue _ _ _ _ => simp [Expr.lp]

theorem ParsesF.expr {e : Expr} (hw : e.wf d fns = true) (h : ParsesF fns e) : ParsesE fns e := by
  refine h.mono fun m hm => ?_
  intro b rest hr
  obtain ⟨h1, h2⟩ := folX_facts hr
  exact hm 0 b rest (lp_pos hw) h1 (by omega) (by omega)

/-- A prefix expression. -/
theorem ParsesP.sub {e : Expr} (h : ParsesP fns e) : ParsesS fns e := by
  refine ⟨1, h.mono fun m hm => ?_⟩
  intro p b rest hp hf hr
  simp [zx, subexprF, hm b rest hf hr]

/-! ### First tokens -/

/-- The tokens an expression can begin with. -/
def startE : Fk → Bool
  | .id => true
  | .lit => true
  | .sym .Mult => true
  | .sym .Plus => true
  | .sym .Minus => true
  | .sym .LParen => true
  | .kw .TRUE => true
  | .kw .FALSE => true
  | .kw .NULL => true
  | .kw .CASE => true
  | .kw .CAST => true
  | .kw .EXISTS => true
  | .kw .NOT => true
  | .kw k => k.soft
  | _ => false

theorem startE_soft {f : Fk} (h : f.soft = true) : startE f = true ∧ f ≠ .kw .EXISTS := by
  refine ⟨?_, (Fk.soft_facts h).2.2.2.2.2 _ rfl⟩
  cases f with
  | kw k => cases k <;> first | rfl | cases h
  | id => rfl
  | _ => cases h

theorem hd_append {ts us : List Tok} {C : Fk → Prop} (h : ∀ rest, C (hd (ts ++ rest))) (rest : List Tok) :
    C (hd ((ts ++ us) ++ rest)) := by
  rw [List.append_assoc]; exact h _

theorem hd_name {o : ObjectName} (h : o.wf d = true) (rest : List Tok) : (hd (sg o.toks ++ rest)).soft = true := by
  obtain ⟨is⟩ := o
  obtain ⟨i, js, e', hi, hjs⟩ := identsOK_cons h
  simp only at e'; subst e'
  rw [show sg (ObjectName.toks ⟨i :: js⟩) = _ from sg_dottedT i js]
  simp [zx, soft_ident hi]

theorem hd_expr {e : Expr} (h : e.wf d fns = true) (rest : List Tok) :
    startE (hd (sg (e.toks fns) ++ rest)) = true ∧
    (e.startsExists = false → hd (sg (e.toks fns) ++ rest) ≠ .kw .EXISTS) := by
  match e with
  | .binary l op r =>
    simp only [Expr.wf, Bool.and_eq_true, decide_eq_true_eq] at h
    simp only [Expr.toks, zx, List.append_assoc, Expr.startsExists]
    exact hd_expr (e := l) h.1.1.1.1 _
  | .isNull x =>
    simp only [Expr.wf, Bool.and_eq_true, decide_eq_true_eq] at h
    simp only [Expr.toks, zx, List.append_assoc, Expr.startsExists]
    exact hd_expr (e := x) h.1 _
  | .isNotNull x =>
    simp only [Expr.wf, Bool.and_eq_true, decide_eq_true_eq] at h
    simp only [Expr.toks, zx, List.append_assoc, Expr.startsExists]
    exact hd_expr (e := x) h.1 _
  | .inList x l neg p =>
    simp only [Expr.wf, Bool.and_eq_true, decide_eq_true_eq] at h
    simp only [Expr.toks, zx, List.append_assoc, Expr.startsExists]
    exact hd_expr (e := x) h.1.1.1 _
  | .inSubQuery x q neg p =>
    simp only [Expr.wf, Bool.and_eq_true, decide_eq_true_eq] at h
    simp only [Expr.toks, zx, List.append_assoc, Expr.startsExists]
    exact hd_expr (e := x) h.1.1.1 _
  | .between x neg low high =>
    simp only [Expr.wf, Bool.and_eq_true, decide_eq_true_eq] at h
    simp only [Expr.toks, zx, List.append_assoc, Expr.startsExists]
    exact hd_expr (e := x) h.1.1.1.1.1.1 _
  | .ident i =>
    simp only [Expr.wf] at h
    simp [Expr.toks, zx, startE_soft (soft_ident h)]
  | .qualifiedWildcard is =>
    simp only [Expr.wf] at h
    have := hd_name (o := ⟨is⟩) h (sg [dot, star] ++ rest)
    simp only [ObjectName.toks] at this
    simp only [Expr.toks, sg_append, List.append_assoc]
    simp [startE_soft this]
  | .compoundIdent is =>
    simp only [Expr.wf, Bool.and_eq_true, decide_eq_true_eq] at h
    have := hd_name (o := ⟨is⟩) h.1 rest
    simp only [ObjectName.toks] at this
    simp only [Expr.toks]
    simp [startE_soft this]
  | .function name args p over q =>
    simp only [Expr.wf, Bool.and_eq_true, decide_eq_true_eq] at h
    simp only [Expr.toks, sg_append, List.append_assoc]
    simp [startE_soft (hd_name h.1.1 _)]
  | .unary p op e =>
    simp only [Expr.wf, Bool.and_eq_true] at h
    obtain ⟨ty, p1, p2⟩ := op
    cases ty <;> simp [Expr.toks, OpType.toks, zx, startE] at h ⊢
  | .exists_ neg q p1 p2 p3 =>
    cases neg <;> simp [Expr.toks, notT, zx, startE, Expr.startsExists]
  | .boolean p q b =>
    cases b <;> simp [Expr.toks, zx, startE]
  | .timeValue _ _ _ _ => simp [Expr.wf] at h
  | .wildcard _ | .cast _ _ _ _ | .nested _ _ _ | .caseExpr _ _ _ _ _ _ | .subQuery _ _ _
  | .long _ | .double _ _ _ | .singleQuoted _ _ _ | .national _ _ _ | .null _ _ => 
    simp [Expr.toks, zx, startE]

theorem startE_facts {f : Fk} (h : startE f = true) : f ≠ .odd ∧ f ≠ .eof ∧ f ≠ .kw .SELECT ∧ f ≠ .kw .WITH ∧
    f ≠ .kw .WHEN ∧ f ≠ .sym .RParen ∧ f ≠ .kw .DISTINCT := by
  refine ⟨?_, ?_, ?_, ?_, ?_, ?_, ?_⟩ <;> fol h

/-! ### Names -/

theorem prefixF_word {w : SQLWord} (this : softKw (kwOf w.keyword) = true) (r : Parsers) (b a : List Token) :
    (prefixF fns r).runZ b (zt (.word w) :: a) = (parseName r (zt (.word w)) w).runZ (zt (.word w) :: b) a := by
  have e : (zt (.word w)).tok = .word w := rfl
  simp only [prefixF, zx, e]
  split <;> first
    | (rename_i hk; rw [hk] at this; cases this; done)
    | rfl
theorem prefixF_ident {v : Str} (h : identOK d v = true) (r : Parsers) (b a : List Token) :
    (prefixF fns r).runZ b (zt (identTok v) :: a) =
      (parseName r (zt (identTok v)) (identWord v)).runZ (zt (identTok v) :: b) a := by
  rw [identTok_eq]; exact prefixF_word (softKw_ident h) r b a

theorem parse_ident {i : Ident} (h : identOK d i.value = true) : ParsesP fns (.ident i) := by
  refine (Ev.of fun m => ?_).succ
  intro b rest hf hr
  obtain ⟨f1, f2, f3, f4⟩ := folE_facts hf
  cases rest with
  | nil => simp [Expr.toks, Expr.erase, Ident.erase, zx, prefixF_ident h, parseName, string_ident h]
  | cons t rest =>
    simp only [hd] at f1 f2 f3 f4
    simp [Expr.toks, Expr.erase, Ident.erase, zx, prefixF_ident h, parseName, string_ident h, f2, f3]

theorem parse_idParts (is : List Ident) (h : ∀ j ∈ is, identOK d j.value = true) :
    Ev fun m => Parses (Parsers.at fns m).idParts (idTail dot is) (is.map Ident.erase, false) (notSym .Period) := by
  induction is with
  | nil =>
    refine (Ev.of fun m => ?_).succ
    intro b rest hr
    simp only [notSym, decide_eq_true_eq] at hr
    simp [idTail, zx, idPartsF, hr]
  | cons i is ih =>
    refine ((ih fun j hj => h j (by simp [hj])).mono fun m hm => ?_).succ
    intro b rest hr
    have hi := h i (by simp)
    have := fun b => hm b rest hr
    simp [idTail, zx, idPartsF, this, string_ident hi, Ident.erase]

theorem parse_idPartsStar (is : List Ident) (h : ∀ j ∈ is, identOK d j.value = true) :
    Ev fun m => Parses (Parsers.at fns m).idParts (idTail dot is ++ [dot, star]) (is.map Ident.erase, true)
      (fun _ => true) := by
  induction is with
  | nil =>
    refine (Ev.of fun m => ?_).succ
    intro b rest hr
    simp [idTail, zx, idPartsF]
  | cons i is ih =>
    refine ((ih fun j hj => h j (by simp [hj])).mono fun m hm => ?_).succ
    intro b rest hr
    have hi := h i (by simp)
    have := fun b => hm b rest hr
    simp only [List.append_assoc, List.cons_append, List.nil_append] at this
    simp [idTail, zx, idPartsF, this, string_ident hi, Ident.erase]

theorem parse_qualifiedWildcard {is : List Ident} (h : identsOK d is = true) : ParsesP fns (.qualifiedWildcard is) := by
  obtain ⟨i, js, rfl, hi, hjs⟩ := identsOK_cons h
  refine ((parse_idPartsStar (fns := fns) js hjs).mono fun m hm => ?_).succ
  intro b rest hf hr
  have := fun b => hm b rest rfl
  simp only [List.append_assoc, List.cons_append, List.nil_append] at this
  cases js with
  | nil =>
    simp only [idTail, zx, List.cons_append, List.nil_append] at this
    simp [Expr.toks, Expr.erase, Ident.erase, zx, dottedT, sg_dotTail, idTail, prefixF_ident hi, parseName, string_ident hi, this]
  | cons j js =>
    simp only [idTail, zx, List.cons_append, List.nil_append] at this
    simp [Expr.toks, Expr.erase, Ident.erase, zx, dottedT, sg_dotTail, idTail, prefixF_ident hi, parseName, string_ident hi, this]

theorem parse_compound {is : List Ident} (h : identsOK d is = true) (h2 : 2 ≤ is.length) :
    ParsesP fns (.compoundIdent is) := by
  obtain ⟨i, js, rfl, hi, hjs⟩ := identsOK_cons h
  refine ((parse_idParts (fns := fns) js hjs).mono fun m hm => ?_).succ
  intro b rest hf hr
  obtain ⟨f1, f2, f3, f4⟩ := folE_facts hf
  have := fun b => hm b rest (by simpa [notSym] using f3)
  cases js with
  | nil => simp at h2
  | cons j js =>
    simp only [idTail, zx, List.cons_append, List.nil_append] at this
    simp [Expr.toks, Expr.erase, Ident.erase, zx, dottedT, sg_dotTail, idTail, prefixF_ident hi, parseName, string_ident hi, this, f2]

/-! ### Lists -/

theorem parse_exprList {es : List Expr} (hne : es ≠ []) (h : ∀ e ∈ es, ParsesE fns e) : ParsesL fns es := by
  induction es with
  | nil => exact absurd rfl hne
  | cons e es ih =>
    cases es with
    | nil =>
      refine ((h e (by simp)).mono fun m hm => ?_).succ
      intro b rest hr
      obtain ⟨h1, h2⟩ := folL_facts hr
      have := hm b rest h1
      cases rest with
      | nil => 
        simp only [List.append_nil] at this
        simp [Expr.toksL, sepT, Expr.erases, zx, exprListF, parseExpr, this]
      | cons t rest =>
        simp only [hd] at h2
        simp only [Z_cons] at this
        simp [Expr.toksL, sepT, Expr.erases, zx, exprListF, parseExpr, this, h2]
    | cons e' es =>
      refine (((h e (by simp)).and (ih (by simp) fun x hx => h x (by simp [hx]))).mono fun m hm => ?_).succ
      intro b rest hr
      have h1 := fun b => hm.1 b (comma :: (sg (Expr.toksL fns (e' :: es)) ++ rest)) (by simp [zx, folX, folE, prec])
      have h2 := fun b => hm.2 b rest hr
      rw [Expr.toksL, Expr.erases]
      simp [sepT, zx, exprListF, parseExpr, h1, h2]

theorem parse_orderByList {es : List OrderByExpr} (hne : es ≠ [])
    (h : ∀ e p asc, .mk e p asc ∈ es → ParsesE fns e) :
    Ev fun m => Parses (Parsers.at fns m).orderByList (sg (OrderByExpr.toksL fns es)) (OrderByExpr.erases es)
      (fun f => folL f && f != .kw .ASC && f != .kw .DESC) := by
  induction es with
  | nil => exact absurd rfl hne
  | cons o es ih =>
    obtain ⟨e, p, asc⟩ := o
    cases es with
    | nil =>
      refine ((h e p asc (by simp)).mono fun m hm => ?_).succ
      intro b rest hr
      simp only [Bool.and_eq_true, bne_iff_ne] at hr
      obtain ⟨⟨hr, ha⟩, hd'⟩ := hr
      obtain ⟨h1, h2⟩ := folL_facts hr
      have ho := (folE_facts (folX_facts h1).1).1
      have e1 := fun b => hm b rest h1
      have e2 := fun b => hm b (kT .ASC :: rest) (by simp [zx, folX, folE, prec])
      have e3 := fun b => hm b (kT .DESC :: rest) (by simp [zx, folX, folE, prec])
      simp only [Z_cons] at e2 e3
      cases rest with
      | nil =>
        simp only [List.append_nil] at e1
        cases asc with
        | none => simp [OrderByExpr.toksL, OrderByExpr.toks, OrderByExpr.erase, sepT, OrderByExpr.erases, zx, orderByListF, parseExpr, e1, e2, e3]
        | some b => cases b <;>
          simp [OrderByExpr.toksL, OrderByExpr.toks, OrderByExpr.erase, sepT, OrderByExpr.erases, zx, orderByListF, parseExpr, e1, e2, e3]
      | cons t rest =>
        simp only [hd] at h2 ha hd' ho
        simp only [Z_cons] at e1 e2 e3
        cases asc with
        | none => simp [OrderByExpr.toksL, OrderByExpr.toks, OrderByExpr.erase, sepT, OrderByExpr.erases, zx, orderByListF, parseExpr, e1, e2, e3, h2, ha, hd', ho]
        | some b => cases b <;>
          simp [OrderByExpr.toksL, OrderByExpr.toks, OrderByExpr.erase, sepT, OrderByExpr.erases, zx, orderByListF, parseExpr, e1, e2, e3, h2, ha, hd', ho]
    | cons o' es =>
      refine (((h e p asc (by simp)).and (ih (by simp) fun x p asc hx => h x p asc (by simp [hx]))).mono fun m hm => ?_).succ
      intro b rest hr
      have e1 := fun b rest => hm.1 b (comma :: rest) (by simp [zx, folX, folE, prec])
      have e2 := fun b rest => hm.1 b (kT .ASC :: rest) (by simp [zx, folX, folE, prec])
      have e3 := fun b rest => hm.1 b (kT .DESC :: rest) (by simp [zx, folX, folE, prec])
      have e4 := fun b => hm.2 b rest hr
      simp only [Z_cons] at e1 e2 e3
      rw [OrderByExpr.toksL, OrderByExpr.erases]
      cases asc with
      | none => simp [OrderByExpr.toks, OrderByExpr.erase, sepT, zx, orderByListF, parseExpr, e1, e2, e3, e4]
      | some b => cases b <;> simp [OrderByExpr.toks, OrderByExpr.erase, sepT, zx, orderByListF, parseExpr, e1, e2, e3, e4]

/-! ### Calls -/

theorem parse_frameBound {f : FrameBound} (h : f.wf = true) (b : List Token) (rest : List Tok) :
    parseWindowFrameBound.runZ b (Z (sg f.toks ++ rest)) = .ok f.erase (R (sg f.toks) b, Z rest) := by
  cases f with
  | preceding n p q =>
    have h' : sizeOK n = true := h
    have hn : ¬ (n : Int) < 0 := by omega
    simp [FrameBound.toks, FrameBound.erase, zx, parseWindowFrameBound, h', hn]
  | following n p q =>
    have h' : sizeOK n = true := h
    have hn : ¬ (n : Int) < 0 := by omega
    simp [FrameBound.toks, FrameBound.erase, zx, parseWindowFrameBound, h', hn]
  | currentRow => simp [FrameBound.toks, FrameBound.erase, zx, parseWindowFrameBound]
  | unboundedPreceding => simp [FrameBound.toks, FrameBound.erase, zx, parseWindowFrameBound]
  | unboundedFollowing => simp [FrameBound.toks, FrameBound.erase, zx, parseWindowFrameBound]

theorem hd_frameBound (f : FrameBound) (rest : List Tok) : hd (sg f.toks ++ rest) ≠ .kw .BETWEEN ∧
    hd (sg f.toks ++ rest) ≠ .odd := by
  cases f <;> simp [FrameBound.toks, zx]

theorem parse_frame {f : WindowFrame} (h : f.wf = true) (b : List Token) (rest : List Tok) :
    parseWindowFrame.runZ b (Z (sg f.toks ++ rpar :: rest)) = .ok (some f.erase) (zt rpar :: R (sg f.toks) b, Z rest) := by
  obtain ⟨⟨p, q, u⟩, s, e⟩ := f
  simp only [WindowFrame.wf, Bool.and_eq_true] at h
  obtain ⟨h1, h2⟩ := h
  have hu : windowUnit u.kw = some u := by cases u <;> rfl
  cases e with
  | none =>
    have := hd_frameBound s (rpar :: rest)
    simp [WindowFrame.toks, WindowFrame.erase, WindowFrameUnit.erase, zx, parseWindowFrame, hu, parse_frameBound h1, this.1, this.2]
  | some e =>
    have h2' : e.wf = true := h2
    simp [WindowFrame.toks, WindowFrame.erase, WindowFrameUnit.erase, zx, parseWindowFrame, hu, parse_frameBound h1,
      parse_frameBound h2']

def ParsesW (fns : FloatFns) (w : WindowSpec) : Prop :=
  Ev fun m => ∀ (b : List Token) (rest : List Tok),
    (parseOver (Parsers.at fns m)).runZ b (zt lpar :: Z (sg (w.toks fns) ++ rpar :: rest)) =
      .ok w.erase (zt rpar :: R (sg (w.toks fns)) (zt lpar :: b), Z rest)

theorem ev_opt {Q : Nat → Prop} {c : Prop} [Decidable c] (h : c → Ev Q) : Ev fun m => c → Q m := by
  by_cases hc : c
  · exact (h hc).mono fun m hm _ => hm
  · exact Ev.of fun m h => absurd h hc

theorem parse_window {ps : List Expr} {os : List OrderByExpr} {f : Option WindowFrame} {x y : Pos}
    (hp : ∀ e ∈ ps, ParsesE fns e) (ho : ∀ e p asc, .mk e p asc ∈ os → ParsesE fns e)
    (hf : ∀ g, f = some g → g.wf = true) : ParsesW fns (.mk ps os f x y) := by
  have h1 : Ev fun m => ps ≠ [] → Parses (Parsers.at fns m).exprList (sg (Expr.toksL fns ps)) (Expr.erases ps) folL := by
    cases ps with
    | nil => exact Ev.of fun m h => absurd rfl h
    | cons e es => exact (parse_exprList (by simp) hp).mono fun m hm _ => hm
  have h2 : Ev fun m => os ≠ [] → Parses (Parsers.at fns m).orderByList (sg (OrderByExpr.toksL fns os)) (OrderByExpr.erases os)
      (fun f => folL f && f != .kw .ASC && f != .kw .DESC) := by
    cases os with
    | nil => exact Ev.of fun m h => absurd rfl h
    | cons e es => exact (parse_orderByList (by simp) ho).mono fun m hm _ => hm
  refine (h1.and h2).mono fun m hm => ?_
  intro b rest
  obtain ⟨h1, h2⟩ := hm
  have hu : ∀ u : WindowUnit, u.kw ≠ .PARTITION ∧ u.kw ≠ .ORDER ∧ folL (.kw u.kw) = true ∧ u.kw ≠ .ASC ∧ u.kw ≠ .DESC := by
    intro u; cases u <;> decide
  cases ps with
  | nil =>
    cases os with
    | nil =>
      cases f with
      | none => simp [WindowSpec.toks, WindowSpec.erase, Expr.erases, OrderByExpr.erases, zx, parseOver, parseWindowFrame]
      | some g =>
        have hg := fun b => parse_frame (hf g rfl) b rest
        have : ∃ tl, sg g.toks = kT g.units.type.kw :: tl := by
          obtain ⟨⟨p, q, u⟩, s, e⟩ := g
          cases e <;> exact ⟨_, rfl⟩
        obtain ⟨tl, htl⟩ := this
        rw [htl] at hg
        have := hu g.units.type
        simp only [zx, List.cons_append] at hg
        simp [WindowSpec.toks, WindowSpec.erase, Expr.erases, OrderByExpr.erases, zx, parseOver, htl, hg, this]
    | cons o os =>
      have h2 := h2 (by simp)
      cases f with
      | none =>
        have := fun b => h2 b (rpar :: rest) (by simp [zx]; decide)
        simp [WindowSpec.toks, WindowSpec.erase, Expr.erases, zx, parseOver, parseWindowFrame, this]
      | some g =>
        have hg := fun b => parse_frame (hf g rfl) b rest
        have : ∃ tl, sg g.toks = kT g.units.type.kw :: tl := by
          obtain ⟨⟨p, q, u⟩, s, e⟩ := g
          cases e <;> exact ⟨_, rfl⟩
        obtain ⟨tl, htl⟩ := this
        rw [htl] at hg
        have := hu g.units.type
        have h2 := fun b => h2 b (kT g.units.type.kw :: (tl ++ rpar :: rest)) (by simp [zx, this])
        simp only [zx, List.cons_append] at hg
        simp [WindowSpec.toks, WindowSpec.erase, Expr.erases, zx, parseOver, htl, hg, this, h2]
  | cons e es =>
    have h1 := h1 (by simp)
    cases os with
    | nil =>
      cases f with
      | none =>
        have := fun b => h1 b (rpar :: rest) (by simp [zx]; decide)
        simp [WindowSpec.toks, WindowSpec.erase, OrderByExpr.erases, zx, parseOver, parseWindowFrame, this]
      | some g =>
        have hg := fun b => parse_frame (hf g rfl) b rest
        have : ∃ tl, sg g.toks = kT g.units.type.kw :: tl := by
          obtain ⟨⟨p, q, u⟩, s, e⟩ := g
          cases e <;> exact ⟨_, rfl⟩
        obtain ⟨tl, htl⟩ := this
        rw [htl] at hg
        have := hu g.units.type
        have h1 := fun b => h1 b (kT g.units.type.kw :: (tl ++ rpar :: rest)) (by simp [zx, this])
        simp only [zx, List.cons_append] at hg
        simp [WindowSpec.toks, WindowSpec.erase, OrderByExpr.erases, zx, parseOver, htl, hg, this, h1]
    | cons o os =>
      have h2 := h2 (by simp)
      have h1 := fun b rest => h1 b (kT .ORDER :: rest) (by simp [zx]; decide)
      cases f with
      | none =>
        have := fun b => h2 b (rpar :: rest) (by simp [zx]; decide)
        simp [WindowSpec.toks, WindowSpec.erase, zx, parseOver, parseWindowFrame, this, h1]
      | some g =>
        have hg := fun b => parse_frame (hf g rfl) b rest
        have : ∃ tl, sg g.toks = kT g.units.type.kw :: tl := by
          obtain ⟨⟨p, q, u⟩, s, e⟩ := g
          cases e <;> exact ⟨_, rfl⟩
        obtain ⟨tl, htl⟩ := this
        rw [htl] at hg
        have := hu g.units.type
        have h2 := fun b => h2 b (kT g.units.type.kw :: (tl ++ rpar :: rest)) (by simp [zx, this])
        simp only [zx, List.cons_append] at hg
        simp [WindowSpec.toks, WindowSpec.erase, zx, parseOver, htl, hg, this, h2, h1]

theorem parse_function {name : ObjectName} {args : List Expr} {over : Option WindowSpec} {p q : Pos}
    (hn : name.wf d = true) (hw : Expr.wfs d fns args = true) (ha : ∀ e ∈ args, ParsesE fns e)
    (ho : ∀ w, over = some w → ParsesW fns w) : ParsesP fns (.function name args p over q) := by
  obtain ⟨is⟩ := name
  obtain ⟨i, js, e', hi, hjs⟩ := identsOK_cons hn
  simp only at e'; subst e'
  have h1 : Ev fun m => args ≠ [] → Parses (Parsers.at fns m).exprList (sg (Expr.toksL fns args)) (Expr.erases args) folL := by
    cases args with
    | nil => exact Ev.of fun m h => absurd rfl h
    | cons e es => exact (parse_exprList (by simp) ha).mono fun m hm _ => hm
  have h2 : Ev fun m => ∀ w, over = some w → ∀ (b : List Token) (rest : List Tok),
      (parseOver (Parsers.at fns m)).runZ b (zt lpar :: Z (sg (w.toks fns) ++ rpar :: rest)) =
        .ok w.erase (zt rpar :: R (sg (w.toks fns)) (zt lpar :: b), Z rest) := by
    cases over with
    | none => exact Ev.of fun m w h => by cases h
    | some w => exact (ho w rfl).mono fun m hm w' h => by cases h; exact hm
  refine (((parse_idParts (fns := fns) js hjs).and (h1.and h2)).mono fun m hm => ?_).succ
  intro b rest hf hr
  obtain ⟨f1, f2, f3, f4⟩ := folE_facts hf
  obtain ⟨h0, h1, h2⟩ := hm
  have h0 := fun b rest => h0 b (lpar :: rest) (by simp [notSym, zx])
  have hA : ∀ b rest, (parseOptionalArgs (Parsers.at fns m)).runZ b (Z (sg (Expr.toksL fns args) ++ rpar :: rest)) =
      .ok (Expr.erases args) (R (sg (Expr.toksL fns args)) b, zt rpar :: Z rest) := by
    intro b rest
    cases args with
    | nil => simp [Expr.toksL, Expr.erases, zx, parseOptionalArgs]
    | cons e es =>
      have := fun b => h1 (by simp) b (rpar :: rest) (by simp [zx]; decide)
      simp only [Expr.wfs, Bool.and_eq_true] at hw
      have hs := startE_facts (hd_expr (e := e) hw.1 (sg (sepT es ++ Expr.toksL fns es) ++ rpar :: rest)).1
      rw [← List.append_assoc, ← sg_append] at hs
      have hs' : hd (sg (Expr.toksL fns (e :: es)) ++ rpar :: rest) ≠ .sym .RParen := by
        rw [Expr.toksL]; exact hs.2.2.2.2.2.1
      simp [parseOptionalArgs, zx, hs', this]
  have key : ∀ b, ((Parsers.at fns (m + 1)).prefix_).runZ b (zt (identTok i.value) :: Z (idTail dot js ++ lpar ::
      (sg (Expr.toksL fns args) ++ rpar :: (sg (WindowSpec.toksO fns over) ++ rest)))) =
      .ok (Expr.function (ObjectName.erase ⟨i :: js⟩) (Expr.erases args) Pos.zero (WindowSpec.eraseOpt over) Pos.zero)
        (R (sg (WindowSpec.toksO fns over)) (zt rpar :: R (sg (Expr.toksL fns args)) (zt lpar :: R (idTail dot js) (zt (identTok i.value) :: b))), Z rest) := by
    intro b
    have hpk : ∃ t tl, idTail dot js ++ lpar ::
      (sg (Expr.toksL fns args) ++ rpar :: (sg (WindowSpec.toksO fns over) ++ rest)) = t :: tl ∧ (fk t = .sym .LParen ∨ fk t = .sym .Period) := by
      cases js with
      | nil => exact ⟨_, _, rfl, .inl (by simp [zx])⟩
      | cons j js => exact ⟨_, _, rfl, .inr (by simp [zx])⟩
    obtain ⟨t, tl, e1, e2⟩ := hpk
    have hpeek : ∀ b, peekToken.runZ b (Z (idTail dot js ++ lpar ::
      (sg (Expr.toksL fns args) ++ rpar :: (sg (WindowSpec.toksO fns over) ++ rest)))) = .ok (some (zt t)) (b, Z (idTail dot js ++ lpar ::
      (sg (Expr.toksL fns args) ++ rpar :: (sg (WindowSpec.toksO fns over) ++ rest)))) := by
      intro b; rw [e1]; rfl
    have e3 : (fk t = Fk.sym Sym.LParen ∨ fk t = Fk.sym Sym.Period) = True := by simpa using e2
    simp only [at_prefix, prefixF_ident hi, zx, parseName, hpeek]
    simp only [isSym_fk, Bool.or_eq_true, decide_eq_true_eq, e3, if_true, h0, Res.bind_ok]
    cases over with
    | none =>
      simp [WindowSpec.toksO, WindowSpec.eraseOpt, zx, parseFunction, hA, f1, f4, string_ident hi, Ident.erase, ObjectName.erase]
    | some w =>
      simp [WindowSpec.toksO, WindowSpec.eraseOpt, zx, parseFunction, hA, f1, f4, string_ident hi, Ident.erase, ObjectName.erase, h2 w rfl]
  have := key b
  rw [Expr.toks, Expr.erase, sg_append, show sg (ObjectName.toks ⟨i :: js⟩) = _ from sg_dottedT i js]
  simp only [zx, List.append_assoc, List.cons_append] at this ⊢
  exact this

/-! ### Values and bracketed forms -/

theorem longOK_eq {v : LongValue} (h : longOK v = true) : sizeOK v.long.toNat = true ∧ ((v.long.toNat : Nat) : Int) = v.long := by
  simp only [longOK, Bool.and_eq_true, decide_eq_true_eq] at h
  have e : ((v.long.toNat : Nat) : Int) = v.long := by omega
  refine ⟨?_, e⟩
  simp only [sizeOK, decide_eq_true_eq]
  omega

theorem natStr_nodot (n : Nat) : '.' ∉ natStr n := by
  intro h
  have := natStr_all n _ h
  revert this; decide

theorem parse_long {v : LongValue} (h : longOK v = true) : ParsesP fns (.long v) := by
  refine (Ev.of fun m => ?_).succ
  intro b rest hf hr
  obtain ⟨h1, h2⟩ := longOK_eq h
  have h3 := atoi_natStr (n := v.long.toNat) (by simpa [sizeOK] using h1)
  simp [Expr.toks, Expr.erase, LongValue.erase, zx, prefixF, parseValue, natStr_nodot, h3, h2]

theorem parse_double {v : F64} {p q : Pos} (h : floatOK fns v = true) : ParsesP fns (.double p q v) := by
  refine (Ev.of fun m => ?_).succ
  intro b rest hf hr
  unfold floatOK at h
  cases hv : fns.format v with
  | nil => simp [hv] at h
  | cons c w =>
    simp only [hv, Bool.and_eq_true, beq_iff_eq] at h
    have h1 : '.' ∈ c :: w := by
      have := h.1.2
      simp only [List.contains_iff_mem] at this
      exact List.mem_cons_of_mem _ this
    have e1 : (zt (.number (c :: w))).tok = .number (c :: w) := rfl
    simp only [Expr.toks, Expr.erase, hv, zx, List.cons_append, List.nil_append, prefixF, e1, parseValue, h1, if_true, h.2]

theorem parse_single {s : Str} {p q : Pos} : ParsesP fns (.singleQuoted p q s) := by
  refine (Ev.of fun m => ?_).succ
  intro b rest hf hr
  have e1 : (zt (.single s)).tok = .single s := rfl
  simp [Expr.toks, Expr.erase, zx, prefixF, e1, parseValue]

theorem parse_national {s : Str} {p q : Pos} : ParsesP fns (.national p q s) := by
  refine (Ev.of fun m => ?_).succ
  intro b rest hf hr
  have e1 : (zt (.national s)).tok = .national s := rfl
  simp [Expr.toks, Expr.erase, zx, prefixF, e1, parseValue]

theorem parse_boolean {v : Bool} {p q : Pos} : ParsesP fns (.boolean p q v) := by
  refine (Ev.of fun m => ?_).succ
  intro b rest hf hr
  cases v <;> simp [Expr.toks, Expr.erase, zx, prefixF, parseValue]

theorem parse_null {p q : Pos} : ParsesP fns (.null p q) := by
  refine (Ev.of fun m => ?_).succ
  intro b rest hf hr
  simp [Expr.toks, Expr.erase, zx, prefixF, parseValue]

theorem parse_wildcard {p : Pos} : ParsesP fns (.wildcard p) := by
  refine (Ev.of fun m => ?_).succ
  intro b rest hf hr
  simp [Expr.toks, Expr.erase, zx, prefixF]

theorem folX_rpar : folX (.sym .RParen) = true := by decide
theorem folL_rpar : folL (.sym .RParen) = true := by decide
theorem folQ_rpar (e : Edge) : folQ e (.sym .RParen) = true := rfl

theorem parse_nested {e : Expr} {p q : Pos} (hw : e.wf d fns = true) (h : ParsesE fns e) : ParsesP fns (.nested e p q) := by
  refine (h.mono fun m hm => ?_).succ
  intro b rest hf hr
  have h1 := fun b => hm b (rpar :: rest) (by simp [zx, folX_rpar])
  have hs := startE_facts (hd_expr (e := e) hw (rpar :: rest)).1
  simp [Expr.toks, Expr.erase, zx, prefixF, parseParen, parseExpr, h1, hs]

theorem parse_cast {e : Expr} {ty : DataType} {p q : Pos} (h : ParsesE fns e) (ht : ty.wf d = true) :
    ParsesP fns (.cast e ty p q) := by
  refine ((h.and (parse_dataType fns ht)).mono fun m hm => ?_).succ
  intro b rest hf hr
  have h1 := fun b rest => hm.1 b (kT .AS :: rest) (by simp [zx]; decide)
  have h2 := fun b => hm.2 b (rpar :: rest) (by simp [zx]; decide)
  simp [Expr.toks, Expr.erase, zx, prefixF, parseCastExpression, parseExpr, h1, h2]

theorem hd_item {i : SelectItem} (h : i.wf d fns = true) (rest : List Tok) : startE (hd (sg (i.toks fns) ++ rest)) = true := by
  match i with
  | .unnamed e =>
    simp only [SelectItem.wf, Bool.and_eq_true] at h
    exact (hd_expr h.1 rest).1
  | .alias e a =>
    simp only [SelectItem.wf, Bool.and_eq_true] at h
    simp only [SelectItem.toks, sg_append, List.append_assoc]
    exact (hd_expr h.1.1 _).1
  | .qualifiedWildcard p =>
    simp only [SelectItem.wf] at h
    simp only [SelectItem.toks, sg_append, List.append_assoc]
    exact (startE_soft (hd_name h _)).1
  | .wildcard _ _ => simp [SelectItem.wf] at h

theorem hd_items {is : List SelectItem} (hne : is ≠ []) (h : SelectItem.wfs d fns is = true) (rest : List Tok) :
    startE (hd (sg (SelectItem.toksL fns is) ++ rest)) = true := by
  cases is with
  | nil => exact absurd rfl hne
  | cons i is =>
    simp only [SelectItem.wfs, Bool.and_eq_true] at h
    simp only [SelectItem.toksL, sg_append, List.append_assoc]
    exact hd_item h.1 _

theorem body_startsSelect {s : SetExpr} (hw : s.wf d fns = true) (h : s.startsSelect = true) :
    ∃ tl, sg (s.toks fns) = kT .SELECT :: tl ∧ ∀ rest, hd (tl ++ rest) ≠ .kw .WITH ∧ hd (tl ++ rest) ≠ .odd := by
  match s with
  | .select (.mk distinct projection from_ where_ groupBy having p) =>
    simp only [SetExpr.wf, SQLSelect.wf, Bool.and_eq_true, Bool.not_eq_true', List.isEmpty_eq_false_iff] at hw
    refine ⟨_, by simp only [SetExpr.toks, SQLSelect.toks, zx]; rfl, fun rest => ?_⟩
    cases distinct with
    | true => simp [zx]
    | false =>
      simp only [zx, Bool.false_eq_true, if_false, List.nil_append, List.append_assoc]
      have := startE_facts (hd_items (d := d) (fns := fns) hw.1.1.1.1.1.1 hw.1.1.1.1.1.2 (sg (if from_.isEmpty then [] else sp :: kT .FROM :: sp :: TableRef.toksL fns from_) ++
        (sg (Expr.toksO fns [sp, kT .WHERE, sp] where_) ++
        (sg (if groupBy.isEmpty then [] else sp :: kT .GROUP :: sp :: kT .BY :: sp :: Expr.toksL fns groupBy) ++
        (sg (Expr.toksO fns [sp, kT .HAVING, sp] having) ++ rest)))))
      exact ⟨this.2.2.2.1, this.1⟩
  | .setOp op all l r =>
    simp only [SetExpr.wf, Bool.and_eq_true] at hw
    obtain ⟨tl, e, ht⟩ := body_startsSelect (s := l) hw.1.1.1 (by simpa [SetExpr.startsSelect] using h)
    refine ⟨_, by simp only [SetExpr.toks, zx, e, List.cons_append]; rfl, fun rest => ?_⟩
    rw [List.append_assoc]
    exact ht _

theorem query_startsSelect {q : QueryStmt} (hw : q.wf d fns = true) (h : q.startsSelect = true) :
    ∃ k tl, sg (q.toks fns) = kT k :: tl ∧ (k = .WITH ∨ (k = .SELECT ∧ ∀ rest, hd (tl ++ rest) ≠ .kw .WITH ∧ hd (tl ++ rest) ≠ .odd)) := by
  obtain ⟨p, ctes, body, os, l⟩ := q
  simp only [QueryStmt.wf, Bool.and_eq_true] at hw
  cases ctes with
  | nil =>
    obtain ⟨tl, e, ht⟩ := body_startsSelect (fns := fns) (s := body) hw.1.1.2 (by simpa [QueryStmt.startsSelect] using h)
    refine ⟨.SELECT, _, by simp only [QueryStmt.toks, List.isEmpty_nil, if_true, zx, e, List.cons_append, List.nil_append]; rfl, .inr ⟨rfl, fun rest => ?_⟩⟩
    rw [List.append_assoc]
    exact ht _
  | cons c cs =>
    exact ⟨.WITH, _, by simp only [QueryStmt.toks, List.isEmpty_cons, Bool.false_eq_true, if_false, zx, List.cons_append]; rfl, .inl rfl⟩

theorem parse_subQuery {q : QueryStmt} {x y : Pos} (hw : q.wf d fns = true) (hs : q.startsSelect = true) (h : ParsesQ fns q) :
    ParsesP fns (.subQuery x y q) := by
  refine (h.mono fun m hm => ?_).succ
  intro b rest hf hr
  obtain ⟨k, tl, e, hk⟩ := query_startsSelect (fns := fns) hw hs
  have h1 := fun b => hm b (rpar :: rest) (by simp [zx, folQ_rpar])
  rw [e] at h1
  simp only [List.cons_append, zx] at h1
  rcases hk with rfl | ⟨rfl, ht⟩
  · simp [Expr.toks, Expr.erase, e, zx, prefixF, parseParen, h1]
  · have := ht (rpar :: rest)
    simp [Expr.toks, Expr.erase, e, zx, prefixF, parseParen, h1, this]

theorem parse_exists {neg : Bool} {q : QueryStmt} {x y z : Pos} (h : ParsesQ fns q) :
    ParsesP fns (.exists_ neg q x y z) := by
  refine (h.mono fun m hm => ?_).succ
  intro b rest hf hr
  have h1 := fun b => hm b (rpar :: rest) (by simp [zx, folQ_rpar])
  cases neg <;> simp [Expr.toks, Expr.erase, notT, zx, prefixF, parseNot, parseExistsExpression, h1]

theorem parse_unary {e : Expr} {op : Operator} {p : Pos} (hw : (Expr.unary p op e).wf d fns = true) (h : ParsesF fns e) :
    ParsesP fns (.unary p op e) := by
  refine (h.mono fun m hm => ?_).succ
  intro b rest hf hr
  obtain ⟨ty, p1, p2⟩ := op
  simp only [Expr.wf, Bool.and_eq_true] at hw
  obtain ⟨hw, ho⟩ := hw
  simp only [Expr.rp] at hr
  cases ty <;> simp only [Bool.false_eq_true, Bool.and_eq_true, decide_eq_true_eq, Bool.not_eq_true'] at ho
  case Plus =>
    simp only [OpType.prefixLevel] at hr
    have h1 := fun b => hm 30 b rest ho hf (by omega) (by omega)
    have e1 : getPrecedence (zt (.sym .Plus ['+'])) = 30 := rfl
    simp [Expr.toks, Expr.erase, OpType.toks, Operator.erase, zx, prefixF, e1, h1]
  case Minus =>
    simp only [OpType.prefixLevel] at hr
    have h1 := fun b => hm 30 b rest ho hf (by omega) (by omega)
    have e1 : getPrecedence (zt (.sym .Minus ['-'])) = 30 := rfl
    simp [Expr.toks, Expr.erase, OpType.toks, Operator.erase, zx, prefixF, e1, h1]
  case Not =>
    simp only [OpType.prefixLevel] at hr
    have h1 := fun b => hm 15 b rest ho.1 hf (by omega) (by omega)
    have hs := hd_expr hw rest
    have hs1 := hs.2 ho.2
    have hs2 := (startE_facts hs.1).1
    simp [Expr.toks, Expr.erase, OpType.toks, Operator.erase, zx, prefixF, parseNot, h1, hs1, hs2]

/-! ### CASE -/

/-- The tokens of the branches of a CASE expression after the first WHEN. -/
def whenT (fns : FloatFns) (c r : Expr) (cs rs : List Expr) : List Tok :=
  sg (c.toks fns) ++ kT .THEN :: (sg (r.toks fns) ++ sg (Expr.toksW fns cs (Expr.toksS fns rs)))

theorem sg_toksW (c r : Expr) (cs rs : List Expr) :
    sg (Expr.toksW fns (c :: cs) (Expr.toksS fns (r :: rs))) = kT .WHEN :: whenT fns c r cs rs := by
  rw [Expr.toksS, Expr.toksW]
  simp [zx, whenT]

theorem parse_caseLoop {c r : Expr} {cs rs : List Expr} (hl : cs.length = rs.length) (hc : ParsesE fns c) (hr : ParsesE fns r)
    (hcs : ∀ e ∈ cs, ParsesE fns e) (hrs : ∀ e ∈ rs, ParsesE fns e) :
    Ev fun m => Parses (Parsers.at fns m).caseLoop (whenT fns c r cs rs)
      (Expr.erases (c :: cs), Expr.erases (r :: rs)) (fun f => folX f && f != .kw .WHEN) := by
  induction cs generalizing c r rs with
  | nil =>
    cases rs with
    | cons r' rs => simp at hl
    | nil =>
      refine ((hc.and hr).mono fun m hm => ?_).succ
      intro b rest hf
      simp only [Bool.and_eq_true, bne_iff_ne] at hf
      have ho := (folE_facts (folX_facts hf.1).1).1
      have h1 := fun b rest => hm.1 b (kT .THEN :: rest) (by simp [zx]; decide)
      have h2 := fun b => hm.2 b rest hf.1
      simp [whenT, Expr.toksS, Expr.toksW, Expr.erases, zx, caseLoopF, parseExpr, h1, h2, hf.2, ho]
  | cons c' cs ih =>
    cases rs with
    | nil => simp at hl
    | cons r' rs =>
      have := ih (c := c') (r := r') (rs := rs) (by simpa using hl) (hcs c' (by simp)) (hrs r' (by simp))
        (fun e he => hcs e (by simp [he])) (fun e he => hrs e (by simp [he]))
      refine (((hc.and hr).and this).mono fun m hm => ?_).succ
      intro b rest hf
      have h1 := fun b rest => hm.1.1 b (kT .THEN :: rest) (by simp [zx]; decide)
      have h2 := fun b rest => hm.1.2 b (kT .WHEN :: rest) (by simp [zx]; decide)
      have h3 := fun b => hm.2 b rest hf
      rw [whenT, sg_toksW]
      simp only [Expr.erases] at h3 ⊢
      simp [zx, caseLoopF, parseExpr, h1, h2, h3]

theorem parse_case {operand else_ : Option Expr} {conds results : List Expr} {p q : Pos} (hne : conds ≠ [])
    (hl : conds.length = results.length) (hc : ∀ e ∈ conds, ParsesE fns e) (hr : ∀ e ∈ results, ParsesE fns e)
    (ho : ∀ e, operand = some e → ParsesE fns e ∧ e.wf d fns = true) (he : ∀ e, else_ = some e → ParsesE fns e) :
    ParsesP fns (.caseExpr p q operand conds results else_) := by
  have h1 : Ev fun m => ∀ e, operand = some e → Parses ((Parsers.at fns m).subexpr 0) (sg (e.toks fns)) e.erase folX := by
    cases operand with
    | none => exact Ev.of fun m w h => by cases h
    | some w => exact (ho w rfl).1.mono fun m hm w' h => by cases h; exact hm
  have h2 : Ev fun m => ∀ e, else_ = some e → Parses ((Parsers.at fns m).subexpr 0) (sg (e.toks fns)) e.erase folX := by
    cases else_ with
    | none => exact Ev.of fun m w h => by cases h
    | some w => exact (he w rfl).mono fun m hm w' h => by cases h; exact hm
  cases conds with
  | nil => exact absurd rfl hne
  | cons c cs =>
    cases results with
    | nil => simp at hl
    | cons r rs =>
      have h3 := parse_caseLoop (fns := fns) (c := c) (r := r) (cs := cs) (rs := rs) (by simpa using hl) (hc c (by simp)) (hr r (by simp))
        (fun e he => hc e (by simp [he])) (fun e he => hr e (by simp [he]))
      refine (((h1.and h2).and h3).mono fun m hm => ?_).succ
      intro b rest hf hrr
      obtain ⟨⟨h1, h2⟩, h3⟩ := hm
      have g1 := fun b rest => h3 b (kT .END :: rest) (by simp [zx]; decide)
      have g2 := fun b rest => h3 b (kT .ELSE :: rest) (by simp [zx]; decide)
      rw [Expr.toks, sg_kT, sg_append, sg_append, sg_toksW, Expr.erase]
      cases operand with
      | none =>
        cases else_ with
        | none => simp [Expr.toksO, Expr.eraseOpt, zx, prefixF, parseCaseExpression, parseExpr, g1, g2]
        | some e =>
          have g3 := fun b rest => h2 e rfl b (kT .END :: rest) (by simp [zx]; decide)
          simp [Expr.toksO, Expr.eraseOpt, zx, prefixF, parseCaseExpression, parseExpr, g1, g2, g3]
      | some o =>
        have g4 := fun b rest => h1 o rfl b (kT .WHEN :: rest) (by simp [zx]; decide)
        have g5 : ∀ rest, hd (sg (o.toks fns) ++ rest) ≠ .kw .WHEN ∧ hd (sg (o.toks fns) ++ rest) ≠ .odd := fun rest =>
          have := startE_facts (hd_expr (ho o rfl).2 rest).1
          ⟨this.2.2.2.2.1, this.1⟩
        cases else_ with
        | none => simp [Expr.toksO, Expr.eraseOpt, zx, prefixF, parseCaseExpression, parseExpr, g1, g2, g4, g5]
        | some e =>
          have g3 := fun b rest => h2 e rfl b (kT .END :: rest) (by simp [zx]; decide)
          simp [Expr.toksO, Expr.eraseOpt, zx, prefixF, parseCaseExpression, parseExpr, g1, g2, g3, g4, g5]

/-! ### Infix and postfix operators -/

/-- `parseDefaultExpr` reads the expression and continues with its loop. -/
def ParsesD (fns : FloatFns) (e : Expr) : Prop :=
  ∃ c, Ev fun m => ∀ (b : List Token) (rest : List Tok), folE (hd rest) = true → prec (hd rest) ≤ e.rp →
    (parseDefaultExpr (Parsers.at fns (m + c))).runZ b (Z (sg (e.toks fns) ++ rest)) =
      ((Parsers.at fns m).defaultLoop e.erase).runZ (R (sg (e.toks fns)) b) (Z rest)

/-- `parseInfix`, called with the binding strength `k` of the tokens `ops`, makes `e` of `x`. -/
def ParsesI (fns : FloatFns) (x e : Expr) (k : Nat) (ops : List Tok) : Prop :=
  Ev fun m => ∀ (b : List Token) (rest : List Tok), folE (hd rest) = true → prec (hd rest) ≤ e.rp →
    (parseInfix (Parsers.at fns m) x.erase k).runZ b (Z (ops ++ rest)) = .ok e.erase (R ops b, Z rest)

theorem infix_S {x e : Expr} {k : Nat} {t : Tok} {ops : List Tok} (hx : ParsesS fns x)
    (ht : sg (e.toks fns) = sg (x.toks fns) ++ t :: ops) (hf : folE (fk t) = true) (hk : prec (fk t) = k)
    (hl : e.lp = min k x.lp) (hr : k ≤ x.rp) (hi : ParsesI fns x e k (t :: ops)) : ParsesS fns e := by
  obtain ⟨c, hx⟩ := hx
  refine ⟨1 + c, ((hx.add 1).and hi).mono fun m hm => ?_⟩
  intro p b rest hp hfr hrr
  obtain ⟨h1, h2⟩ := hm
  have e1 : m + 1 + c = m + (1 + c) := by omega
  rw [ht, List.append_assoc, ← e1, h1 p b (t :: ops ++ rest) (by omega) hf (by rw [List.cons_append, hd_cons, hk]; exact hr)]
  have h3 := fun b => h2 b rest hfr hrr
  simp only [List.cons_append, zx] at h3
  have hp' : ¬ prec (fk t) ≤ p := by omega
  simp [zx, subexprLoopF, (folE_facts hf).1, hk, h3, show ¬ k ≤ p by omega]

theorem infix_D {x e : Expr} {k : Nat} {t : Tok} {ops : List Tok} (hx : ParsesD fns x)
    (ht : sg (e.toks fns) = sg (x.toks fns) ++ t :: ops) (hf : folE (fk t) = true) (hk : prec (fk t) = k) (h0 : 0 < k)
    (hn : fk t ≠ .kw .NOT) (hr : k ≤ x.rp) (hi : ParsesI fns x e k (t :: ops)) : ParsesD fns e := by
  obtain ⟨c, hx⟩ := hx
  refine ⟨1 + c, ((hx.add 1).and hi).mono fun m hm => ?_⟩
  intro b rest hfr hrr
  obtain ⟨h1, h2⟩ := hm
  have e1 : m + 1 + c = m + (1 + c) := by omega
  rw [ht, List.append_assoc, ← e1, h1 b (t :: ops ++ rest) hf (by rw [List.cons_append, hd_cons, hk]; exact hr)]
  have h3 := fun b => h2 b rest hfr hrr
  simp only [List.cons_append, zx] at h3
  have ho := (folE_facts hf).1
  have hj : (zt t).kw? ≠ some .NOT ∧ (zt t).kw? ≠ some .NULL := by
    rcases kw?_fk (t := t) with h | ⟨j, h, h' | h'⟩
    · rw [h]; simp
    · rw [h]
      refine ⟨fun e => ?_, fun e => ?_⟩
      · cases e; exact hn h'
      · cases e; rw [h'] at hk; simp [prec] at hk; omega
    · exact absurd h' ho
  have h0' : ¬ k = 0 := by omega
  simp only [List.cons_append, zx, at_defaultLoop, defaultLoopF, Option.bind_some]
  split
  · next h => exact absurd h hj.1
  · next h => exact absurd h hj.2
  · simp [zx, ho, hk, h3, h0']

theorem ParsesP.dflt {e : Expr} (h : ParsesP fns e) : ParsesD fns e := by
  refine ⟨0, h.mono fun m hm => ?_⟩
  intro b rest hf hr
  simp [zx, parseDefaultExpr, hm b rest hf hr]

/-- How the parser reads an expression in each of the three contexts. -/
structure ParsesA (fns : FloatFns) (e : Expr) : Prop where
  sub : ParsesS fns e
  dflt : e.defaultOK = true → ParsesD fns e
  pre : e.isPrefix = true → ParsesP fns e

theorem ParsesP.all {e : Expr} (h : ParsesP fns e) : ParsesA fns e := ⟨h.sub, fun _ => h.dflt, fun _ => h⟩

theorem infix_A {x e : Expr} {k : Nat} {t : Tok} {ops : List Tok} (hx : ParsesA fns x)
    (ht : sg (e.toks fns) = sg (x.toks fns) ++ t :: ops) (hf : folE (fk t) = true) (hk : prec (fk t) = k) (h0 : 0 < k)
    (hn : e.defaultOK = true → fk t ≠ .kw .NOT ∧ x.defaultOK = true) (hp : e.isPrefix = false)
    (hl : e.lp = min k x.lp) (hr : k ≤ x.rp) (hi : ParsesI fns x e k (t :: ops)) : ParsesA fns e :=
  ⟨infix_S hx.sub ht hf hk hl hr hi, fun h => infix_D (hx.dflt (hn h).2) ht hf hk h0 (hn h).1 hr hi,
    fun h => by rw [hp] at h; cases h⟩

theorem parse_binary {l r : Expr} {op : Operator} (hw : (Expr.binary l op r).wf d fns = true) (hl : ParsesA fns l)
    (hr : ParsesF fns r) : ParsesA fns (.binary l op r) := by
  simp only [Expr.wf, Bool.and_eq_true, decide_eq_true_eq] at hw
  obtain ⟨⟨⟨⟨h1, h2⟩, h3⟩, h4⟩, h5⟩ := hw
  obtain ⟨ty, p1, p2⟩ := op
  simp only at h3 h4 h5
  have hi : ∀ ops : List Tok, ops = sg ty.toks →
      ParsesI fns l (.binary l ⟨ty, p1, p2⟩ r) ty.level (ops ++ sg (r.toks fns)) := by
    intro ops ho
    refine hr.mono fun m hm => ?_
    intro b rest hf hrr
    simp only [Expr.rp] at hrr
    have h6 := fun b => hm ty.level b rest h5 hf (by omega) (by omega)
    rw [ho]
    cases ty
    case Not => cases h3
    case None => cases h3
    all_goals
      simp only [OpType.level] at h6
      simp [OpType.toks, OpType.level, Expr.erase, Operator.erase, zx, parseInfix, infixOp, symOp, h6]
  cases ty
  case Not => cases h3
  case None => cases h3
  all_goals
    refine infix_A hl (by simp only [Expr.toks, OpType.toks, zx, List.cons_append, List.nil_append]; rfl) ?_ ?_ h3 ?_ rfl ?_ h4 (hi _ rfl)
    · decide
    · rfl
    · intro h
      simp only [Expr.defaultOK, Bool.and_eq_true] at h
      refine ⟨?_, h.1⟩
      first
        | decide
        | (have h' := h.2; revert h'; decide)
    · rfl

theorem parse_isNull {x : Expr} (hw : (Expr.isNull x).wf d fns = true) (hx : ParsesA fns x) : ParsesA fns (.isNull x) := by
  simp only [Expr.wf, Bool.and_eq_true, decide_eq_true_eq] at hw
  refine infix_A (t := kT .IS) (ops := [kT .NULL]) (k := 17) hx (by simp [Expr.toks, zx]) (by simp [zx]; decide) (by simp [zx]; decide)
    (by decide) (fun h => ⟨by simp [zx], h⟩) rfl rfl hw.2 ?_
  refine Ev.of fun m => ?_
  intro b rest hf hr
  simp [Expr.erase, zx, parseInfix, infixOp]

theorem parse_isNotNull {x : Expr} (hw : (Expr.isNotNull x).wf d fns = true) (hx : ParsesA fns x) : ParsesA fns (.isNotNull x) := by
  simp only [Expr.wf, Bool.and_eq_true, decide_eq_true_eq] at hw
  refine infix_A (t := kT .IS) (ops := [kT .NOT, kT .NULL]) (k := 17) hx (by simp [Expr.toks, zx]) (by simp [zx]; decide) (by simp [zx]; decide)
    (by decide) (fun h => ⟨by simp [zx], h⟩) rfl rfl hw.2 ?_
  refine Ev.of fun m => ?_
  intro b rest hf hr
  simp [Expr.erase, zx, parseInfix, infixOp]

theorem parse_inList {x : Expr} {l : List Expr} {neg : Bool} {p : Pos} (hw : (Expr.inList x l neg p).wf d fns = true)
    (hx : ParsesA fns x) (hl : ∀ e ∈ l, ParsesE fns e) : ParsesA fns (.inList x l neg p) := by
  simp only [Expr.wf, Bool.and_eq_true, decide_eq_true_eq, Bool.not_eq_true', List.isEmpty_eq_false_iff] at hw
  obtain ⟨⟨⟨h1, h2⟩, h3⟩, h4⟩ := hw
  have hst : ∀ rest, hd (sg (Expr.toksL fns l) ++ rest) ≠ .kw .SELECT ∧ hd (sg (Expr.toksL fns l) ++ rest) ≠ .kw .WITH ∧
      hd (sg (Expr.toksL fns l) ++ rest) ≠ .odd := by
    intro rest
    cases l with
    | nil => exact absurd rfl h3
    | cons e es =>
      simp only [Expr.wfs, Bool.and_eq_true] at h4
      have := startE_facts (hd_expr h4.1 (sg (sepT es ++ Expr.toksL fns es) ++ rest)).1
      rw [Expr.toksL, sg_append, List.append_assoc]
      exact ⟨this.2.2.1, this.2.2.2.1, this.1⟩
  have hi : ParsesI fns x (.inList x l neg p) (inLevel neg) (sg (notT neg) ++ kT .IN :: lpar :: (sg (Expr.toksL fns l) ++ [rpar])) := by
    refine (parse_exprList h3 hl).mono fun m hm => ?_
    intro b rest hf hr
    have h5 := fun b => hm b (rpar :: rest) (by simp [zx, folL_rpar])
    have := hst (rpar :: rest)
    cases neg <;> simp [Expr.erase, notT, zx, parseInfix, infixOp, parseNotInBetween, parseIn, h5, this]
  cases neg with
  | false =>
    exact infix_A (t := kT .IN) (k := 20) hx (by simp only [Expr.toks, notT, zx, List.nil_append, Bool.false_eq_true, if_false]) (by simp [zx]; decide) (by simp [zx]; decide)
      (by decide) (fun h => ⟨by simp [zx], by simpa [Expr.defaultOK] using h⟩) rfl rfl h2 hi
  | true =>
    exact infix_A (t := kT .NOT) (k := 15) hx (by simp only [Expr.toks, notT, zx, List.nil_append, if_true, List.cons_append]; rfl) (by simp [zx]; decide) (by simp [zx]; decide)
      (by decide) (fun h => by simp [Expr.defaultOK] at h) rfl rfl h2 hi

theorem parse_inSubQuery {x : Expr} {q : QueryStmt} {neg : Bool} {p : Pos} (hw : (Expr.inSubQuery x q neg p).wf d fns = true)
    (hx : ParsesA fns x) (hq : ParsesQ fns q) : ParsesA fns (.inSubQuery x q neg p) := by
  simp only [Expr.wf, Bool.and_eq_true, decide_eq_true_eq] at hw
  obtain ⟨⟨⟨h1, h2⟩, h3⟩, h4⟩ := hw
  have hi : ParsesI fns x (.inSubQuery x q neg p) (inLevel neg) (sg (notT neg) ++ kT .IN :: lpar :: (sg (q.toks fns) ++ [rpar])) := by
    refine hq.mono fun m hm => ?_
    intro b rest hf hr
    obtain ⟨k, tl, e, hk⟩ := query_startsSelect (fns := fns) h3 h4
    have h5 := fun b => hm b (rpar :: rest) (by simp [zx, folQ_rpar])
    rw [e] at h5 ⊢
    simp only [List.cons_append, zx] at h5
    rcases hk with rfl | ⟨rfl, ht⟩
    · cases neg <;> simp [Expr.erase, notT, zx, parseInfix, infixOp, parseNotInBetween, parseIn, h5]
    · have := ht (rpar :: rest)
      cases neg <;> simp [Expr.erase, notT, zx, parseInfix, infixOp, parseNotInBetween, parseIn, h5, this]
  cases neg with
  | false =>
    exact infix_A (t := kT .IN) (k := 20) hx (by simp only [Expr.toks, notT, zx, List.nil_append, Bool.false_eq_true, if_false]) (by simp [zx]; decide) (by simp [zx]; decide)
      (by decide) (fun h => ⟨by simp [zx], by simpa [Expr.defaultOK] using h⟩) rfl rfl h2 hi
  | true =>
    exact infix_A (t := kT .NOT) (k := 15) hx (by simp only [Expr.toks, notT, zx, List.nil_append, if_true, List.cons_append]; rfl) (by simp [zx]; decide) (by simp [zx]; decide)
      (by decide) (fun h => by simp [Expr.defaultOK] at h) rfl rfl h2 hi

theorem parse_between {x low high : Expr} {neg : Bool} (hw : (Expr.between x neg low high).wf d fns = true)
    (hx : ParsesA fns x) (hlo : ParsesP fns low) (hhi : ParsesP fns high) : ParsesA fns (.between x neg low high) := by
  simp only [Expr.wf, Bool.and_eq_true, decide_eq_true_eq] at hw
  obtain ⟨⟨⟨⟨⟨⟨h1, h2⟩, h3⟩, h4⟩, h5⟩, h6⟩, h7⟩ := hw
  have hi : ParsesI fns x (.between x neg low high) (inLevel neg) (sg (notT neg) ++ kT .BETWEEN :: (sg (low.toks fns) ++ kT .AND :: sg (high.toks fns))) := by
    refine (hlo.and hhi).mono fun m hm => ?_
    intro b rest hf hr
    simp only [Expr.rp] at hr
    have g1 := fun b rest => hm.1 b (kT .AND :: rest) (by simp [zx]; decide) (by simpa [zx, prec] using h5)
    have g2 := fun b => hm.2 b rest hf hr
    cases neg <;> simp [Expr.erase, notT, zx, parseInfix, infixOp, parseNotInBetween, parseBetween, g1, g2]
  cases neg with
  | false =>
    exact infix_A (t := kT .BETWEEN) (k := 20) hx (by simp only [Expr.toks, notT, zx, List.nil_append, Bool.false_eq_true, if_false]) (by simp [zx]; decide) (by simp [zx]; decide)
      (by decide) (fun h => ⟨by simp [zx], by simpa [Expr.defaultOK] using h⟩) rfl rfl h2 hi
  | true =>
    exact infix_A (t := kT .NOT) (k := 15) hx (by simp only [Expr.toks, notT, zx, List.nil_append, if_true, List.cons_append]; rfl) (by simp [zx]; decide) (by simp [zx]; decide)
      (by decide) (fun h => by simp [Expr.defaultOK] at h) rfl rfl h2 hi

end Verif
