import Verif.Proofs.ReadExpr
import Verif.Proofs.GrammarBase
/-
Completeness of the grammar: calls, values, bracketed forms and operators.
-/
set_option linter.unusedSimpArgs false
namespace Verif
open Spec

variable {fns : FloatFns} {ks : List Tok}

/-! ### Calls -/

/-- Removes the positions that are not set at the end of a sentence. -/
theorem K.unset2 {L : Lang} {p p' : Pos} (h : K (L ⬝ Spec.unset2 p p') ks) : K L ks := h.drop.1

theorem read_frameBound {f : FrameBound} (hs : f.wf = true) (h : K (boundLang f) ks) (b : List Token) (rest : List Tok) :
    parseWindowFrameBound.runZ b (Z (ks ++ rest)) = .ok f.erase (R ks b, Z rest) ∧ hd (ks ++ rest) ≠ .kw .BETWEEN ∧
      hd (ks ++ rest) ≠ .odd := by
  cases f with
  | preceding n p q =>
    simp only [boundLang] at h
    eat h with ⟨s, rfl, hn⟩
    eatK h w hf hk
    drop_ h with -
    have h0 : ¬ (n : Int) < 0 := by omega
    have ho : fk (.number s) = .lit := rfl
    have hn := hn hs
    simp [FrameBound.erase, zx, parseWindowFrameBound, literalInt_number hn, hf, h0, ho]
  | following n p q =>
    simp only [boundLang] at h
    eat h with ⟨s, rfl, hn⟩
    eatK h w hf hk
    drop_ h with -
    have h0 : ¬ (n : Int) < 0 := by omega
    have ho : fk (.number s) = .lit := rfl
    have hn := hn hs
    simp [FrameBound.erase, zx, parseWindowFrameBound, literalInt_number hn, hf, h0, ho]
  | currentRow =>
    simp only [boundLang] at h
    eatK h w hf hk
    eatK h w2 hf2 hk2
    drop_ h with -
    simp [FrameBound.erase, zx, parseWindowFrameBound, hf, hf2]
  | unboundedPreceding =>
    simp only [boundLang] at h
    eatK h w hf hk
    eatK h w2 hf2 hk2
    drop_ h with -
    simp [FrameBound.erase, zx, parseWindowFrameBound, hf, hf2]
  | unboundedFollowing =>
    simp only [boundLang] at h
    eatK h w hf hk
    eatK h w2 hf2 hk2
    drop_ h with -
    simp [FrameBound.erase, zx, parseWindowFrameBound, hf, hf2]

def frameHd : Fk → Bool
  | .sym .RParen => true
  | .kw .ROWS => true
  | .kw .RANGE => true
  | .kw .GROUPS => true
  | _ => false

theorem frameHd_facts {f : Fk} (h : frameHd f = true) : fL f = true ∧ f ≠ .kw .ASC ∧ f ≠ .kw .DESC ∧
    f ≠ .kw .ORDER ∧ f ≠ .kw .PARTITION ∧ f ≠ .odd := by
  refine ⟨?_, ?_, ?_, ?_, ?_, ?_⟩
  · unfold frameHd at h; split at h <;> first | rfl | cases h
  all_goals fol h

theorem read_unit {u : WindowFrameUnit} {L : Lang} (h : K (unitLang u ⬝ L) ks) : ∃ w k vs, ks = .word w :: vs ∧
    fk (.word w) = .kw k ∧ kwOf w.keyword = some k ∧ windowUnit k = some u.type ∧ frameHd (.kw k) = true ∧ K L vs := by
  obtain ⟨p, q, ty⟩ := u
  replace h := K.assoc h
  cases ty with
  | Rows =>
    replace h : K (kwd .ROWS ⬝ _) ks := h
    eatK h w hf hk
    exact ⟨w, _, _, rfl, hf, hk, rfl, rfl, h.skip.2⟩
  | Range =>
    replace h : K (kwd .RANGE ⬝ _) ks := h
    eatK h w hf hk
    exact ⟨w, _, _, rfl, hf, hk, rfl, rfl, h.skip.2⟩
  | Groups =>
    replace h : K (kwd .GROUPS ⬝ _) ks := h
    eatK h w hf hk
    exact ⟨w, _, _, rfl, hf, hk, rfl, rfl, h.skip.2⟩

theorem read_frame {f : Option WindowFrame} (hs : ∀ g, f = some g → g.wf = true) (h : K (frameLang f ⬝ sym .RParen) ks)
    (rest : List Tok) : (∀ b, parseWindowFrame.runZ b (Z (ks ++ rest)) = .ok (f.map WindowFrame.erase) (R ks b, Z rest)) ∧
      frameHd (hd (ks ++ rest)) = true := by
  match f with
  | none =>
    simp only [frameLang] at h
    replace h := h.skip.2
    eatS h s
    exact ⟨by simp [zx, parseWindowFrame], rfl⟩
  | some ⟨u, st, none⟩ =>
    have hw := hs _ rfl
    simp only [WindowFrame.wf, Bool.and_eq_true] at hw
    simp only [frameLang] at h
    replace h := K.assoc h
    replace h := read_unit h
    obtain ⟨w, k, vs, rfl, hf, hk, hu, hh, h⟩ := h
    split_ h hb u' v'
    eatS h s
    have h1 := fun b => (read_frameBound hw.1 hb b (.sym .RParen s :: rest)).1
    have h2 := (read_frameBound hw.1 hb [] (.sym .RParen s :: rest)).2
    refine ⟨?_, ?_⟩
    · simp [zx, parseWindowFrame, hk, hu, h1, h2, WindowFrame.erase, WindowFrameUnit.erase]
    · simp [zx, hf, hh]
  | some ⟨u, st, some e⟩ =>
    have hw := hs _ rfl
    simp only [WindowFrame.wf, Bool.and_eq_true] at hw
    simp only [frameLang] at h
    replace h := K.assoc h
    replace h := read_unit h
    obtain ⟨w, k, vs, rfl, hf, hk, hu, hh, h⟩ := h
    replace h := K.assoc h
    eatK h w2 hf2 hk2
    replace h := K.assoc h
    split_ h hb u' v'
    replace h := K.assoc h
    eatK h w3 hf3 hk3
    split_ h he u'' v''
    eatS h s
    have h1 := fun b => (read_frameBound hw.1 hb b (.word w3 :: (u'' ++ .sym .RParen s :: rest))).1
    have h2 := fun b => (read_frameBound hw.2 he b (.sym .RParen s :: rest)).1
    refine ⟨?_, ?_⟩
    · simp [zx, parseWindowFrame, hk, hu, hf2, hf3, h1, h2, WindowFrame.erase, WindowFrameUnit.erase]
    · simp [zx, hf, hh]

def ReadsW (fns : FloatFns) (w : WindowSpec) (ks : List Tok) : Prop :=
  Ev fun m => ∀ (b : List Token) (rest : List Tok),
    (parseOver (Parsers.at fns m)).runZ b (Z (ks ++ rest)) = .ok w.erase (R ks b, Z rest)

def AllW (fns : FloatFns) (w : WindowSpec) : Prop := ∀ ks, K (w.lang fns clean) ks → ReadsW fns w ks

theorem langs_cons (e : Expr) (es : List Expr) : Expr.langs fns clean (e :: es) = e.lang fns clean :: Expr.langs fns clean es := by
  rw [Expr.langs]

/-- An optional clause with its keywords. -/
theorem read_clause2 {other : Lang} {k k' : KW} {p : Pos} {as : List Lang} {c : Prop} [Blank other c]
    (h : K (clauseOr other (fun L => p ▹ kwd k ⬝ kwd k' ⬝ L) as) ks) : (ks = [] ∧ as = []) ∨
      ∃ w w' vs, ks = .word w :: .word w' :: vs ∧ fk (.word w) = .kw k ∧ fk (.word w') = .kw k' ∧
        as ≠ [] ∧ K (sepBy .Comma as) vs := by
  cases as with
  | nil => exact .inl ⟨(K.nil (a := other) h).1, rfl⟩
  | cons a as =>
    replace h : K (p ▹ kwd k ⬝ kwd k' ⬝ sepBy .Comma (a :: as)) ks := h
    eatK h w hf hk
    eatK h w2 hf2 hk2
    exact .inr ⟨w, w2, _, rfl, hf, hf2, by simp, h⟩

theorem read_window {ps : List Expr} {os : List OrderByExpr} {f : Option WindowFrame} {x y : Pos}
    (hp : ∀ e ∈ ps, AllE fns e) (ho : ∀ e p asc, .mk e p asc ∈ os → AllE fns e)
    (hf : ∀ g, f = some g → g.wf = true) : AllW fns (.mk ps os f x y) := by
  intro ks h
  simp only [WindowSpec.lang] at h
  eatS h s
  split_ h h1 k1 h'
  split_ h h2 k2 k3
  replace h1 := read_clause2 h1
  replace h2 := read_clause2 h2
  have hfr := fun rest => read_frame hf h rest
  have e1 : Ev fun m => ∀ w w' vs, k1 = .word w :: .word w' :: vs → Parses (Parsers.at fns m).exprList vs (Expr.erases ps) fL := by
    rcases h1 with ⟨rfl, -⟩ | ⟨w, w', vs, rfl, -, -, -, h1⟩
    · exact Ev.of fun m w w' vs h => by cases h
    · exact (read_exprList hp h1).mono fun m hm w w' vs h => by cases h; exact hm
  have e2 : Ev fun m => ∀ w w' vs, k2 = .word w :: .word w' :: vs → Parses (Parsers.at fns m).orderByList vs (OrderByExpr.erases os)
      (fun f => fL f && f != .kw .ASC && f != .kw .DESC) := by
    rcases h2 with ⟨rfl, -⟩ | ⟨w, w', vs, rfl, -, -, -, h2⟩
    · exact Ev.of fun m w w' vs h => by cases h
    · exact (read_orderByList ho h2).mono fun m hm w w' vs h => by cases h; exact hm
  refine (e1.and e2).mono fun m hm => ?_
  intro b rest
  obtain ⟨e1, e2⟩ := hm
  obtain ⟨hr, hh⟩ := hfr rest
  obtain ⟨g1, g2, g3, g4, g5, g6⟩ := frameHd_facts hh
  have hps : Expr.langs fns clean ps = [] → ps = [] := by
    cases ps with
    | nil => intro; rfl
    | cons e es => intro h; rw [Expr.langs] at h; cases h
  have hos : OrderByExpr.langs fns clean os = [] → os = [] := by
    cases os with
    | nil => intro; rfl
    | cons e es => intro h; rw [OrderByExpr.langs] at h; cases h
  have hfe : WindowSpec.erase (.mk ps os f x y) = .mk (Expr.erases ps) (OrderByExpr.erases os) (f.map WindowFrame.erase) Pos.zero Pos.zero := by
    rw [WindowSpec.erase]
  rw [hfe]
  rcases h1 with ⟨rfl, hn⟩ | ⟨w, w', vs, rfl, hw, hw', -, h1⟩
  · rw [hps hn]
    rcases h2 with ⟨rfl, hn⟩ | ⟨v, v', us, rfl, hv, hv', -, h2⟩
    · rw [hos hn]
      simp [zx, parseOver, hr, g4, g5, g6, Expr.erases, OrderByExpr.erases]
    · have e2 := fun b => e2 v v' us rfl b (k3 ++ rest) (by simp [g1, g2, g3])
      simp [zx, parseOver, hr, hv, hv', e2, Expr.erases]
  · rcases h2 with ⟨rfl, hn⟩ | ⟨v, v', us, rfl, hv, hv', -, h2⟩
    · rw [hos hn]
      have e1 := fun b => e1 w w' vs rfl b (k3 ++ rest) g1
      simp [zx, parseOver, hr, g4, g5, g6, hw, hw', e1, OrderByExpr.erases]
    · have e1 := fun b rest => e1 w w' vs rfl b (.word v :: rest) (by nxt)
      have e2 := fun b => e2 v v' us rfl b (k3 ++ rest) (by simp [g1, g2, g3])
      simp [zx, parseOver, hr, hw, hw', e1, hv, hv', e2]

theorem read_function {name : ObjectName} {args : List Expr} {over : Option WindowSpec} {p q : Pos}
    (hs : name.shape freeWord = true) (hw : Expr.shapes freeWord args = true) (ha : ∀ e ∈ args, AllE fns e)
    (ho : ∀ w, over = some w → AllW fns w) (h : K (Expr.lang fns clean (.function name args p over q)) ks) :
    ReadsP fns (.function name args p over q) ks := by
  obtain ⟨is⟩ := name
  obtain ⟨i, js, e', hi, hjs⟩ := identsShape_cons hs
  simp only at e'; subst e'
  replace h : K (exprName (i :: js) ⬝ parensTo p (clause id (Expr.langs fns clean args)) ⬝
      optional (kwd .OVER ⬝ ·) (over.map (WindowSpec.lang fns clean))) ks := by
    cases over with
    | none =>
      simp only [Expr.lang] at h
      refine h.mono fun ts h => ?_
      obtain ⟨a, _, rfl, h1, b, c, rfl, h2, rfl, -⟩ := h
      exact ⟨a, _, rfl, h1, b, [], rfl, h2, rfl⟩
    | some w =>
      simp only [Expr.lang] at h
      refine h.mono fun ts h => ?_
      obtain ⟨a, _, rfl, h1, b, _, rfl, h2, c, _, rfl, h3, d, _, rfl, h4, rfl, -⟩ := h
      exact ⟨a, _, rfl, h1, b, _, rfl, h2, c, d, by simp, h3, h4⟩
  split_ h h1 k1 k2
  obtain ⟨w, tl, rfl, hf, hk, e, hds⟩ := idents_dots hi hjs (exprName_idents h1)
  replace h : K ((sym .LParen ⬝ clause id (Expr.langs fns clean args) ⬝ sym .RParen ◃ p) ⬝ _) k2 := h
  replace h := K.assoc h
  eatS h s
  replace h := K.assoc h
  split_ h h3 k3 k5
  split_ h h5 k5 k4
  eatS h5 s'
  have hB : Ev fun m => ∀ b rest, (parseOptionalArgs (Parsers.at fns m)).runZ b (Z (k3 ++ .sym .RParen s' :: rest)) =
      .ok (Expr.erases args) (R k3 b, zt (.sym .RParen s') :: Z rest) := by
    cases args with
    | nil =>
      replace h3 : K eps k3 := h3
      drop_ h3 with -
      refine Ev.of fun m b rest => ?_
      simp [Expr.erases, zx, parseOptionalArgs]
    | cons e es =>
      replace h3 : K (sepBy .Comma (Expr.langs fns clean (e :: es))) k3 := by
        rw [langs_cons] at h3 ⊢; exact h3
      refine (read_exprList ha h3).mono fun m hm b rest => ?_
      have := fun b => hm b (.sym .RParen s' :: rest) (by nxt)
      have hst := (startE_facts (hdL hw h3 (.sym .RParen s' :: rest))).2.2.2.2.2.1
      simp [parseOptionalArgs, zx, hst, this]
  have hO : Ev fun m => (over = none ∧ k4 = []) ∨ ∃ w' wd vs, over = some w' ∧ k4 = .word wd :: vs ∧ fk (.word wd) = .kw .OVER ∧
      ∀ (b : List Token) (rest : List Tok), (parseOver (Parsers.at fns m)).runZ b (Z (vs ++ rest)) = .ok w'.erase (R vs b, Z rest) := by
    cases over with
    | none =>
      replace h : K eps k4 := h
      drop_ h with -
      exact Ev.of fun m => .inl ⟨rfl, rfl⟩
    | some w' =>
      replace h : K (kwd .OVER ⬝ w'.lang fns clean) k4 := h
      eatK h wd hf' hk'
      exact (ho w' rfl _ h).mono fun m hm => .inr ⟨w', wd, _, rfl, rfl, hf', hm⟩
  refine (((read_idParts (fns := fns) hds).and (hB.and hO)).mono fun m hm => ?_).succ
  intro b rest hf' hr
  obtain ⟨f1, f2, f3, f4⟩ := folE_facts (fE_facts hf').2
  obtain ⟨h0, hA, hO⟩ := hm
  have h0 := fun b rest => h0 b (.sym .LParen s :: rest) (by simp [notSym, zx])
  have hpk : ∀ us, ∃ t tl', tl ++ .sym .LParen s :: us = t :: tl' ∧ (fk t = .sym .LParen ∨ fk t = .sym .Period) := by
    intro us
    cases hds with
    | nil => exact ⟨_, _, rfl, .inl rfl⟩
    | cons _ _ _ => exact ⟨_, _, rfl, .inr rfl⟩
  have key : ∀ us b, ∃ t, peekToken.runZ b (Z (tl ++ .sym .LParen s :: us)) = .ok (some (zt t)) (b, Z (tl ++ .sym .LParen s :: us)) ∧
      ((fk t = .sym .LParen ∨ fk t = .sym .Period) = True) := by
    intro us b
    obtain ⟨t, tl', e1, e2⟩ := hpk us
    exact ⟨t, by rw [e1]; rfl, by simpa using e2⟩
  rcases hO with ⟨rfl, rfl⟩ | ⟨w', wd, vs, rfl, rfl, hwd, hO⟩
  · obtain ⟨t, k1, k2⟩ := key (k3 ++ .sym .RParen s' :: rest) (zt (.word w) :: b)
    simp only [List.cons_append, List.append_assoc, List.nil_append, List.append_nil]
    simp only [at_prefix, prefixF_word (soft_of_free hk), zx, parseName, k1]
    simp only [isSym_fk, Bool.or_eq_true, decide_eq_true_eq, k2, if_true, h0, Res.bind_ok]
    simp [zx, parseFunction, hA, f1, f4, e, Ident.erase, ObjectName.erase, Expr.erase, WindowSpec.eraseOpt]
  · obtain ⟨t, k1, k2⟩ := key (k3 ++ .sym .RParen s' :: .word wd :: (vs ++ rest)) (zt (.word w) :: b)
    simp only [List.cons_append, List.append_assoc, List.nil_append, List.append_nil]
    simp only [at_prefix, prefixF_word (soft_of_free hk), zx, parseName, k1]
    simp only [isSym_fk, Bool.or_eq_true, decide_eq_true_eq, k2, if_true, h0, Res.bind_ok]
    simp [zx, parseFunction, hA, hwd, hO, e, Ident.erase, ObjectName.erase, Expr.erase, WindowSpec.eraseOpt]

/-! ### Values and bracketed forms -/

theorem read_long {v : LongValue} (hv : longOK v = true) (h : K (Expr.lang fns clean (.long v)) ks) : ReadsP fns (.long v) ks := by
  simp only [Expr.lang] at h
  obtain ⟨_, ⟨t, s, rfl, ht, hd, hs⟩, -, rfl⟩ := h.spans
  simp only [List.map_cons, List.map_nil, ht]
  refine (Ev.of fun m => ?_).succ
  intro b rest hf hr
  have h3 : (atoi s).1 = v.long := by
    rcases hs with ⟨n, hn, hv'⟩ | ⟨hn, hv'⟩
    · have := digitsVal_denotes hn
      simp only [atoi, this]
      rw [hv']
      by_cases hle : n ≤ maxInt
      · simp only [hle, if_true]; unfold maxInt at hle; omega
      · simp only [hle, if_false]; unfold maxInt at hle ⊢; omega
    · rw [hv']
      unfold atoi
      cases hd' : digitsVal s with
      | none => rfl
      | some n => exact absurd (denotes_of_digitsVal hd') (hn n)
  simp [Expr.erase, LongValue.erase, zx, prefixF, parseValue, hd, h3]

theorem read_double {v : F64} {p q : Pos} (h : K (Expr.lang fns clean (.double p q v)) ks) : ReadsP fns (.double p q v) ks := by
  simp only [Expr.lang] at h
  obtain ⟨_, ⟨t, s, rfl, ht, hd, hs⟩, -, rfl⟩ := h.spans
  simp only [List.map_cons, List.map_nil, ht]
  refine (Ev.of fun m => ?_).succ
  intro b rest hf hr
  simp [Expr.erase, zx, prefixF, parseValue, hd, hs]

theorem read_single {s : Str} {p q : Pos} (h : K (Expr.lang fns clean (.singleQuoted p q s)) ks) : ReadsP fns (.singleQuoted p q s) ks := by
  simp only [Expr.lang] at h
  obtain ⟨_, ⟨t, rfl, ht⟩, -, rfl⟩ := h.spans
  simp only [List.map_cons, List.map_nil, ht]
  refine (Ev.of fun m => ?_).succ
  intro b rest hf hr
  have e1 : (zt (.single s)).tok = .single s := rfl
  simp [Expr.erase, zx, prefixF, e1, parseValue]

theorem read_national {s : Str} {p q : Pos} (h : K (Expr.lang fns clean (.national p q s)) ks) : ReadsP fns (.national p q s) ks := by
  simp only [Expr.lang] at h
  obtain ⟨_, ⟨t, rfl, ht⟩, -, rfl⟩ := h.spans
  simp only [List.map_cons, List.map_nil, ht]
  refine (Ev.of fun m => ?_).succ
  intro b rest hf hr
  have e1 : (zt (.national s)).tok = .national s := rfl
  simp [Expr.erase, zx, prefixF, e1, parseValue]

theorem read_boolean {v : Bool} {p q : Pos} (h : K (Expr.lang fns clean (.boolean p q v)) ks) : ReadsP fns (.boolean p q v) ks := by
  simp only [Expr.lang] at h
  replace h := h.spans
  cases v with
  | true =>
    replace h : K (kwd .TRUE) ks := h
    eatK h w hf hk
    refine (Ev.of fun m => ?_).succ
    intro b rest hf' hr
    simp [Expr.erase, zx, prefixF, parseValue, hk]
  | false =>
    replace h : K (kwd .FALSE) ks := h
    eatK h w hf hk
    refine (Ev.of fun m => ?_).succ
    intro b rest hf' hr
    simp [Expr.erase, zx, prefixF, parseValue, hk]

theorem read_null {p q : Pos} (h : K (Expr.lang fns clean (.null p q)) ks) : ReadsP fns (.null p q) ks := by
  simp only [Expr.lang] at h
  eatK h w hf hk
  refine (Ev.of fun m => ?_).succ
  intro b rest hf' hr
  simp [Expr.erase, zx, prefixF, parseValue, hk]

theorem read_wildcard {p : Pos} (h : K (Expr.lang fns clean (.wildcard p)) ks) : ReadsP fns (.wildcard p) ks := by
  simp only [Expr.lang] at h
  eatS h s
  refine (Ev.of fun m => ?_).succ
  intro b rest hf' hr
  have e1 : (zt (.sym .Mult s)).tok = .sym .Mult s := rfl
  simp [Expr.erase, zx, prefixF, e1]

theorem read_nested {e : Expr} {p q : Pos} (hw : e.shape freeWord = true) (he : AllE fns e)
    (h : K (Expr.lang fns clean (.nested e p q)) ks) : ReadsP fns (.nested e p q) ks := by
  simp only [Expr.lang] at h
  eatS h s
  split_ h h1 k1 k2
  eatS h s'
  refine ((he _ h1).mono fun m hm => ?_).succ
  intro b rest hf hr
  have g1 := fun b => hm b (.sym .RParen s' :: rest) (by nxt)
  have hs := startE_facts (hdE hw h1 (.sym .RParen s' :: rest)).1
  have e1 : (zt (.sym .LParen s)).tok = .sym .LParen s := rfl
  simp [Expr.erase, zx, prefixF, parseParen, parseExpr, e1, g1, hs]

theorem read_cast {e : Expr} {ty : DataType} {p q : Pos} (he : AllE fns e) (hs : ty.shape freeWord = true)
    (h : K (p ▹ kwd .CAST ⬝ sym .LParen ⬝ e.lang fns clean ⬝ kwd .AS ⬝ ty.lang ⬝ sym .RParen ◃ q) ks) :
    ReadsP fns (.cast e ty p q) ks := by
  eatK h w hf hk
  eatS h s
  split_ h h1 k1 k2
  eatK h w2 hf2 hk2
  split_ h h2 k2 k3
  eatS h s'
  refine (((he _ h1).and (read_dataType (fns := fns) hs h2)).mono fun m hm => ?_).succ
  intro b rest hf' hr
  have g1 := fun b rest => hm.1 b (.word w2 :: rest) (by nxt)
  have g2 := fun b => hm.2 b (.sym .RParen s' :: rest) (by nxt)
  simp [Expr.erase, zx, prefixF, parseCastExpression, parseExpr, g1, g2, hf, hk, hf2]

end Verif
