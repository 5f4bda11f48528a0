import Verif.Spec.PrintTokens
import Verif.Spec.WellFormed
import Verif.Spec.Spelling
import Verif.Proofs.Writer
import Verif.Proofs.Keyword
/-
The text written for a well-formed tree is the concatenation of the spellings of its tokens.
-/
set_option linter.unusedSimpArgs false
namespace Verif
open Spec

/-- The text of a token list. -/
def txt (ts : List Tok) : Str := ts.flatMap spell

theorem txt_nil : txt [] = [] := rfl
theorem txt_cons (t : Tok) (ts : List Tok) : txt (t :: ts) = spell t ++ txt ts := rfl
theorem txt_append (ts us : List Tok) : txt (ts ++ us) = txt ts ++ txt us := by simp [txt]

theorem spell_sp : spell sp = [' '] := rfl
theorem spell_lpar : spell lpar = ['('] := rfl
theorem spell_rpar : spell rpar = [')'] := rfl
theorem spell_comma : spell comma = [','] := rfl
theorem spell_dot : spell dot = ['.'] := rfl
theorem spell_star : spell star = ['*'] := rfl
theorem spell_eqT : spell eqT = ['='] := rfl
theorem spell_sym (k : Sym) (t : Str) : spell (.sym k t) = t := rfl
theorem spell_kT (k : KW) : spell (kT k) = k.str := rfl
theorem spell_klT (k : KW) : spell (klT k) = lower k.str := rfl
theorem spell_num (n : Nat) : spell (numTok n) = natStr n := rfl
theorem spell_number (s : Str) : spell (.number s) = s := rfl

theorem identOK_spell {d : Dialect} {v : Str} (h : identOK d v = true) : spell (identTok v) = v := by
  unfold identOK at h
  unfold identTok
  cases v with
  | nil => simp at h
  | cons q rest =>
    simp only at h ⊢
    split
    · rename_i hq
      rw [if_pos hq] at h
      simp only [Bool.and_eq_true, beq_iff_eq] at h
      have hl := h.1.1.2
      simp only [spell]
      congr 1
      cases hr : rest.reverse with
      | nil => simp at hr; subst hr; simp at hl
      | cons x xs =>
        have : rest = xs.reverse ++ [x] := by
          have := congrArg List.reverse hr; simpa using this
        subst this
        simp at hl
        simp [hl]
    · rfl

theorem escape_eq {s : Str} (h : s.contains '\'' = false) : escape s = s := by
  induction s with
  | nil => rfl
  | cons c s ih =>
    simp only [List.contains_cons, Bool.or_eq_false_iff, beq_eq_false_iff_ne] at h
    rw [escape, if_neg (fun e => h.1 e.symm), ih h.2]

theorem intStr_nat (n : Nat) : intStr n = natStr n := rfl
theorem intStr_toNat {i : Int} (h : 0 ≤ i) : intStr i = natStr i.toNat := by
  obtain ⟨n, rfl⟩ := Int.eq_ofNat_of_zero_le h
  rfl
theorem longOK_text {v : LongValue} (h : longOK v = true) : intStr v.long = natStr v.long.toNat := by
  simp only [longOK, Bool.and_eq_true, decide_eq_true_eq] at h
  exact intStr_toNat h.1
theorem uint_text {n : Nat} (h : sizeOK n = true) : intStr (intOfUint n) = natStr n := by
  simp only [sizeOK, decide_eq_true_eq] at h
  have : n % 2 ^ 64 = n := Nat.mod_eq_of_lt (by omega)
  rw [intOfUint, this, if_pos h]
  rfl

theorem texts_append (xs ys : List Step) : Step.texts (xs ++ ys) = Step.texts xs ++ Step.texts ys := by
  induction xs with
  | nil => rfl
  | cons x xs ih => simp [Step.texts, ih]

theorem text_idents (is : List Ident) (sep : Str) :
    Step.text (Step.idents' is sep) = sep.intercalate (is.map (·.value)) := by
  simp [Step.idents', Step.text]

theorem identsT_tail {d : Dialect} : ∀ {is : List Ident}, (is.all fun i => identOK d i.value) = true →
    (is.map (·.value)).flatMap ((str% ", ") ++ ·) = txt (sepT is ++ identsT is)
  | [], _ => rfl
  | i :: is, h => by
    simp only [List.all_cons, Bool.and_eq_true] at h
    rw [List.map_cons, List.flatMap_cons, identsT_tail h.2, identsT]
    simp [sepT, txt_cons, txt_append, txt_nil, identOK_spell h.1, spell_comma, spell_sp]

theorem identsT_text {d : Dialect} {is : List Ident} (h : (is.all fun i => identOK d i.value) = true) :
    (str% ", ").intercalate (is.map (·.value)) = txt (identsT is) := by
  cases is with
  | nil => rfl
  | cons i is =>
    simp only [List.all_cons, Bool.and_eq_true] at h
    rw [List.map_cons, intercalate_cons, identsT_tail h.2, identsT, txt_cons, identOK_spell h.1]

theorem dotTail_text {d : Dialect} : ∀ {is : List Ident}, (is.all fun i => identOK d i.value) = true →
    (is.map (·.value)).flatMap ((str% ".") ++ ·) = txt (dotTail is)
  | [], _ => rfl
  | i :: is, h => by
    simp only [List.all_cons, Bool.and_eq_true] at h
    rw [List.map_cons, List.flatMap_cons, dotTail_text h.2]
    simp [dotTail, txt_cons, identOK_spell h.1, spell_dot]

theorem dottedT_text {d : Dialect} {is : List Ident} (h : identsOK d is = true) :
    (str% ".").intercalate (is.map (·.value)) = txt (dottedT is) := by
  simp only [identsOK, Bool.and_eq_true] at h
  cases is with
  | nil => simp at h
  | cons i is =>
    have h2 := h.2
    simp only [List.all_cons, Bool.and_eq_true] at h2
    rw [List.map_cons, intercalate_cons, dottedT, txt_cons, identOK_spell h2.1, dotTail_text h2.2]

theorem identsOK_text {d : Dialect} {is : List Ident} (h : identsOK d is = true) :
    (str% ", ").intercalate (is.map (·.value)) = txt (identsT is) := by
  simp only [identsOK, Bool.and_eq_true] at h
  exact identsT_text h.2

theorem ObjectName.text_eq {d : Dialect} {o : ObjectName} (h : o.wf d = true) : o.wt.text = txt o.toks := by
  simp only [ObjectName.wt, Wt.text, Step.texts, text_idents, List.append_nil, ObjectName.toks]
  exact dottedT_text h

/-- The simplification set of this file. -/
macro "text_simp" "[" ls:Lean.Parser.Tactic.simpLemma,* "]" : tactic =>
  `(tactic| simp [Wt.text, Step.texts, Step.text, texts_append, text_idents, Step.if_, negated, txt_cons, txt_append,
    txt_nil, spell_sp, spell_lpar, spell_rpar, spell_comma, spell_dot, spell_star, spell_eqT, spell_sym, spell_kT,
    spell_klT, spell_num, spell_number, KW.str, lower, $ls,*])

theorem DataType.text_eq {d : Dialect} : ∀ {t : DataType}, t.wf d = true → t.wt.text = txt t.toks := by
  intro t h
  have hs : ∀ s : Str, ∀ o : Option Nat, sizeOptOK o = true →
      Step.texts (Step.typeWithOptionalLength s o) = s ++ txt (sizeT o) := by
    intro s o ho
    cases o with
    | none => text_simp [Step.typeWithOptionalLength, sizeT]
    | some n => text_simp [Step.typeWithOptionalLength, sizeT, Step.uint, uint_text ho]
  have hu : ∀ u : Bool, Step.texts (Step.if_ u unsignedBytes) = txt (unsignedT u) := by
    intro u; cases u
    · rfl
    · text_simp [unsignedBytes, unsignedT]; decide
  cases t with
  | custom ty => simp only [DataType.wf, Bool.and_eq_true] at h; exact ObjectName.text_eq h.1
  | array ty r =>
    cases ty <;> simp [DataType.wf] at h
    rfl
  | decimal p s a b u c =>
    simp only [DataType.wf, Bool.and_eq_true] at h
    cases p with
    | none => simp at h
    | some p =>
      have e1 := uint_text (n := p) h.1.2
      cases s with
      | none =>
        simp only [DataType.wt, Wt.text, texts_append, hu]
        text_simp [DataType.toks, Step.uint, e1]; decide
      | some s =>
        have e2 := uint_text (n := s) h.2
        simp only [DataType.wt, Wt.text, texts_append, hu]
        text_simp [DataType.toks, Step.uint, e1, e2]; decide
  | float s a b c u e =>
    simp only [DataType.wt, Wt.text, texts_append, hu, hs _ _ h]
    text_simp [DataType.toks]; decide
  | char s a b c =>
    simp only [DataType.wt, Wt.text, hs _ _ h]
    text_simp [DataType.toks]; decide
  | varchar s a b c =>
    simp only [DataType.wt, Wt.text, hs _ _ h]
    text_simp [DataType.toks]; decide
  | timestamp tz a b => cases tz <;> rfl
  | smallInt a b u c => simp only [DataType.wt, Wt.text, Step.texts, hu]; text_simp [DataType.toks]; decide
  | int a b u c => simp only [DataType.wt, Wt.text, Step.texts, hu]; text_simp [DataType.toks]; decide
  | bigInt a b u c => simp only [DataType.wt, Wt.text, Step.texts, hu]; text_simp [DataType.toks]; decide
  | real a b u c => simp only [DataType.wt, Wt.text, Step.texts, hu]; text_simp [DataType.toks]; decide
  | clob a b c => simp [DataType.wf] at h
  | binary a b c => simp [DataType.wf] at h
  | varbinary a b c => simp [DataType.wf] at h
  | blob a b c => simp [DataType.wf] at h
  | _ => rfl


theorem Operator.text_eq (o : Operator) : o.wt.text = txt o.type.toks := by
  obtain ⟨t, a, b⟩ := o
  cases t <;> rfl

theorem FrameBound.text_eq {b : FrameBound} (h : b.wf = true) : b.wt.text = txt b.toks := by
  cases b with
  | preceding n x y => simp only [FrameBound.wf] at h; text_simp [FrameBound.wt, FrameBound.toks, Step.uint, uint_text h]
  | following n x y => simp only [FrameBound.wf] at h; text_simp [FrameBound.wt, FrameBound.toks, Step.uint, uint_text h]
  | _ => rfl

theorem WindowFrame.text_eq {f : WindowFrame} (h : f.wf = true) : f.wt.text = txt f.toks := by
  obtain ⟨⟨a, b, u⟩, s, e⟩ := f
  cases e with
  | none =>
    simp only [WindowFrame.wf, Bool.and_true] at h
    cases u <;> text_simp [WindowFrame.wt, WindowFrame.toks, WindowFrameUnit.wt, WindowUnit.kw, FrameBound.text_eq h]
  | some e =>
    simp only [WindowFrame.wf, Bool.and_eq_true] at h
    cases u <;> text_simp [WindowFrame.wt, WindowFrame.toks, WindowFrameUnit.wt, WindowUnit.kw,
      FrameBound.text_eq h.1, FrameBound.text_eq h.2]

theorem JoinType.text_eq (j : JoinType) : j.wt.text = txt j.cond.toks := by
  obtain ⟨c, a, b⟩ := j
  cases c <;> rfl

theorem SetOp.text_eq (o : SetOp) : o.wt.text = o.kw.str := by cases o <;> rfl

theorem LimitExpr.text_eq {l : LimitExpr} (h : l.wf = true) : l.wt.text = txt l.toks := by
  obtain ⟨c, a, b, o⟩ := l
  cases c with
  | none =>
    cases o with
    | none => rfl
    | some o => simp [LimitExpr.wf] at h
  | some c =>
    cases o with
    | none =>
      simp only [LimitExpr.wf, Bool.and_true] at h
      text_simp [LimitExpr.wt, LimitExpr.toks, LongValue.wt, longOK_text h]
    | some o =>
      simp only [LimitExpr.wf, Bool.and_eq_true] at h
      text_simp [LimitExpr.wt, LimitExpr.toks, LongValue.wt, longOK_text h.1, longOK_text h.2]

theorem aliasT_text {d : Dialect} {a : Option Ident} (h : optIdentOK d a = true) :
    Step.texts (aliasSteps a) = txt (aliasT a) := by
  cases a with
  | none => rfl
  | some a => text_simp [aliasSteps, aliasT, Ident.wt, identOK_spell (d := d) h]

theorem notT_text (b : Bool) : Step.texts (negated b) = txt (notT b) := by cases b <;> rfl

theorem join_nil (sep : Str) : Step.join sep [] = [] := rfl
theorem join_cons (sep : Str) (x : Wt) (xs : List Wt) :
    Step.texts (Step.join sep (x :: xs)) = x.text ++ Step.texts (xs.flatMap fun y => [.bytes sep, .node y]) := by
  simp [Step.join, Step.texts, Step.text]

mutual

theorem Expr.text_eq {d : Dialect} {fns : FloatFns} : (e : Expr) → e.wf d fns = true →
    (e.wt fns).text = txt (e.toks fns)
  | .ident i, h => by
    simp only [Expr.wf] at h
    text_simp [Expr.wt, Expr.toks, Ident.wt, identOK_spell h]
  | .wildcard _, _ => by simp only [Expr.wt, Expr.toks]; rfl
  | .qualifiedWildcard is, h => by
    simp only [Expr.wf] at h
    text_simp [Expr.wt, Expr.toks]
    rw [dottedT_text h]
  | .compoundIdent is, h => by
    simp only [Expr.wf, Bool.and_eq_true] at h
    text_simp [Expr.wt, Expr.toks]
    rw [dottedT_text h.1]
  | .isNull x, h => by
    simp only [Expr.wf, Bool.and_eq_true] at h
    text_simp [Expr.wt, Expr.toks, Expr.text_eq x h.1]
  | .isNotNull x, h => by
    simp only [Expr.wf, Bool.and_eq_true] at h
    text_simp [Expr.wt, Expr.toks, Expr.text_eq x h.1]
  | .inList x [] neg _, h => by simp [Expr.wf] at h
  | .inList x (e :: l) neg _, h => by
    simp only [Expr.wf, Bool.and_eq_true, Expr.wfs] at h
    rw [Expr.wt, Wt.text, texts_append, texts_append, texts_append, texts_append, Expr.wts, join_cons,
      notT_text, Expr.tail_text l h.2.2, Expr.text_eq e h.2.1]
    text_simp [Expr.toks, Expr.toksL, Expr.text_eq x h.1.1.1]
  | .inSubQuery x q neg _, h => by
    simp only [Expr.wf, Bool.and_eq_true] at h
    rw [Expr.wt, Wt.text, texts_append, texts_append, notT_text]
    text_simp [Expr.toks, Expr.text_eq x h.1.1.1, QueryStmt.text_eq q h.1.2]
  | .between x neg low high, h => by
    simp only [Expr.wf, Bool.and_eq_true] at h
    rw [Expr.wt, Wt.text, texts_append, texts_append, notT_text]
    text_simp [Expr.toks, Expr.text_eq x h.1.1.1.1.1.1, Expr.text_eq low h.1.1.1.1.2, Expr.text_eq high h.1.2]
  | .binary l op r, h => by
    simp only [Expr.wf, Bool.and_eq_true] at h
    text_simp [Expr.wt, Expr.toks, Expr.text_eq l h.1.1.1.1, Expr.text_eq r h.1.1.1.2, Operator.text_eq]
  | .cast e ty _ _, h => by
    simp only [Expr.wf, Bool.and_eq_true] at h
    text_simp [Expr.wt, Expr.toks, Expr.text_eq e h.1, DataType.text_eq h.2]
  | .nested e _ _, h => by
    simp only [Expr.wf, Bool.and_eq_true] at h
    text_simp [Expr.wt, Expr.toks, Expr.text_eq e h]
  | .unary _ op e, h => by
    simp only [Expr.wf, Bool.and_eq_true] at h
    text_simp [Expr.wt, Expr.toks, Expr.text_eq e h.1, Operator.text_eq]
  | .function name [] _ over _, h => by
    simp only [Expr.wf, Bool.and_eq_true] at h
    rw [Expr.wt, Wt.text, texts_append, texts_append, texts_append, Expr.wts, join_nil, over_text over h.2]
    text_simp [Expr.toks, Expr.toksL, ObjectName.text_eq h.1.1]
  | .function name (e :: l) _ over _, h => by
    simp only [Expr.wf, Bool.and_eq_true, Expr.wfs] at h
    rw [Expr.wt, Wt.text, texts_append, texts_append, texts_append, Expr.wts, join_cons, over_text over h.2,
      Expr.tail_text l h.1.2.2, Expr.text_eq e h.1.2.1]
    text_simp [Expr.toks, Expr.toksL, ObjectName.text_eq h.1.1]
  | .caseExpr _ _ operand conds results else_, h => by
    simp only [Expr.wf, Bool.and_eq_true, beq_iff_eq] at h
    rw [Expr.wt, Wt.text, texts_append, texts_append, texts_append, texts_append, opt_text (str% " ") [sp] rfl operand h.1.1.1.1.1,
      opt_text (str% " ELSE ") [sp, kT .ELSE, sp] rfl else_ h.2,
      case_text conds _ _ (results_text results h.1.2) h.1.1.2]
    text_simp [Expr.toks]
  | .exists_ neg q _ _ _, h => by
    simp only [Expr.wf] at h
    rw [Expr.wt, Wt.text, texts_append, notT_text]
    text_simp [Expr.toks, QueryStmt.text_eq q h]
  | .subQuery _ _ q, h => by
    simp only [Expr.wf, Bool.and_eq_true] at h
    text_simp [Expr.wt, Expr.toks, QueryStmt.text_eq q h.1]
  | .long v, h => by
    simp only [Expr.wf] at h
    text_simp [Expr.wt, Expr.toks, LongValue.wt, longOK_text h]
  | .double _ _ v, h => by text_simp [Expr.wt, Expr.toks]
  | .singleQuoted _ _ s, h => by
    simp only [Expr.wf, Bool.not_eq_true'] at h
    text_simp [Expr.wt, Expr.toks, spell, escape_eq h]
  | .national _ _ s, h => by
    simp only [Expr.wf, Bool.not_eq_true'] at h
    text_simp [Expr.wt, Expr.toks, spell, escape_eq h]
  | .boolean _ _ b, _ => by cases b <;> simp only [Expr.wt, Expr.toks] <;> rfl
  | .null _ _, _ => by simp only [Expr.wt, Expr.toks]; rfl
  | .timeValue _ _ _ _, h => by simp [Expr.wf] at h

theorem Expr.tail_text {d : Dialect} {fns : FloatFns} : (es : List Expr) → Expr.wfs d fns es = true →
    Step.texts ((Expr.wts fns es).flatMap fun y => [.bytes (str% ", "), .node y]) = txt (sepT es ++ Expr.toksL fns es)
  | [], _ => by simp only [Expr.wts, Expr.toksL]; rfl
  | e :: es, h => by
    simp only [Expr.wfs, Bool.and_eq_true] at h
    rw [Expr.wts, List.flatMap_cons, texts_append, Expr.tail_text es h.2]
    text_simp [Expr.toksL, sepT, Expr.text_eq e h.1]

theorem results_text {d : Dialect} {fns : FloatFns} : (es : List Expr) → Expr.wfs d fns es = true →
    (Expr.wts fns es).map Wt.text = (Expr.toksS fns es).map txt
  | [], _ => by simp only [Expr.wts, Expr.toksS]; rfl
  | e :: es, h => by
    simp only [Expr.wfs, Bool.and_eq_true] at h
    simp only [Expr.wts, Expr.toksS, List.map_cons, Expr.text_eq e h.1, results_text es h.2]

theorem case_text {d : Dialect} {fns : FloatFns} : (cs : List Expr) → (rs : List Wt) → (ts : List (List Tok)) →
    rs.map Wt.text = ts.map txt → Expr.wfs d fns cs = true →
    Step.texts (caseSteps fns cs rs) = txt (Expr.toksW fns cs ts)
  | [], _, _, _, _ => by simp only [caseSteps, Expr.toksW]; rfl
  | _ :: _, [], [], _, _ => by simp only [caseSteps, Expr.toksW]; rfl
  | _ :: _, [], _ :: _, h, _ => by simp at h
  | _ :: _, _ :: _, [], h, _ => by simp at h
  | c :: cs, r :: rs, t :: ts, h, hc => by
    simp only [Expr.wfs, Bool.and_eq_true] at hc
    simp only [List.map_cons, List.cons.injEq] at h
    text_simp [caseSteps, Expr.toksW, Expr.text_eq c hc.1, case_text cs rs ts h.2 hc.2, h.1]

theorem opt_text {d : Dialect} {fns : FloatFns} (pre : Str) (pt : List Tok) (hp : pre = txt pt) :
    (e : Option Expr) → Expr.wfO d fns e = true → Step.texts (optSteps fns pre e) = txt (Expr.toksO fns pt e)
  | none, _ => by simp only [optSteps, Expr.toksO]; rfl
  | some e, h => by
    simp only [Expr.wfO] at h
    text_simp [optSteps, Expr.toksO, Expr.text_eq e h, hp]

theorem over_text {d : Dialect} {fns : FloatFns} : (w : Option WindowSpec) → WindowSpec.wfO d fns w = true →
    Step.texts (overSteps fns w) = txt (WindowSpec.toksO fns w)
  | none, _ => by simp only [overSteps, WindowSpec.toksO]; rfl
  | some w, h => by
    simp only [WindowSpec.wfO] at h
    text_simp [overSteps, WindowSpec.toksO, WindowSpec.text_eq w h]

theorem WindowSpec.text_eq {d : Dialect} {fns : FloatFns} : (w : WindowSpec) → w.wf d fns = true →
    (w.wt fns).text = txt (w.toks fns)
  | .mk ps os frame _ _, h => by
    simp only [WindowSpec.wf, Bool.and_eq_true] at h
    have hf : ∀ f, frame = some f → f.wt.text = txt f.toks := fun f e => WindowFrame.text_eq (by simpa [e] using h.2)
    cases ps with
    | nil =>
      cases os with
      | nil => cases frame <;> text_simp [WindowSpec.wt, WindowSpec.toks, hf]
      | cons o os =>
        simp only [OrderByExpr.wfs, Bool.and_eq_true] at h
        have h1 := join_cons (str% ", ") (o.wt fns) (OrderByExpr.wts fns os)
        rw [OrderByExpr.text_eq o h.1.2.1, OrderByExpr.tail_text os h.1.2.2] at h1
        cases frame <;> text_simp [WindowSpec.wt, WindowSpec.toks, OrderByExpr.wts, OrderByExpr.toksL, hf, h1]
    | cons p ps =>
      simp only [Expr.wfs, Bool.and_eq_true] at h
      have h0 := join_cons (str% ", ") (p.wt fns) (Expr.wts fns ps)
      rw [Expr.text_eq p h.1.1.1, Expr.tail_text ps h.1.1.2] at h0
      cases os with
      | nil => cases frame <;> text_simp [WindowSpec.wt, WindowSpec.toks, hf, h0, Expr.wts, Expr.toksL]
      | cons o os =>
        simp only [OrderByExpr.wfs, Bool.and_eq_true] at h
        have h1 := join_cons (str% ", ") (o.wt fns) (OrderByExpr.wts fns os)
        rw [OrderByExpr.text_eq o h.1.2.1, OrderByExpr.tail_text os h.1.2.2] at h1
        cases frame <;> text_simp [WindowSpec.wt, WindowSpec.toks, OrderByExpr.wts, OrderByExpr.toksL, hf, h0, h1,
          Expr.wts, Expr.toksL]

theorem OrderByExpr.text_eq {d : Dialect} {fns : FloatFns} : (o : OrderByExpr) → o.wf d fns = true →
    (o.wt fns).text = txt (o.toks fns)
  | .mk e _ asc, h => by
    simp only [OrderByExpr.wf] at h
    cases asc with
    | none => text_simp [OrderByExpr.wt, OrderByExpr.toks, Expr.text_eq e h]
    | some b => cases b <;> text_simp [OrderByExpr.wt, OrderByExpr.toks, Expr.text_eq e h]

theorem OrderByExpr.tail_text {d : Dialect} {fns : FloatFns} : (es : List OrderByExpr) →
    OrderByExpr.wfs d fns es = true →
    Step.texts ((OrderByExpr.wts fns es).flatMap fun y => [.bytes (str% ", "), .node y]) =
      txt (sepT es ++ OrderByExpr.toksL fns es)
  | [], _ => by simp only [OrderByExpr.wts, OrderByExpr.toksL]; rfl
  | e :: es, h => by
    simp only [OrderByExpr.wfs, Bool.and_eq_true] at h
    rw [OrderByExpr.wts, List.flatMap_cons, texts_append, OrderByExpr.tail_text es h.2]
    text_simp [OrderByExpr.toksL, sepT, OrderByExpr.text_eq e h.1]

theorem QueryStmt.text_eq {d : Dialect} {fns : FloatFns} : (q : QueryStmt) → q.wf d fns = true →
    (q.wt fns).text = txt (q.toks fns)
  | .mk _ ctes body os limit, h => by
    simp only [QueryStmt.wf, Bool.and_eq_true] at h
    have hl : ∀ l, limit = some l → l.wt.text = txt l.toks := fun l e =>
      LimitExpr.text_eq (by have := h.2; rw [e] at this; simp only [Bool.and_eq_true] at this; exact this.1)
    have hb := SetExpr.text_eq body h.1.1.2
    have h1 : Step.texts (if os.isEmpty then []
        else .bytes (str% " ORDER BY ") :: Step.join (str% ", ") (OrderByExpr.wts fns os)) =
        txt (if os.isEmpty then [] else sp :: kT .ORDER :: sp :: kT .BY :: sp :: OrderByExpr.toksL fns os) := by
      have h := h.1.2
      cases os with
      | nil => rfl
      | cons o os =>
        simp only [OrderByExpr.wfs, Bool.and_eq_true] at h
        have h1 := join_cons (str% ", ") (o.wt fns) (OrderByExpr.wts fns os)
        rw [OrderByExpr.text_eq o h.1, OrderByExpr.tail_text os h.2] at h1
        text_simp [OrderByExpr.wts, OrderByExpr.toksL, h1]
    have h0 : Step.texts (if ctes.isEmpty then []
        else .bytes (str% "WITH ") :: Step.join (str% ", ") (CTE.wts fns ctes) ++ [.bytes (str% " ")]) =
        txt (if ctes.isEmpty then [] else kT .WITH :: sp :: (CTE.toksL fns ctes ++ [sp])) := by
      have h := h.1.1.1
      cases ctes with
      | nil => rfl
      | cons o os =>
        simp only [CTE.wfs, Bool.and_eq_true] at h
        have h1 := join_cons (str% ", ") (o.wt fns) (CTE.wts fns os)
        rw [CTE.text_eq o h.1, CTE.tail_text os h.2] at h1
        text_simp [CTE.wts, CTE.toksL, h1]
    cases limit <;> (rw [QueryStmt.wt, Wt.text, texts_append, texts_append, texts_append, h0, h1]; text_simp [QueryStmt.toks, hb, hl])

theorem CTE.text_eq {d : Dialect} {fns : FloatFns} : (c : CTE) → c.wf d fns = true →
    (c.wt fns).text = txt (c.toks fns)
  | .mk alias q _, h => by
    simp only [CTE.wf, Bool.and_eq_true] at h
    text_simp [CTE.wt, CTE.toks, QueryStmt.text_eq q h.2, Ident.wt, identOK_spell h.1]

theorem CTE.tail_text {d : Dialect} {fns : FloatFns} : (es : List CTE) → CTE.wfs d fns es = true →
    Step.texts ((CTE.wts fns es).flatMap fun y => [.bytes (str% ", "), .node y]) = txt (sepT es ++ CTE.toksL fns es)
  | [], _ => by simp only [CTE.wts, CTE.toksL]; rfl
  | e :: es, h => by
    simp only [CTE.wfs, Bool.and_eq_true] at h
    rw [CTE.wts, List.flatMap_cons, texts_append, CTE.tail_text es h.2]
    text_simp [CTE.toksL, sepT, CTE.text_eq e h.1]

theorem SetExpr.text_eq {d : Dialect} {fns : FloatFns} : (s : SetExpr) → s.wf d fns = true →
    (s.wt fns).text = txt (s.toks fns)
  | .selectExpr _, h => by simp [SetExpr.wf] at h
  | .select s, h => by
    simp only [SetExpr.wf] at h
    simp only [SetExpr.wt, SetExpr.toks, SQLSelect.text_eq s h]
  | .query _ _ q, h => by
    simp only [SetExpr.wf] at h
    text_simp [SetExpr.wt, SetExpr.toks, QueryStmt.text_eq q h]
  | .setOp op all l r, h => by
    simp only [SetExpr.wf, Bool.and_eq_true] at h
    cases all <;> simp only [SetExpr.wt, Wt.text, texts_append, Step.texts, Step.text, SetOp.text_eq,
      SetExpr.text_eq l h.1.1.1, SetExpr.text_eq r h.1.1.2, SetExpr.toks, txt_append, txt_cons, spell_kT, spell_sp] <;>
      simp [Step.if_, Step.texts, Step.text, txt_cons, txt_nil, spell_kT, KW.str, spell_sp]

theorem SQLSelect.text_eq {d : Dialect} {fns : FloatFns} : (s : SQLSelect) → s.wf d fns = true →
    (s.wt fns).text = txt (s.toks fns)
  | .mk distinct projection from_ where_ groupBy having _, h => by
    simp only [SQLSelect.wf, Bool.and_eq_true] at h
    have hw := opt_text (str% " WHERE ") [sp, kT .WHERE, sp] rfl where_ h.1.1.1.2
    have hh := opt_text (str% " HAVING ") [sp, kT .HAVING, sp] rfl having h.1.2
    have hg : Step.texts (if groupBy.isEmpty then []
        else .bytes (str% " GROUP BY ") :: Step.join (str% ", ") (Expr.wts fns groupBy)) =
        txt (if groupBy.isEmpty then [] else sp :: kT .GROUP :: sp :: kT .BY :: sp :: Expr.toksL fns groupBy) := by
      have h := h.1.1.2
      cases groupBy with
      | nil => rfl
      | cons o os =>
        simp only [Expr.wfs, Bool.and_eq_true] at h
        have h1 := join_cons (str% ", ") (o.wt fns) (Expr.wts fns os)
        rw [Expr.text_eq o h.1, Expr.tail_text os h.2] at h1
        text_simp [Expr.wts, Expr.toksL, h1]
    have hf : Step.texts (if from_.isEmpty then []
        else .bytes (str% " FROM ") :: Step.join (str% ", ") (TableRef.wts fns from_)) =
        txt (if from_.isEmpty then [] else sp :: kT .FROM :: sp :: TableRef.toksL fns from_) := by
      have h := h.1.1.1.1.2
      cases from_ with
      | nil => rfl
      | cons o os =>
        simp only [TableRef.wfs, Bool.and_eq_true] at h
        have h1 := join_cons (str% ", ") (o.wt fns) (TableRef.wts fns os)
        rw [TableRef.text_eq o h.1, TableRef.tail_text os h.2] at h1
        text_simp [TableRef.wts, TableRef.toksL, h1]
    have hp : Step.texts (Step.join (str% ", ") (SelectItem.wts fns projection)) = txt (SelectItem.toksL fns projection) := by
      have h := h.1.1.1.1.1.2
      cases projection with
      | nil => simp only [SelectItem.wts, SelectItem.toksL]; rfl
      | cons o os =>
        simp only [SelectItem.wfs, Bool.and_eq_true] at h
        rw [SelectItem.wts, join_cons, SelectItem.text_eq o h.1, SelectItem.tail_text os h.2, SelectItem.toksL]
        simp only [txt_append]
    rw [SQLSelect.wt, Wt.text, texts_append, texts_append, texts_append, texts_append, texts_append, texts_append,
      hw, hh, hg, hf, hp]
    cases distinct <;> text_simp [SQLSelect.toks]

theorem SelectItem.text_eq {d : Dialect} {fns : FloatFns} : (s : SelectItem) → s.wf d fns = true →
    (s.wt fns).text = txt (s.toks fns)
  | .unnamed e, h => by
    simp only [SelectItem.wf, Bool.and_eq_true] at h
    simp only [SelectItem.wt, SelectItem.toks, Expr.text_eq e h.1]
  | .alias e a, h => by
    simp only [SelectItem.wf, Bool.and_eq_true] at h
    text_simp [SelectItem.wt, SelectItem.toks, Expr.text_eq e h.1.1, Ident.wt, identOK_spell h.1.2]
  | .qualifiedWildcard p, h => by
    simp only [SelectItem.wf] at h
    text_simp [SelectItem.wt, SelectItem.toks, ObjectName.text_eq h]
  | .wildcard _ _, h => by simp [SelectItem.wf] at h

theorem SelectItem.tail_text {d : Dialect} {fns : FloatFns} : (es : List SelectItem) →
    SelectItem.wfs d fns es = true →
    Step.texts ((SelectItem.wts fns es).flatMap fun y => [.bytes (str% ", "), .node y]) =
      txt (sepT es ++ SelectItem.toksL fns es)
  | [], _ => by simp only [SelectItem.wts, SelectItem.toksL]; rfl
  | e :: es, h => by
    simp only [SelectItem.wfs, Bool.and_eq_true] at h
    rw [SelectItem.wts, List.flatMap_cons, texts_append, SelectItem.tail_text es h.2]
    text_simp [SelectItem.toksL, sepT, SelectItem.text_eq e h.1]

theorem TableFactor.text_eq {d : Dialect} {fns : FloatFns} : (t : TableFactor) → t.wf d fns = true →
    (t.wt fns).text = txt (t.toks fns)
  | .table name alias args _ hints _, h => by
    simp only [TableFactor.wf, Bool.and_eq_true, List.isEmpty_iff] at h
    obtain ⟨⟨⟨hn, ha⟩, rfl⟩, hh⟩ := h
    cases hints with
    | nil => text_simp [TableFactor.wt, TableFactor.toks, ObjectName.text_eq hn, aliasT_text ha]
    | cons o os =>
      simp only [Expr.wfs, Bool.and_eq_true] at hh
      have h1 := join_cons (str% ", ") (o.wt fns) (Expr.wts fns os)
      rw [Expr.text_eq o hh.1, Expr.tail_text os hh.2] at h1
      text_simp [TableFactor.wt, TableFactor.toks, ObjectName.text_eq hn, aliasT_text ha, Expr.wts, Expr.toksL, h1]
  | .derived lateral _ _ _ q alias, h => by
    simp only [TableFactor.wf, Bool.and_eq_true] at h
    cases lateral <;> text_simp [TableFactor.wt, TableFactor.toks, QueryStmt.text_eq q h.1, aliasT_text h.2]

theorem TableRef.text_eq {d : Dialect} {fns : FloatFns} : (t : TableRef) → t.wf d fns = true →
    (t.wt fns).text = txt (t.toks fns)
  | .factor f, h => by
    simp only [TableRef.wf] at h
    simp only [TableRef.wt, TableRef.toks, TableFactor.text_eq f h]
  | .cross l f, h => by
    simp only [TableRef.wf, Bool.and_eq_true] at h
    text_simp [TableRef.wt, TableRef.toks, TableRef.text_eq l h.1.1, TableFactor.text_eq f h.2]
  | .partitioned _ _ _, h => by simp [TableRef.wf] at h
  | .qualified l ty r spec, h => by
    simp only [TableRef.wf, Bool.and_eq_true] at h
    text_simp [TableRef.wt, TableRef.toks, TableRef.text_eq l h.1.1.1, TableRef.text_eq r h.1.2,
      JoinSpec.text_eq spec h.2, JoinType.text_eq]
  | .natural l ty r, h => by
    simp only [TableRef.wf, Bool.and_eq_true] at h
    text_simp [TableRef.wt, TableRef.toks, TableRef.text_eq l h.1.1, TableRef.text_eq r h.2, JoinType.text_eq]

theorem TableRef.tail_text {d : Dialect} {fns : FloatFns} : (es : List TableRef) →
    TableRef.wfs d fns es = true →
    Step.texts ((TableRef.wts fns es).flatMap fun y => [.bytes (str% ", "), .node y]) =
      txt (sepT es ++ TableRef.toksL fns es)
  | [], _ => by simp only [TableRef.wts, TableRef.toksL]; rfl
  | e :: es, h => by
    simp only [TableRef.wfs, Bool.and_eq_true] at h
    rw [TableRef.wts, List.flatMap_cons, texts_append, TableRef.tail_text es h.2]
    text_simp [TableRef.toksL, sepT, TableRef.text_eq e h.1]

theorem JoinSpec.text_eq {d : Dialect} {fns : FloatFns} : (s : JoinSpec) → s.wf d fns = true →
    (s.wt fns).text = txt (s.toks fns)
  | .namedColumns cols _ _, h => by
    simp only [JoinSpec.wf] at h
    text_simp [JoinSpec.wt, JoinSpec.toks]
    rw [identsOK_text h]
  | .condition e _, h => by
    simp only [JoinSpec.wf] at h
    text_simp [JoinSpec.wt, JoinSpec.toks, Expr.text_eq e h]

end


theorem join_text {α : Type} {wt : α → Wt} {tl : List α → List Tok} {tk : α → List Tok} {ok : α → Bool}
    (hnil : tl [] = []) (hcons : ∀ x xs, tl (x :: xs) = tk x ++ (sepT xs ++ tl xs))
    (h1 : ∀ x, ok x = true → (wt x).text = txt (tk x)) {xs : List α} (h : xs.all ok = true) :
    Step.texts (Step.join (str% ", ") (xs.map wt)) = txt (tl xs) := by
  have tail : ∀ xs : List α, xs.all ok = true →
      Step.texts ((xs.map wt).flatMap fun y => [.bytes (str% ", "), .node y]) = txt (sepT xs ++ tl xs) := by
    intro xs h
    induction xs with
    | nil => simp [hnil, sepT, txt_nil, Step.texts]
    | cons x xs ih =>
      simp only [List.all_cons, Bool.and_eq_true] at h
      rw [List.map_cons, List.flatMap_cons, texts_append, ih h.2, hcons]
      text_simp [sepT, h1 x h.1]
  cases xs with
  | nil => simp [hnil, txt_nil, Step.texts, Step.join]
  | cons x xs =>
    simp only [List.all_cons, Bool.and_eq_true] at h
    rw [List.map_cons, join_cons, tail xs h.2, hcons, h1 x h.1]
    simp only [txt_append]

theorem Expr.wts_eq (fns : FloatFns) (es : List Expr) : Expr.wts fns es = es.map (Expr.wt fns) := by
  induction es with
  | nil => rfl
  | cons e es ih => rw [Expr.wts, ih, List.map_cons]

theorem Expr.wfs_eq (d : Dialect) (fns : FloatFns) (es : List Expr) : Expr.wfs d fns es = es.all (Expr.wf d fns) := by
  induction es with
  | nil => rfl
  | cons e es ih => rw [Expr.wfs, ih, List.all_cons]

theorem RowValueExpr.text_eq {d : Dialect} {fns : FloatFns} {r : RowValueExpr} (h : r.wf d fns = true) :
    (r.wt fns).text = txt (r.toks fns) := by
  simp only [RowValueExpr.wf, Bool.and_eq_true, Expr.wfs_eq] at h
  have := join_text (tl := Expr.toksL fns) (tk := Expr.toks fns) (by rw [Expr.toksL])
    (fun x xs => by rw [Expr.toksL]) (fun x hx => Expr.text_eq (d := d) (fns := fns) x hx) h.2
  text_simp [RowValueExpr.wt, RowValueExpr.toks, this]

theorem InsertSource.text_eq {d : Dialect} {fns : FloatFns} {s : InsertSource} (h : s.wf d fns = true) :
    (s.wt fns).text = txt (s.toks fns) := by
  cases s with
  | subQuery q => exact QueryStmt.text_eq q h
  | constructor p rows =>
    simp only [InsertSource.wf, Bool.and_eq_true] at h
    have := join_text (tl := rowsT fns) (tk := RowValueExpr.toks fns) rfl (fun _ _ => rfl)
      (fun _ hx => RowValueExpr.text_eq (d := d) (fns := fns) hx) h.2
    text_simp [InsertSource.wt, InsertSource.toks, this]

theorem Assignment.text_eq {d : Dialect} {fns : FloatFns} {a : Assignment} (h : a.wf d fns = true) :
    (a.wt fns).text = txt (a.toks fns) := by
  simp only [Assignment.wf, Bool.and_eq_true] at h
  text_simp [Assignment.wt, Assignment.toks, Ident.wt, identOK_spell h.1, Expr.text_eq a.value h.2, spell_eqT]

theorem assignments_text {d : Dialect} {fns : FloatFns} {as : List Assignment} (h : as.all (Assignment.wf d fns) = true) :
    Step.texts (Step.join (str% ", ") (as.map (Assignment.wt fns))) = txt (assignmentsT fns as) :=
  join_text (tl := assignmentsT fns) rfl (fun _ _ => rfl) (fun _ hx => Assignment.text_eq (d := d) (fns := fns) hx) h

theorem TableConstraintSpec.text_eq {d : Dialect} {fns : FloatFns} {s : TableConstraintSpec} (h : s.wf d fns = true) :
    (s.wt fns).text = txt (s.toks fns) := by
  cases s with
  | unique p a b c cols =>
    simp only [TableConstraintSpec.wf] at h
    cases p <;> text_simp [TableConstraintSpec.wt, TableConstraintSpec.toks, colsT, identsOK_text h]
  | referential p cols key =>
    simp only [TableConstraintSpec.wf, Bool.and_eq_true] at h
    text_simp [TableConstraintSpec.wt, TableConstraintSpec.toks, colsT, identsOK_text h.1.1, identsOK_text h.2,
      ReferenceKeyExpr.wt, Ident.wt, identOK_spell h.1.2]
  | check a b e =>
    simp only [TableConstraintSpec.wf] at h
    text_simp [TableConstraintSpec.wt, TableConstraintSpec.toks, Expr.text_eq e h]

theorem constraintName_text {d : Dialect} {n : Option Ident} (h : optIdentOK d n = true) :
    Step.texts (constraintName n) = txt (constraintNameT n) := by
  cases n with
  | none => rfl
  | some n => text_simp [constraintName, constraintNameT, Ident.wt, identOK_spell (d := d) h]

theorem TableConstraint.text_eq {d : Dialect} {fns : FloatFns} {s : TableConstraint} (h : s.wf d fns = true) :
    (s.wt fns).text = txt (s.toks fns) := by
  simp only [TableConstraint.wf, Bool.and_eq_true] at h
  text_simp [TableConstraint.wt, TableConstraint.toks, constraintName_text h.1, TableConstraintSpec.text_eq h.2]

theorem ColumnSpec.text_eq {d : Dialect} {fns : FloatFns} {s : ColumnSpec} (h : s.wf d fns = true) :
    (s.wt fns).text = txt (s.toks fns) := by
  cases s with
  | notNull => rfl
  | unique p a b c => cases p <;> rfl
  | references a b name cols =>
    simp only [ColumnSpec.wf, Bool.and_eq_true] at h
    text_simp [ColumnSpec.wt, ColumnSpec.toks, colsT, identsOK_text h.2, ObjectName.text_eq h.1]
  | check e a b =>
    simp only [ColumnSpec.wf] at h
    text_simp [ColumnSpec.wt, ColumnSpec.toks, Expr.text_eq e h]

theorem columnConstraints_text {d : Dialect} {fns : FloatFns} {cs : List ColumnConstraint}
    (h : cs.all (ColumnConstraint.wf d fns) = true) :
    Step.texts (cs.map fun x => .node (x.wt fns)) = txt (columnConstraintsT fns cs) := by
  induction cs with
  | nil => rfl
  | cons c cs ih =>
    simp only [List.all_cons, Bool.and_eq_true, ColumnConstraint.wf] at h
    rw [List.map_cons, Step.texts, ih h.2]
    text_simp [columnConstraintsT, ColumnConstraint.wt, constraintName_text h.1.1, ColumnSpec.text_eq h.1.2]

theorem decorations_text (ds : List AutoIncrement) :
    Step.texts (ds.flatMap fun m => [.bytes (str% " "), .node m.wt]) = txt (decorationsT ds) := by
  induction ds with
  | nil => rfl
  | cons c cs ih => text_simp [decorationsT, AutoIncrement.wt]; exact ih

theorem ColumnDef.text_eq {d : Dialect} {fns : FloatFns} {c : ColumnDef} (h : c.wf d fns = true) :
    (c.wt fns).text = txt (c.toks fns) := by
  obtain ⟨name, ty, def_, decs, cons⟩ := c
  simp only [ColumnDef.wf, Bool.and_eq_true] at h
  rw [ColumnDef.wt, Wt.text, texts_append, texts_append, texts_append, decorations_text,
    columnConstraints_text h.1.2]
  cases def_ with
  | none => text_simp [ColumnDef.toks, Expr.toksO, Ident.wt, identOK_spell h.1.1.1, DataType.text_eq h.1.1.2]
  | some e =>
    have h2 := h.2
    simp only [Bool.and_eq_true] at h2
    text_simp [ColumnDef.toks, Expr.toksO, Ident.wt, identOK_spell h.1.1.1, DataType.text_eq h.1.1.2,
      Expr.text_eq e h2.1.1]

theorem TableElement.text_eq {d : Dialect} {fns : FloatFns} {c : TableElement} (h : c.wf d fns = true) :
    (c.wt fns).text = txt (c.toks fns) := by
  cases c with
  | constraint c => exact TableConstraint.text_eq h
  | column c => exact ColumnDef.text_eq h

theorem TableOption.text_eq {d : Dialect} {c : TableOption} (h : c.wf d = true) : c.wt.text = txt c.toks := by
  cases c with
  | engine a e n =>
    simp only [TableOption.wf] at h
    cases e <;> text_simp [TableOption.wt, TableOption.toks, Ident.wt, identOK_spell h, spell_eqT]
  | charset dflt a b e n =>
    simp only [TableOption.wf] at h
    cases e <;> cases dflt <;> text_simp [TableOption.wt, TableOption.toks, Ident.wt, identOK_spell h, spell_eqT]

theorem AlterColumnAction.text_eq {d : Dialect} {fns : FloatFns} {c : AlterColumnAction} (h : c.wf d fns = true) :
    (c.wt fns).text = txt (c.toks fns) := by
  cases c with
  | setDefault p e =>
    simp only [AlterColumnAction.wf, Bool.and_eq_true] at h
    text_simp [AlterColumnAction.wt, AlterColumnAction.toks, Expr.text_eq e h.1]
  | pgAlterDataType p ty =>
    simp only [AlterColumnAction.wf] at h
    text_simp [AlterColumnAction.wt, AlterColumnAction.toks, DataType.text_eq h]
  | _ => rfl

theorem AlterTableAction.text_eq {d : Dialect} {fns : FloatFns} {c : AlterTableAction} (h : c.wf d fns = true) :
    (c.wt fns).text = txt (c.toks fns) := by
  cases c with
  | addColumn p c =>
    simp only [AlterTableAction.wf] at h
    text_simp [AlterTableAction.wt, AlterTableAction.toks, ColumnDef.text_eq h]
  | alterColumn n p a =>
    simp only [AlterTableAction.wf, Bool.and_eq_true] at h
    text_simp [AlterTableAction.wt, AlterTableAction.toks, AlterColumnAction.text_eq h.2, Ident.wt, identOK_spell h.1]
  | removeColumn n c a b =>
    simp only [AlterTableAction.wf] at h
    cases c <;> text_simp [AlterTableAction.wt, AlterTableAction.toks, Ident.wt, identOK_spell h, cascadeT]
  | addConstraint p c =>
    simp only [AlterTableAction.wf] at h
    text_simp [AlterTableAction.wt, AlterTableAction.toks, TableConstraint.text_eq h]
  | dropConstraint n a c b =>
    simp only [AlterTableAction.wf] at h
    cases c <;> text_simp [AlterTableAction.wt, AlterTableAction.toks, Ident.wt, identOK_spell h, cascadeT]

theorem Stmt.text_eq {d : Dialect} {fns : FloatFns} : (s : Stmt) → s.wf d fns = true →
    (s.wt fns).text = txt (s.toks fns)
  | .query q, h => by
    simp only [Stmt.wf, Bool.and_eq_true] at h
    exact QueryStmt.text_eq q h.1
  | .insert p name cols source assigns, h => by
    simp only [Stmt.wf, Bool.and_eq_true] at h
    have hs := InsertSource.text_eq h.1.1.2
    have ha := assignments_text h.1.2
    have hn := ObjectName.text_eq h.1.1.1.1
    have hc : cols.isEmpty = false → (str% ", ").intercalate (cols.map (·.value)) = txt (identsT cols) := fun e =>
      identsOK_text (d := d) (by simpa [e] using h.1.1.1.2)
    cases e1 : cols.isEmpty <;> cases e2 : assigns.isEmpty <;>
      text_simp [Stmt.wt, Stmt.toks, hs, hn, ha, e1, e2, colsT, hc]
  | .copy _ _ _ _, h => by simp [Stmt.wf] at h
  | .update p name assigns selection, h => by
    simp only [Stmt.wf, Bool.and_eq_true] at h
    have hn := ObjectName.text_eq h.1.1.1
    have ha := assignments_text h.1.2
    cases selection with
    | none => text_simp [Stmt.wt, Stmt.toks, hn, ha, Expr.toksO]
    | some e => text_simp [Stmt.wt, Stmt.toks, hn, ha, Expr.toksO, Expr.text_eq e h.2]
  | .delete p name selection, h => by
    simp only [Stmt.wf, Bool.and_eq_true] at h
    have hn := ObjectName.text_eq h.1
    cases selection with
    | none => text_simp [Stmt.wt, Stmt.toks, hn, Expr.toksO]
    | some e => text_simp [Stmt.wt, Stmt.toks, hn, Expr.toksO, Expr.text_eq e h.2]
  | .createView p name q m, h => by
    simp only [Stmt.wf, Bool.and_eq_true] at h
    cases m <;> text_simp [Stmt.wt, Stmt.toks, ObjectName.text_eq h.1.1, QueryStmt.text_eq q h.1.2]
  | .createTable p name elements ne options, h => by
    simp only [Stmt.wf, Bool.and_eq_true] at h
    have h1 := join_text (tl := elementsT fns) rfl (fun _ _ => rfl)
      (fun _ hx => TableElement.text_eq (d := d) (fns := fns) hx) h.1.1.2
    have h2 := join_text (tl := optionsT) rfl (fun _ _ => rfl)
      (fun _ hx => TableOption.text_eq (d := d) hx) h.2
    cases ne <;> text_simp [Stmt.wt, Stmt.toks, ObjectName.text_eq h.1.1.1.1, h1, h2]
  | .alterTable p name action, h => by
    simp only [Stmt.wf, Bool.and_eq_true] at h
    text_simp [Stmt.wt, Stmt.toks, ObjectName.text_eq h.1, AlterTableAction.text_eq h.2]
  | .dropTable names c a ie b, h => by
    simp only [Stmt.wf, Bool.and_eq_true] at h
    have h1 := join_text (tl := Stmt.toks.namesT) rfl (fun _ _ => rfl)
      (fun _ hx => ObjectName.text_eq (d := d) hx) h.2
    cases ie <;> cases c <;> text_simp [Stmt.wt, Stmt.toks, cascadeT, h1]
  | .createIndex p name u iname mname cols a selection, h => by
    simp only [Stmt.wf, Bool.and_eq_true] at h
    have hi : ∀ i, iname = some i → spell (identTok i.value) = i.value := fun i e =>
      identOK_spell (d := d) (by simpa [e, optIdentOK] using h.1.1.1.2)
    have hm : ∀ i, mname = some i → spell (identTok i.value) = i.value := fun i e =>
      identOK_spell (d := d) (by simpa [e, optIdentOK] using h.1.1.2)
    have he : ∀ e, selection = some e → (e.wt fns).text = txt (e.toks fns) := fun e e' =>
      Expr.text_eq (d := d) e (by simpa [e', Expr.wfO] using h.2)
    cases u <;> cases iname <;> cases mname <;> cases selection <;>
      text_simp [Stmt.wt, Stmt.toks, ObjectName.text_eq h.1.1.1.1, colsT, identsOK_text h.1.2, Ident.wt, hi, hm, he,
        Expr.toksO]
  | .dropIndex p names, h => by
    simp only [Stmt.wf] at h
    text_simp [Stmt.wt, Stmt.toks, identsOK_text h]
  | .explain s p, h => by
    simp only [Stmt.wf] at h
    text_simp [Stmt.wt, Stmt.toks, Stmt.text_eq s h]

end Verif
