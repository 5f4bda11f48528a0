/-
C45: `Pos` and `End` of parsed expressions.
-/
import Verif.Proofs.NodePos
import Verif.Proofs.KernelRfl
import Verif.Props.Termination
set_option maxRecDepth 100000

namespace Verif

/-- The tokens of the expression that `ParseExpr` returns, wherever in the input the parser stands. -/
theorem expr_spanned {fns : FloatFns} {n : Nat} {mode : Bool} {s s' : PState} {e : Expr}
    (hs : s.idx ≤ s.toks.length) (hk : KwOK s.toks) (hst : StarsOk s.toks)
    (h : (parseExpr (Parsers.at fns n)).run mode s = .ok e s') :
    ∃ f l, (readBetween s s').head? = some f ∧ (readBetween s s').getLast? = some l ∧
      (e.leftOk = true → e.pos = some f.from_) ∧ (e.rightOk = true → e.end_ = some l.to_) ∧
      ∀ rp lp q, e = .subQuery rp lp q → e.pos = some l.to_ ∧ e.end_ = some f.from_ := by
  obtain ⟨h1, h2, h3⟩ := run_runI hs h
  have hi : s.before.length ≤ (s.toks.filter Token.sig).length := by
    rw [PState.before, List.length_reverse]
    exact ((List.take_sublist _ _).filter _).length_le
  obtain ⟨hlt, hle⟩ := expr_progress fns hk.filter hi h3
  have hsp := (sp_at fns (T := s.toks.filter Token.sig) (fun t ht => hst t (List.mem_filter.1 ht).1) n).subexpr 0 _ _ _ h3
  rw [readBetween_eq h1 hlt]
  generalize hT : s.toks.filter Token.sig = T at *
  generalize s.before.length = i at *
  generalize s'.before.length = j at *
  have hf : ((T.take j).drop i).head? = T[i]? := by
    rw [List.head?_drop, List.getElem?_take, if_pos hlt]
  have hl : ((T.take j).drop i).getLast? = T[j - 1]? := by
    rw [List.getLast?_drop, if_neg (by rw [List.length_take]; omega), List.getLast?_eq_getElem?, List.length_take,
      List.getElem?_take, if_pos (by omega), Nat.min_eq_left hle]
  rw [hf, hl]
  have h4 : i < T.length := by omega
  have h5 : j - 1 < T.length := by omega
  refine ⟨T[i], T[j - 1], List.getElem?_eq_getElem h4, List.getElem?_eq_getElem h5, ?_, ?_, ?_⟩
  · intro ho
    obtain ⟨f, h6, h7⟩ := hsp.pos ho
    rw [List.getElem?_eq_getElem h4, Option.some.injEq] at h6
    rw [h7, h6]
  · intro ho
    obtain ⟨k, l, rfl, h6, h7⟩ := hsp.end_ ho
    rw [List.getElem?_eq_getElem (by omega : k < T.length), Option.some.injEq] at h6
    simp only [Nat.add_sub_cancel]
    rw [h7, h6]
  · intro rp lp q hq
    obtain ⟨f, k, l, h6, rfl, h8, h9, h10⟩ := hsp.sub rp lp q hq
    rw [List.getElem?_eq_getElem h4, Option.some.injEq] at h6
    rw [List.getElem?_eq_getElem (by omega : k < T.length), Option.some.injEq] at h8
    simp only [Nat.add_sub_cancel]
    subst hq
    simp only [Expr.pos, Expr.end_, Option.some.injEq]
    exact ⟨by rw [h10, h8], by rw [h9, h6]⟩

/-- C45, part: `Pos` is the start of the first token of the expression, unless the expression begins with a
subquery in parentheses or a `::` cast; `End` is the end of its last token, unless it ends with one of those, with
`IS [NOT] NULL`, with `.*` or with an OVER clause. -/
theorem C45_bracket_partial {fns : FloatFns} {n : Nat} {mode : Bool} {s s' : PState} {e : Expr}
    (hs : s.idx ≤ s.toks.length) (hk : KwOK s.toks) (hst : StarsOk s.toks)
    (h : (parseExpr (Parsers.at fns n)).run mode s = .ok e s') :
    ∃ f l, (readBetween s s').head? = some f ∧ (readBetween s s').getLast? = some l ∧
      (e.leftOk = true → e.pos = some f.from_) ∧ (e.rightOk = true → e.end_ = some l.to_) := by
  obtain ⟨f, l, h1, h2, h3, h4, -⟩ := expr_spanned hs hk hst h
  exact ⟨f, l, h1, h2, h3, h4⟩

/-- C45, exact for subqueries in parentheses: the two positions are always exchanged. -/
theorem C45_subquery_exchanged {fns : FloatFns} {n : Nat} {mode : Bool} {s s' : PState} {rp lp : Pos} {q : QueryStmt}
    (hs : s.idx ≤ s.toks.length) (hk : KwOK s.toks) (hst : StarsOk s.toks)
    (h : (parseExpr (Parsers.at fns n)).run mode s = .ok (.subQuery rp lp q) s') :
    ∃ f l, (readBetween s s').head? = some f ∧ (readBetween s s').getLast? = some l ∧
      (Expr.subQuery rp lp q).pos = some l.to_ ∧ (Expr.subQuery rp lp q).end_ = some f.from_ := by
  obtain ⟨f, l, h1, h2, -, -, h5⟩ := expr_spanned hs hk hst h
  exact ⟨f, l, h1, h2, h5 _ _ _ rfl⟩

theorem Scans.starsOk {d : Dialect} {s s' : TState} {ts : List Token} (h : Scans d s ts s') : StarsOk ts := by
  induction h with
  | refl => intro t ht; cases ht
  | @step s t s1 ts s2 hn _ ih =>
    intro u hu hm
    rcases List.mem_cons.1 hu with rfl | hu
    · cases hn with
      | sym k text r l c h1 h2 =>
        have : k = .Mult := by simpa [Token.isSym] using hm
        subst this
        simp [Spec.symText] at h1
        subst h1
        rfl
      | _ => simp [Token.isSym] at hm
    · exact ih u hu hm

/-- The hypotheses about the tokens hold of every tokenized text. -/
theorem C45_source {d : Dialect} {keep : Bool} {fuel : Nat} {src : Str} {toks : List Token}
    (ht : tokenize d keep fuel src = .ok toks) : KwOK toks ∧ StarsOk toks := by
  refine ⟨tokenizeFrom_kwOK ht, ?_⟩
  obtain ⟨all, s', h1, -, rfl⟩ := tokenize_ok_inv ht
  intro t h
  refine h1.starsOk t ?_
  cases keep with
  | true => exact h
  | false => exact (List.mem_filter.1 h).1

/-- `Pos` and `End` of the expression in a text, and the first and last position of its tokens. -/
def exprSpan (fns : FloatFns) (src : Str) : Option ((Option Pos × Option Pos) × (Option Pos × Option Pos)) :=
  match tokenize genericDialect true (src.length + 1) src with
  | .ok toks =>
    match (parseExpr (Parsers.at fns (3 * toks.length + 3))).run false (newParser toks) with
    | .ok e s => some ((e.pos, e.end_),
        ((readBetween (newParser toks) s).head?.map (·.from_), (readBetween (newParser toks) s).getLast?.map (·.to_)))
    | _ => none
  | _ => none

/-- `a + f(1, 2) ` over several tokens, with blanks around: right. -/
example (fns : FloatFns) : exprSpan fns (str% " a +  f(1,2) ) ") =
    some ((some ⟨1, 2⟩, some ⟨1, 13⟩), (some ⟨1, 2⟩, some ⟨1, 13⟩)) := by kernel_rfl
example (fns : FloatFns) : exprSpan fns (str% "NOT CASE WHEN a THEN 1 END") =
    some ((some ⟨1, 1⟩, some ⟨1, 27⟩), (some ⟨1, 1⟩, some ⟨1, 27⟩)) := by kernel_rfl

/-- Each exception of `C45_bracket_partial` is needed. -/
theorem C45_exceptions (fns : FloatFns) :
    exprSpan fns (str% "(SELECT 1)") = some ((some ⟨1, 11⟩, some ⟨1, 1⟩), (some ⟨1, 1⟩, some ⟨1, 11⟩)) ∧
    exprSpan fns (str% "a::int") = some ((some ⟨0, 0⟩, some ⟨0, 0⟩), (some ⟨1, 1⟩, some ⟨1, 7⟩)) ∧
    exprSpan fns (str% "a  IS NULL") = some ((some ⟨1, 1⟩, some ⟨1, 10⟩), (some ⟨1, 1⟩, some ⟨1, 11⟩)) ∧
    exprSpan fns (str% "a IS NOT\nNULL") = some ((some ⟨1, 1⟩, some ⟨1, 14⟩), (some ⟨1, 1⟩, some ⟨2, 5⟩)) ∧
    exprSpan fns (str% "a.*") = some ((some ⟨1, 1⟩, some ⟨1, 2⟩), (some ⟨1, 1⟩, some ⟨1, 4⟩)) ∧
    exprSpan fns (str% "f() OVER ()") = some ((some ⟨1, 1⟩, some ⟨0, 0⟩), (some ⟨1, 1⟩, some ⟨1, 12⟩)) := by
  refine ⟨?_, ?_, ?_, ?_, ?_, ?_⟩ <;> kernel_rfl

/-- C45 as stated is false. -/
theorem C45_false : ¬ ∀ (fns : FloatFns) (src : Str) (p q f l : Option Pos),
    exprSpan fns src = some ((p, q), (f, l)) → p = f ∧ q = l := by
  intro h
  have := h ⟨fun _ => none, fun _ => []⟩ _ _ _ _ _ (C45_exceptions _).1
  exact absurd this (by decide)

end Verif
