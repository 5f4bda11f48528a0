import Verif.Spec.Grammar
/-
The sentences of the grammar consist of the tokens `inStatement`.
-/
set_option linter.unusedVariables false
namespace Verif
open Spec

theorem Spec.Nested.append {st : Bool} {s s' s'' : List Bracket} {a b : List Token} (h : Nested st s a s')
    (h' : Nested st s' b s'') : Nested st s (a ++ b) s'' := by
  induction h with
  | nil => exact h'
  | other h1 h2 _ ih => exact .other h1 h2 (ih h')
  | opening h1 _ ih => exact .opening h1 (ih h')
  | closing h1 _ ih => exact .closing h1 (ih h')
  | ignored h0 h1 h2 _ ih => exact .ignored h0 h1 h2 (ih h')

/-- Tokens without brackets. -/
theorem nested_of_none {st : Bool} {ts : List Token} (h : ∀ t ∈ ts, opens t.tok = none ∧ closes t.tok = none)
    (s : List Bracket) : Nested st s ts s := by
  induction ts with
  | nil => exact .nil
  | cons t ts ih => exact .other (h t (by simp)).1 (h t (by simp)).2 (ih fun x hx => h x (by simp [hx]))

/-- The sentences consist of tokens that occur in statements, and where the brackets `s` are open they leave `s'` open. -/
def Over (L : Lang) (s s' : List Bracket := []) : Prop :=
  ∀ ts, L ts → (∀ t ∈ ts, inStatement t.tok = true) ∧ ∀ u, Nested true (s ++ u) ts (s' ++ u)

/-- Those of each language do. -/
def Overs (as : List Lang) : Prop := ∀ a ∈ as, Over a

/-- Those of the language do, if there is one. -/
def OverO (o : Option Lang) : Prop := ∀ a, o = some a → Over a

/-- A token that may occur and is no bracket. -/
def plainTok (t : Tok) : Bool := inStatement t && opens t == none && closes t == none

namespace Over
variable {a b c : Lang} {p p' : Pos} {s s' s'' : List Bracket}

/-- Sentences of one token that is no bracket. -/
theorem tok (h : ∀ ts, a ts → ∃ t, ts = [t] ∧ plainTok t.tok = true) : Over a s s := fun ts hts => by
  obtain ⟨t, rfl, ht⟩ := h ts hts
  simp only [plainTok, Bool.and_eq_true, beq_iff_eq] at ht
  exact ⟨by simpa using ht.1.1, fun u => .other ht.1.2 ht.2 .nil⟩

theorem empty (h : ∀ ts, a ts → ts = []) : Over a s s := fun ts hts => by
  rw [h ts hts]
  exact ⟨by simp, fun u => .nil⟩

theorem eps : Over eps s s := empty fun ts h => h
theorem never : Over never s s' := fun ts h => h.elim
theorem anything : Over anything s s := fun ts h => ⟨h.1, fun u => h.2 _⟩
theorem unset : Over (Spec.unset p) s s := empty fun ts h => h.1
theorem only {q : Prop} : Over (Spec.only q) s s := empty fun ts h => h.1

theorem seq (ha : Over a s s') (hb : Over b s' s'') : Over (a ⬝ b) s s'' := fun ts h => by
  obtain ⟨us, vs, rfl, h1, h2⟩ := h
  refine ⟨fun t ht => ?_, fun u => ((ha us h1).2 u).append ((hb vs h2).2 u)⟩
  rcases List.mem_append.1 ht with ht | ht
  · exact (ha us h1).1 t ht
  · exact (hb vs h2).1 t ht

/-- Inside of brackets. -/
theorem inside (ha : Over a) : Over a s s := fun ts h =>
  ⟨(ha ts h).1, fun u => by have := (ha ts h).2 (s ++ u); simpa using this⟩

theorem cat (ha : Over a) (hb : Over b s s') : Over (a ⬝ b) s s' := seq ha.inside hb

theorem alt (ha : Over a s s') (hb : Over b s s') : Over (a ⊹ b) s s' := fun ts h => h.elim (ha ts) (hb ts)
theorem starts (ha : Over a s s') : Over (p ▹ a) s s' := fun ts h => ha ts h.1
theorem ends (ha : Over a s s') : Over (a ◃ p) s s' := fun ts h => ha ts h.1
theorem spans (ha : Over a s s') : Over (Spec.spans p p' a) s s' := ha.ends.starts
theorem unset2 : Over (Spec.unset2 p p') s s := seq unset unset
theorem opt (ha : Over a s s) : Over (Spec.opt a) s s := eps.alt ha

theorem flag {f : Bool} (ha : Over a s s) : Over (Spec.flag f a) s s := by cases f <;> first | exact ha | exact eps
theorem flagFrom {f : Bool} (ha : Over a s s) : Over (Spec.flagFrom f p a) s s := by
  cases f <;> first | exact ha.starts | exact unset
theorem flagTo {f : Bool} (ha : Over a s s) : Over (Spec.flagTo f p a) s s := by
  cases f <;> first | exact ha.ends | exact unset
theorem lost {f : Bool} (ha : Over a s s) : Over (Spec.lost f a) s s := by
  cases f <;> first | exact eps | exact eps.alt ha

theorem kwd {k : KW} : Over (Spec.kwd k) s s := tok fun ts h => by
  obtain ⟨t', w, rfl, h1, -⟩ := h
  exact ⟨t', rfl, by rw [h1]; rfl⟩

theorem plainTok_sym {k : Sym} {x y : Str} (h : plainTok (.sym k x) = true) : plainTok (.sym k y) = true := by
  cases k <;> exact h

theorem sym {k : Sym} (hk : plainTok (.sym k []) = true) : Over (Spec.sym k) s s := tok fun ts h => by
  obtain ⟨t', x, rfl, h1⟩ := h
  exact ⟨t', rfl, by rw [h1]; exact plainTok_sym hk⟩

theorem opening {k : Sym} {x : Bracket} (h1 : ∀ y, opens (.sym k y) = some x) (h2 : ∀ y, inStatement (.sym k y) = true) :
    Over (Spec.sym k) s (x :: s) := fun ts h => by
  obtain ⟨t', y, rfl, h⟩ := h
  refine ⟨by simpa [h] using h2 y, fun u => .opening (by rw [h]; exact h1 y) .nil⟩

theorem closing {k : Sym} {x : Bracket} (h1 : ∀ y, closes (.sym k y) = some x) (h2 : ∀ y, inStatement (.sym k y) = true) :
    Over (Spec.sym k) (x :: s) s := fun ts h => by
  obtain ⟨t', y, rfl, h⟩ := h
  refine ⟨by simpa [h] using h2 y, fun u => .closing (by rw [h]; exact h1 y) .nil⟩

theorem lparen : Over (Spec.sym .LParen) s (.paren :: s) := opening (fun _ => rfl) fun _ => rfl
theorem rparen : Over (Spec.sym .RParen) (.paren :: s) s := closing (fun _ => rfl) fun _ => rfl
theorem lbracket : Over (Spec.sym .LBracket) s (.square :: s) := opening (fun _ => rfl) fun _ => rfl
theorem rbracket : Over (Spec.sym .RBracket) (.square :: s) s := closing (fun _ => rfl) fun _ => rfl

theorem word {bad : List KW} {i : Ident} : Over (Spec.word bad i) s s := tok fun ts h => by
  obtain ⟨t', w, rfl, h1, -⟩ := h
  exact ⟨t', rfl, by rw [h1]; rfl⟩

theorem number {n : Nat} : Over (Spec.number n) s s := tok fun ts h => by
  obtain ⟨t', w, rfl, h1, -⟩ := h
  exact ⟨t', rfl, by rw [h1]; rfl⟩

theorem numberZ {v : Int} : Over (Spec.numberZ v) s s := fun ts h => by
  obtain ⟨n, -, h⟩ := h
  exact number ts h

theorem integer {v : Int} : Over (Spec.integer v) s s := tok fun ts h => by
  obtain ⟨t', w, rfl, h1, -⟩ := h
  exact ⟨t', rfl, by rw [h1]; rfl⟩

theorem sepBy {k : Sym} (hs : plainTok (.sym k []) = true) : ∀ {as : List Lang}, Overs as →
    Over (Spec.sepBy k as)
  | [], _ => never
  | [a], h => h a (by simp)
  | a :: b :: as, h => (h a (by simp)).cat ((sym hs).cat (sepBy hs fun x hx => h x (List.mem_cons_of_mem _ hx)))

theorem concat : ∀ {as : List Lang}, Overs as → Over (Spec.concat as)
  | [], _ => eps
  | a :: as, h => (h a (by simp)).cat (concat fun x hx => h x (List.mem_cons_of_mem _ hx))

theorem clauseOr {wrap : Lang → Lang} {as : List Lang} (hb : Over b) (hw : ∀ a, Over a → Over (wrap a))
    (h : Overs as) : Over (Spec.clauseOr b wrap as) := by
  cases as with
  | nil => exact hb
  | cons a as => exact hw _ (sepBy rfl h)

theorem clause {wrap : Lang → Lang} {as : List Lang} (hw : ∀ a, Over a → Over (wrap a))
    (h : Overs as) : Over (Spec.clause wrap as) := clauseOr eps hw h

theorem optional {wrap : Lang → Lang} {o : Option Lang} (hw : ∀ a, Over a → Over (wrap a))
    (h : OverO o) : Over (Spec.optional wrap o) := by
  cases o with
  | none => exact eps
  | some a => exact hw _ (h a rfl)

theorem parens (ha : Over a) : Over (Spec.parens a) := lparen.seq (ha.cat rparen)
theorem parensTo (ha : Over a) : Over (Spec.parensTo p a) := lparen.seq (ha.cat rparen.ends)

theorem words {bad : List KW} (is : List Ident) : Overs (is.map (Spec.word bad)) := by
  intro a ha
  obtain ⟨i, -, rfl⟩ := List.mem_map.1 ha
  exact word

theorem idents {k : Sym} (hs : plainTok (.sym k []) = true) {is : List Ident} : Over (Spec.idents k is) :=
  sepBy hs (words is)
theorem objectName {o : ObjectName} : Over (Spec.objectName o) := idents rfl

theorem exprName : ∀ {is : List Ident}, Over (Spec.exprName is)
  | [] => never
  | [_] => word
  | _ :: _ :: _ => word.cat ((sym rfl).cat (idents rfl))

theorem typeName : ∀ {is : List Ident}, Over (Spec.typeName is)
  | [] => never
  | [_] => word
  | _ :: _ :: _ => word.cat ((sym rfl).cat (idents rfl))

theorem size {o : Option Nat} : Over (sizeLang p o) := by
  cases o with
  | none => exact unset
  | some n => exact number.parensTo

theorem precision {n : Nat} {o : Option Nat} : Over (precisionLang p n o) := by
  cases o with
  | none => exact number.parensTo
  | some n => exact (number.cat ((sym rfl).cat number)).parensTo

theorem unsigned {u : Bool} : Over (unsignedLang u p) := kwd.flagTo
theorem bigUnsigned {u : Bool} : Over (bigUnsignedLang u p) := by
  cases u <;> first | exact eps | exact kwd.ends

theorem timeZone {w : Bool} : Over (timeZoneLang w) := by
  cases w
  · exact (kwd.cat (kwd.cat kwd)).opt
  · exact kwd.cat (kwd.opt.cat (kwd.cat kwd))

theorem binaryOp {op : Operator} : Over (Spec.binaryOp op) := by
  unfold Spec.binaryOp
  split <;> first | exact (sym rfl).spans | exact kwd.spans | exact kwd.spans.cat kwd | exact never

theorem unaryOp {op : Operator} : Over (Spec.unaryOp p op) := by
  unfold Spec.unaryOp
  split <;> first | exact (sym rfl).spans.starts | exact kwd.starts.cat unset2 | exact never

/-- A `(` behind a name. -/
theorem strayNames (hb : Over b) : ∀ is : List Ident, Over (Spec.sepBy .Period (is.map (Spec.word [])) ⬝ Spec.sym .LParen ⬝ b)
  | [] => fun ts ⟨_, _, _, h, _⟩ => h.elim
  | [i] => by
    intro ts h
    obtain ⟨_, _, rfl, ⟨t, w, rfl, h1, -⟩, _, vs, rfl, ⟨t', x, rfl, h2⟩, h3⟩ := h
    refine ⟨fun t'' ht => ?_, fun u => .ignored rfl h1 h2 ((hb vs h3).2 u)⟩
    simp only [List.cons_append, List.nil_append, List.mem_cons] at ht
    rcases ht with rfl | rfl | ht
    · rw [h1]; rfl
    · rw [h2]; rfl
    · exact (hb vs h3).1 _ ht
  | i :: j :: is => by
    intro ts h
    obtain ⟨_, us, rfl, ⟨xs, _, rfl, h1, ys, zs, rfl, h2, h3⟩, h4⟩ := h
    have h6 := ((word (bad := []) (i := i)).cat ((sym (k := .Period) rfl).cat (strayNames hb (j :: is))))
      (xs ++ (ys ++ (zs ++ us))) ⟨xs, _, rfl, h1, ys, _, rfl, h2, zs, us, rfl, h3, h4⟩
    simpa using h6

theorem stray {o : ObjectName} (hb : Over b) : Over (Spec.objectName o ⬝ Spec.sym .LParen ⬝ b) := strayNames hb o.idents

theorem strayLost {o : ObjectName} {f : Bool} (hb : Over b) (ho : Over (Spec.objectName o)) :
    Over (Spec.objectName o ⬝ Spec.lost f (Spec.sym .LParen) ⬝ b) := fun ts h => by
  obtain ⟨xs, _, rfl, h1, ys, zs, rfl, h2, h3⟩ := h
  have key : Over (Spec.objectName o ⬝ b) := ho.cat hb
  cases f with
  | false => cases h2; exact key _ ⟨xs, zs, by simp, h1, h3⟩
  | true =>
    rcases h2 with h2 | h2
    · cases h2; exact key _ ⟨xs, zs, by simp, h1, h3⟩
    · exact stray hb _ ⟨xs, _, rfl, h1, ys, zs, rfl, h2, h3⟩

theorem bound {x : FrameBound} : Over (boundLang x) := by
  cases x <;> first | exact kwd.cat (kwd.cat unset2) | exact number.cat (kwd.cat unset2)

theorem unit {u : WindowFrameUnit} : Over (unitLang u) := by
  refine cat ?_ unset2
  split <;> exact kwd

theorem frame {x : Option WindowFrame} : Over (frameLang x) := by
  rcases x with _ | ⟨u, s, _ | e⟩
  · exact eps
  · exact unit.cat bound
  · exact unit.cat (kwd.cat (bound.cat (kwd.cat bound)))

theorem direction {x : Option Bool} : Over (directionLang x) := by
  rcases x with _ | _ | _
  · exact eps
  · exact kwd
  · exact kwd

theorem limit {x : Option LimitExpr} : Over (limitLang x) := by
  rcases x with _ | ⟨_ | n, ap, lp, _ | o⟩
  · exact eps
  · exact kwd.cat (kwd.cat unset2)
  · exact never
  · exact kwd.cat (numberZ.spans.cat unset2)
  · exact kwd.cat (numberZ.spans.cat (kwd.spans.cat (numberZ.cat unset2)))

theorem setOp {x : SetOp} : Over (setOpLang x) := by cases x <;> exact kwd.cat unset2

theorem joinType {n : Bool} {ty : JoinType} : Over (joinTypeLang n ty) := by
  unfold joinTypeLang
  split
  · split <;> first | exact kwd.spans | exact kwd.cat unset2
  all_goals first
    | exact kwd.cat unset2
    | exact kwd.spans
    | exact kwd.spans.cat kwd
    | exact kwd.cat (kwd.cat unset2)
    | exact unset2

theorem alias {bad : List KW} {i : Ident} : Over (aliasLang bad i) := (kwd.cat word).alt word

theorem tableAlias {q : Quirks} {i : Option Ident} : Over (tableAliasLang q i) := by
  cases i with
  | none => exact kwd.lost
  | some a => exact alias

theorem whens : ∀ {cs rs : List Lang}, Overs cs → Overs rs → Over (Spec.whens cs rs)
  | [], [], _, _ => eps
  | [], _ :: _, _, _ => never
  | _ :: _, [], _, _ => never
  | c :: cs, r :: rs, h1, h2 => kwd.cat ((h1 c (by simp)).cat (kwd.cat ((h2 r (by simp)).cat
      (whens (fun a ha => h1 a (by simp [ha])) (fun a ha => h2 a (by simp [ha]))))))

theorem subquery {w : Bool} (ha : Over a) : Over (subqueryLang w p a) :=
  lparen.seq (cat (by cases w <;> first | exact eps | exact kwd.opt) (ha.cat rparen.ends))

theorem number' {t0 : Prop} {P : Str → Prop} : Over fun ts => ∃ t s, ts = [t] ∧ t.tok = .number s ∧ P s := tok fun ts h => by
  obtain ⟨t', w, rfl, h1, -⟩ := h
  exact ⟨t', rfl, by rw [h1]; rfl⟩

theorem single {s : Str} : Over fun ts => ∃ t, ts = [t] ∧ t.tok = .single s := tok fun ts h => by
  obtain ⟨t', rfl, h1⟩ := h
  exact ⟨t', rfl, by rw [h1]; rfl⟩

theorem national {s : Str} : Over fun ts => ∃ t, ts = [t] ∧ t.tok = .national s := tok fun ts h => by
  obtain ⟨t', rfl, h1⟩ := h
  exact ⟨t', rfl, by rw [h1]; rfl⟩

theorem double {fns : FloatFns} {v : F64} :
    Over fun ts => ∃ t s, ts = [t] ∧ t.tok = .number s ∧ '.' ∈ s ∧ fns.parse s = some v := tok fun ts h => by
  obtain ⟨t', w, rfl, h1, -⟩ := h
  exact ⟨t', rfl, by rw [h1]; rfl⟩

theorem nil : Overs [] := by simp [Overs]
theorem cons {as : List Lang} (h : Over a) (hs : Overs as) : Overs (a :: as) := by
  intro x hx
  rcases List.mem_cons.1 hx with rfl | hx
  · exact h
  · exact hs x hx
theorem none : OverO none := by simp [OverO]
theorem some (h : Over a) : OverO (some a) := by simp [OverO, h]

theorem map {α : Type} {f : α → Lang} {l : List α} (h : ∀ x, Over (f x)) : Overs (l.map f) := by
  intro a ha
  obtain ⟨x, -, rfl⟩ := List.mem_map.1 ha
  exact h x

theorem mapO {α : Type} {f : α → Lang} {l : Option α} (h : ∀ x, Over (f x)) : OverO (l.map f) := by
  intro a ha
  cases l with
  | none => cases ha
  | some x => cases ha; exact h x

end Over

open Lean.Parser.Tactic in
/-- Go through the combinators of a language, with the given facts about its parts. -/
macro "over" "[" ts:term,* "]" : tactic => `(tactic| (repeat' (with_reducible first
  | assumption
  | exact Over.eps | exact Over.never | exact Over.anything | exact Over.unset | exact Over.unset2 | exact Over.only
  | exact Over.kwd | exact Over.rparen | exact Over.ends Over.rparen | exact Over.rbracket | exact Over.sym rfl | exact Over.word | exact Over.number | exact Over.numberZ | exact Over.integer
  | exact Over.single | exact Over.national | exact Over.double
  | exact Over.objectName | exact Over.exprName | exact Over.typeName | exact Over.size | exact Over.precision
  | exact Over.unsigned | exact Over.bigUnsigned | exact Over.timeZone | exact Over.binaryOp | exact Over.unaryOp
  | exact Over.frame | exact Over.direction | exact Over.limit | exact Over.setOp | exact Over.joinType | exact Over.alias
  | exact Over.tableAlias | exact Over.idents rfl | exact Over.words _ | exact Over.none
  $[| exact $ts]*
  | apply Over.parens | apply Over.parensTo | apply Over.subquery | apply Over.spans | apply Over.starts | apply Over.ends
  | apply Over.opt | apply Over.flag | apply Over.flagFrom | apply Over.flagTo | apply Over.lost
  | apply Over.clauseOr | apply Over.clause | apply Over.optional | apply Over.sepBy rfl | apply Over.concat
  | apply Over.whens | apply Over.mapO | apply Over.map | apply Over.some | apply Over.nil | apply Over.cons
  | apply Over.seq Over.lparen | apply Over.seq (Over.starts Over.lparen) | apply Over.seq Over.rparen | apply Over.seq (Over.ends Over.rparen)
  | apply Over.seq Over.lbracket | apply Over.seq Over.rbracket
  | apply Over.cat | apply Over.alt
  | (intro a ha; try dsimp only [id]))))

theorem DataType.over (t : DataType) : Over t.lang := by
  unfold DataType.lang
  split <;> over []

variable (fns : FloatFns) (q : Quirks)

mutual

theorem Expr.over : (x : Expr) → Over (x.lang fns q)
  | .ident i => by rw [Expr.lang]; over []
  | .wildcard p => by rw [Expr.lang]; over []
  | .qualifiedWildcard is => by rw [Expr.lang]; over []
  | .compoundIdent is => by rw [Expr.lang]; over []
  | .isNull x => by rw [Expr.lang]; over [x.over]
  | .isNotNull x => by rw [Expr.lang]; over [x.over]
  | .inList x l neg rp => by rw [Expr.lang]; over [x.over, Expr.overs l]
  | .inSubQuery x s neg rp => by rw [Expr.lang]; over [x.over, s.over]
  | .between x neg low high => by rw [Expr.lang]; over [x.over, low.over, high.over]
  | .binary l op r => by rw [Expr.lang]; over [l.over, r.over]
  | .cast x ty c rp => by rw [Expr.lang]; over [x.over, ty.over]
  | .nested x lp rp => by rw [Expr.lang]; over [x.over]
  | .unary p op x => by rw [Expr.lang]; over [x.over]
  | .function name args rp none orp => by rw [Expr.lang]; over [Expr.overs args]
  | .function name args rp (some w) orp => by rw [Expr.lang]; over [Expr.overs args, w.over]
  | .caseExpr c e operand conditions results elseResult => by
    rw [Expr.lang]; over [Expr.overO operand, Expr.overs conditions, Expr.overs results, Expr.overO elseResult]
  | .exists_ neg s n e rp => by rw [Expr.lang]; over [s.over]
  | .subQuery rp lp s => by rw [Expr.lang]; over [s.over]
  | .long v => by rw [Expr.lang]; over []
  | .double f t v => by rw [Expr.lang]; over []
  | .singleQuoted f t s => by rw [Expr.lang]; over []
  | .national f t s => by rw [Expr.lang]; over []
  | .boolean f t b => by rw [Expr.lang]; apply Over.spans; split <;> exact Over.kwd
  | .null f t => by rw [Expr.lang]; over []
  | .timeValue _ _ _ _ => by rw [Expr.lang]; over []

theorem Expr.overs : (xs : List Expr) → Overs (Expr.langs fns q xs)
  | [] => by rw [Expr.langs]; over []
  | x :: xs => by rw [Expr.langs]; over [x.over, Expr.overs xs]

theorem Expr.overO : (x : Option Expr) → OverO (Expr.langO fns q x)
  | none => by rw [Expr.langO]; over []
  | some x => by rw [Expr.langO]; over [x.over]

theorem WindowSpec.over : (x : WindowSpec) → Over (x.lang fns q)
  | .mk partitionBy orderBy frame p o => by
    rw [WindowSpec.lang]; over [Expr.overs partitionBy, OrderByExpr.overs orderBy]

theorem OrderByExpr.over : (x : OrderByExpr) → Over (x.lang fns q)
  | .mk x p asc => by rw [OrderByExpr.lang]; over [x.over]

theorem OrderByExpr.overs : (xs : List OrderByExpr) → Overs (OrderByExpr.langs fns q xs)
  | [] => by rw [OrderByExpr.langs]; over []
  | x :: xs => by rw [OrderByExpr.langs]; over [x.over, OrderByExpr.overs xs]

theorem QueryStmt.over : (x : QueryStmt) → Over (x.lang fns q)
  | .mk w ctes body orderBy limit => by
    rw [QueryStmt.lang]; over [CTE.overs ctes, body.over, OrderByExpr.overs orderBy]

theorem CTE.over : (x : CTE) → Over (x.lang fns q)
  | .mk alias s rp => by rw [CTE.lang]; over [s.over]

theorem CTE.overs : (xs : List CTE) → Overs (CTE.langs fns q xs)
  | [] => by rw [CTE.langs]; over []
  | x :: xs => by rw [CTE.langs]; over [x.over, CTE.overs xs]

theorem SetExpr.over : (x : SetExpr) → Over (x.lang fns q)
  | .selectExpr _ => by rw [SetExpr.lang]; over []
  | .select s => by rw [SetExpr.lang]; over [s.over]
  | .query lp rp s => by rw [SetExpr.lang]; over [s.over]
  | .setOp op all l r => by rw [SetExpr.lang]; over [l.over, r.over]

theorem SQLSelect.over : (x : SQLSelect) → Over (x.lang fns q)
  | .mk distinct projection from_ where_ groupBy having p => by
    rw [SQLSelect.lang]
    over [SelectItem.overs projection, TableRef.overs from_, Expr.overO where_, Expr.overs groupBy, Expr.overO having]

theorem SelectItem.over : (x : SelectItem) → Over (x.lang fns q)
  | .unnamed x => by rw [SelectItem.lang]; over [x.over]
  | .alias x a => by rw [SelectItem.lang]; over [x.over]
  | .qualifiedWildcard p => by rw [SelectItem.lang]; over []
  | .wildcard _ _ => by rw [SelectItem.lang]; over []

theorem SelectItem.overs : (xs : List SelectItem) → Overs (SelectItem.langs fns q xs)
  | [] => by rw [SelectItem.langs]; over []
  | x :: xs => by rw [SelectItem.langs]; over [x.over, SelectItem.overs xs]

theorem TableFactor.over : (x : TableFactor) → Over (x.lang fns q)
  | .table name alias [] arp hints hrp => by
    rw [TableFactor.lang]; refine Over.strayLost ?_ (by over []); over [Expr.overs hints]
  | .table name alias (x :: xs) arp hints hrp => by
    rw [TableFactor.lang]
    · refine Over.stray ?_; over [Expr.overs hints, Expr.overs (x :: xs)]
    · simp
  | .derived lateral p lp rp s alias => by rw [TableFactor.lang]; over [s.over]

theorem TableRef.over : (x : TableRef) → Over (x.lang fns q)
  | .factor f => by rw [TableRef.lang]; over [f.over]
  | .cross r f => by rw [TableRef.lang]; over [r.over, f.over]
  | .partitioned _ _ _ => by rw [TableRef.lang]; over []
  | .qualified l ty r spec => by rw [TableRef.lang]; over [l.over, r.over, spec.over]
  | .natural l ty r => by rw [TableRef.lang]; over [l.over, r.over]

theorem TableRef.overs : (xs : List TableRef) → Overs (TableRef.langs fns q xs)
  | [] => by rw [TableRef.langs]; over []
  | x :: xs => by rw [TableRef.langs]; over [x.over, TableRef.overs xs]

theorem JoinSpec.over : (x : JoinSpec) → Over (x.lang fns q)
  | .namedColumns is u rp => by rw [JoinSpec.lang]; over []
  | .condition x p => by rw [JoinSpec.lang]; over [x.over]

end

theorem Over.columns {is : List Ident} : Over (columnsLang is) := by unfold columnsLang; over []

theorem Over.where_ {x : Option Expr} : Over (whereLang fns q x) := by unfold whereLang; over [Expr.overO fns q x]

theorem Assignment.over (a : Assignment) : Over (a.lang fns q) := by
  unfold Assignment.lang; over [a.value.over fns q]

theorem RowValueExpr.over (r : RowValueExpr) : Over (r.lang fns q) := by
  unfold RowValueExpr.lang; over [Expr.overs fns q r.values]

theorem InsertSource.over (s : InsertSource) : Over (s.lang fns q) := by
  cases s with
  | subQuery s => exact s.over fns q
  | constructor v rows => unfold InsertSource.lang; over [RowValueExpr.over fns q]

theorem Over.dropped : Over DroppedIdents := by
  intro ts h
  induction h with
  | nil => exact ⟨by simp, fun u => .nil⟩
  | cons t t' w s ts h1 h2 _ ih =>
    refine ⟨fun x hx => ?_, fun u => .other (by rw [h1]; rfl) (by rw [h1]; rfl) (.other (by rw [h2]; rfl) (by rw [h2]; rfl) (ih.2 u))⟩
    simp only [List.mem_cons] at hx
    rcases hx with rfl | rfl | hx
    · rw [h1]; rfl
    · rw [h2]; rfl
    · exact ih.1 x hx

theorem Over.referenced {is : List Ident} : Over (referencedLang q is) := by
  cases is with
  | nil => unfold referencedLang; over [Over.dropped]
  | cons i is => unfold referencedLang; over []

theorem TableConstraintSpec.over (s : TableConstraintSpec) : Over (s.lang fns q) := by
  unfold TableConstraintSpec.lang
  split <;> over [Over.referenced q, Expr.over fns q _]

theorem TableConstraint.over (c : TableConstraint) : Over (c.lang fns q) := by
  refine Over.cat ?_ (c.spec.over fns q)
  cases c.name <;> (unfold nameLang; over [])

theorem ColumnSpec.over (s : ColumnSpec) : Over (s.lang fns q) := by
  unfold ColumnSpec.lang
  split <;> over [Expr.over fns q _]

theorem Over.columnName {n : Option Ident} : Over (columnNameLang n) := by
  cases n <;> (unfold columnNameLang; over [])

theorem ColumnConstraint.over (c : ColumnConstraint) : Over (c.lang fns q) := by
  unfold ColumnConstraint.lang
  over [Over.columnName, ColumnSpec.over fns q _]

theorem Over.ex {α : Type} {f : α → Lang} (h : ∀ x, Over (f x)) : Over fun ts => ∃ x, f x ts := fun ts ⟨x, hx⟩ => h x ts hx

theorem Over.and {L : Lang} {p : List Token → Prop} (h : Over L) : Over fun ts => L ts ∧ p ts := fun ts hx => h ts hx.1

theorem ColumnItem.over (x : ColumnItem) : Over (x.lang fns q) := by
  cases x with
  | default_ x => unfold ColumnItem.lang; over [x.over fns q]
  | constraints cs =>
    unfold ColumnItem.lang
    over [ColumnConstraint.over fns q, Over.ex fun n => Over.columnName]
  | autoIncrement a => unfold ColumnItem.lang; over []

theorem ColumnDef.over (c : ColumnDef) : Over (c.lang fns q) := by
  unfold ColumnDef.lang
  over [DataType.over _, Over.ex fun items => Over.and (Over.concat (Over.map (ColumnItem.over fns q)))]

theorem TableElement.over (x : TableElement) : Over (x.lang fns q) := by
  cases x with
  | constraint c => exact c.over fns q
  | column c => exact c.over fns q

theorem TableOption.over (x : TableOption) : Over x.lang := by
  cases x <;> (unfold TableOption.lang; over [])

theorem AlterColumnAction.over (x : AlterColumnAction) : Over (x.lang fns q) := by
  cases x <;> (unfold AlterColumnAction.lang; over [Expr.over fns q _, DataType.over _])

theorem AlterTableAction.over (x : AlterTableAction) : Over (x.lang fns q) := by
  cases x <;> (unfold AlterTableAction.lang; over [ColumnDef.over fns q _, AlterColumnAction.over fns q _,
    TableConstraint.over fns q _])

theorem Stmt.over : (s : Stmt) → Over (s.lang fns q)
  | .query s => s.over fns q
  | .insert p name is source assigns => by
    rw [Stmt.lang]; over [Over.columns, source.over fns q, Assignment.over fns q]
  | .update p name assigns cond => by
    rw [Stmt.lang]; over [Over.where_ fns q, Assignment.over fns q]
  | .delete p name cond => by rw [Stmt.lang]; over [Over.where_ fns q]
  | .createView p name s false => by rw [Stmt.lang]; over [s.over fns q]
  | .createView _ _ _ true => by rw [Stmt.lang]; over []
  | .createTable p name elements notExists options => by
    rw [Stmt.lang]; over [TableElement.over fns q, TableOption.over]
  | .alterTable p name action => by rw [Stmt.lang]; over [action.over fns q]
  | .dropTable names cascade cp ifExists p => by rw [Stmt.lang]; over [fun x => Over.objectName]
  | .createIndex p name unique indexName methodName is rp cond => by
    rw [Stmt.lang]
    refine Over.cat Over.kwd (Over.cat ?_ ?_)
    · split <;> over []
    · over [Over.columns, Over.where_ fns q, fun x => Over.word]
  | .dropIndex p is => by rw [Stmt.lang]; over []
  | .explain s p => by rw [Stmt.lang]; over [Stmt.over s]
  | .copy _ _ _ _ => by rw [Stmt.lang]; over []

end Verif
