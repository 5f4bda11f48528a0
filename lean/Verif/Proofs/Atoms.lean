import Verif.Spec.Atoms
/-
The sentences for a tree have its names and literals in order.
-/
set_option maxRecDepth 100000
namespace Verif
open Spec

variable {fns : FloatFns} {b : Bool}

theorem Spec.Covers.append {as bs : List Atom} {us vs : List Token} (h1 : Covers fns b as us) (h2 : Covers fns b bs vs) :
    Covers fns b (as ++ bs) (us ++ vs) := by
  induction h1 with
  | nil => exact h2
  | skip t ht _ ih => exact .skip t ht ih
  | take a t ht _ ih => exact .take a t ht ih

theorem Spec.Covers.any (us : List Token) : Covers fns true [] us := by
  induction us with
  | nil => exact .nil
  | cons t us ih => exact .skip t (.inl rfl) ih

/-- Every sentence has the atoms in order. -/
def Cov (fns : FloatFns) (b : Bool) (a : Lang) (as : List Atom) : Prop := ∀ ts, a ts → Covers fns b as ts

namespace Cov
variable {x y : Lang} {as bs : List Atom} {p p' : Pos}

theorem eq (h : Cov fns b x as) (e : as = bs) : Cov fns b x bs := e ▸ h

theorem cat (h1 : Cov fns b x as) (h2 : Cov fns b y bs) : Cov fns b (x ⬝ y) (as ++ bs) := by
  rintro ts ⟨us, vs, rfl, hu, hv⟩
  exact (h1 us hu).append (h2 vs hv)

theorem eps : Cov fns b Spec.eps [] := by rintro ts rfl; exact .nil
theorem never : Cov fns b Spec.never as := fun _ h => h.elim
theorem unset : Cov fns b (Spec.unset p) [] := by rintro ts ⟨rfl, _⟩; exact .nil
theorem only {c : Prop} : Cov fns b (Spec.only c) [] := by rintro ts ⟨rfl, _⟩; exact .nil
theorem unset2 : Cov fns b (Spec.unset2 p p') [] := unset.cat unset
theorem kwd {k : KW} : Cov fns b (Spec.kwd k) [] := by
  rintro ts ⟨t, w, rfl, h, _⟩
  exact .skip t (.inr (by simp [isLiteral, h])) .nil
theorem sym {k : Sym} : Cov fns b (Spec.sym k) [] := by
  rintro ts ⟨t, w, rfl, h⟩
  exact .skip t (.inr (by simp [isLiteral, h])) .nil
theorem alt (h1 : Cov fns b x as) (h2 : Cov fns b y as) : Cov fns b (x ⊹ y) as := fun ts h => h.elim (h1 ts) (h2 ts)
theorem startsAt (h : Cov fns b x as) : Cov fns b (p ▹ x) as := fun ts h' => h ts h'.1
theorem endsAt (h : Cov fns b x as) : Cov fns b (x ◃ p) as := fun ts h' => h ts h'.1
theorem spans (h : Cov fns b x as) : Cov fns b (Spec.spans p p' x) as := h.endsAt.startsAt
theorem opt (h : Cov fns b x []) : Cov fns b (Spec.opt x) [] := eps.alt h
theorem flag {c : Bool} (h : Cov fns b x []) : Cov fns b (Spec.flag c x) [] := by
  unfold Spec.flag; split
  · exact h
  · exact eps
theorem flagFrom {c : Bool} (h : Cov fns b x []) : Cov fns b (Spec.flagFrom c p x) [] := by
  unfold Spec.flagFrom; split
  · exact h.startsAt
  · exact unset
theorem flagTo {c : Bool} (h : Cov fns b x []) : Cov fns b (Spec.flagTo c p x) [] := by
  unfold Spec.flagTo; split
  · exact h.endsAt
  · exact unset
theorem lost {c : Bool} (h : Cov fns b x []) : Cov fns b (Spec.lost c x) [] := by
  unfold Spec.lost; split
  · exact eps.alt h
  · exact eps
theorem word {bad : List KW} {i : Ident} : Cov fns b (Spec.word bad i) [.name i] := by
  rintro ts ⟨⟨tok, f, t⟩, w, rfl, h1, h2, h3, h4, -⟩
  simp only at h1 h3 h4
  subst h1 h3 h4
  exact .take _ _ ⟨w, rfl, h2⟩ .nil
theorem number {n : Nat} : Cov fns b (Spec.number n) [.count n] := by
  rintro ts ⟨t, s, rfl, h1, h2⟩
  exact .take _ _ ⟨s, n, h1, h2.1, rfl, h2.2⟩ .nil
theorem numberZ {v : Int} : Cov fns b (Spec.numberZ v) [.count v] := by
  rintro ts ⟨n, rfl, h⟩
  exact number ts h
theorem parens (h : Cov fns b x as) : Cov fns b (Spec.parens x) as := (sym.cat (h.cat sym)).eq (by simp)
theorem parensTo (h : Cov fns b x as) : Cov fns b (Spec.parensTo p x) as := (sym.cat (h.cat sym.endsAt)).eq (by simp)
theorem subquery {w : Bool} (h : Cov fns b x as) : Cov fns b (subqueryLang w p x) as := by
  unfold subqueryLang
  refine (sym.cat (Cov.cat (?_ : Cov fns b _ []) (h.cat sym.endsAt))).eq (by simp)
  split
  · exact opt kwd
  · exact eps

theorem single_span {f t : Pos} {P : Token → Prop} {a : Atom} (h : ∀ u : Token, P u → u.from_ = f → u.to_ = t → a.of fns u) :
    Cov fns b (Spec.spans f t fun ts => ∃ u, ts = [u] ∧ P u) [a] := by
  rintro ts ⟨⟨⟨u, rfl, hu⟩, us, v, h1, h2⟩, v', vs, h3, h4⟩
  obtain ⟨rfl, rfl⟩ : us = [] ∧ v = u := by
    cases us with
    | nil => exact ⟨rfl, (List.singleton_inj.1 h1).symm⟩
    | cons x xs => simp at h1
  cases h3
  exact .take _ _ (h _ hu h4 h2) .nil

theorem one_span {f t : Pos} {x : Lang} {a : Atom}
    (h : ∀ ts, x ts → ∃ u, ts = [u] ∧ (u.from_ = f → u.to_ = t → a.of fns u)) : Cov fns b (Spec.spans f t x) [a] :=
  fun ts hts => single_span (P := fun u => u.from_ = f → u.to_ = t → a.of fns u) (fun _ hu h1 h2 => hu h1 h2) ts
    ⟨⟨h ts hts.1.1, hts.1.2⟩, hts.2⟩

/-- The sentences of a list, each with its atoms. -/
inductive All (fns : FloatFns) (b : Bool) : List Lang → List (List Atom) → Prop
  | nil : All fns b [] []
  | cons {x : Lang} {as : List Atom} {xs : List Lang} {ass : List (List Atom)} : Cov fns b x as → All fns b xs ass →
      All fns b (x :: xs) (as :: ass)

theorem sepBy {s : Sym} {xs : List Lang} {ass : List (List Atom)} (h : All fns b xs ass) :
    Cov fns b (Spec.sepBy s xs) ass.flatten := by
  induction h with
  | nil => exact never
  | @cons x as xs ass h1 h2 ih =>
    cases h2 with
    | nil => exact h1.eq (by simp)
    | cons h3 h4 => exact (h1.cat (sym.cat ih)).eq (by simp)

theorem concat {xs : List Lang} {ass : List (List Atom)} (h : All fns b xs ass) : Cov fns b (Spec.concat xs) ass.flatten := by
  induction h with
  | nil => exact eps
  | cons h1 _ ih => exact (h1.cat ih).eq (by simp)

theorem clauseOr {other : Lang} {wrap : Lang → Lang} {xs : List Lang} {ass : List (List Atom)} (h : All fns b xs ass)
    (ho : Cov fns b other []) (hw : ∀ x as, Cov fns b x as → Cov fns b (wrap x) as) :
    Cov fns b (Spec.clauseOr other wrap xs) ass.flatten := by
  cases h with
  | nil => exact ho
  | cons h1 h2 => exact hw _ _ (sepBy (All.cons h1 h2))

theorem clause {wrap : Lang → Lang} {xs : List Lang} {ass : List (List Atom)} (h : All fns b xs ass)
    (hw : ∀ x as, Cov fns b x as → Cov fns b (wrap x) as) : Cov fns b (Spec.clause wrap xs) ass.flatten :=
  clauseOr h eps hw

theorem kwdCat {k : KW} (h : Cov fns b x as) : Cov fns b (Spec.kwd k ⬝ x) as := kwd.cat h
theorem atKwdCat {k : KW} (h : Cov fns b x as) : Cov fns b (p ▹ Spec.kwd k ⬝ x) as := kwd.startsAt.cat h
theorem symCat {k : Sym} (h : Cov fns b x as) : Cov fns b (Spec.sym k ⬝ x) as := sym.cat h

theorem all_words {bad : List KW} : ∀ is : List Ident, All fns b (is.map (Spec.word bad)) (is.map fun i => [.name i])
  | [] => .nil
  | _ :: is => .cons word (all_words is)

theorem names_flatten (is : List Ident) : (is.map fun i => [Atom.name i]).flatten = names is := by
  induction is with
  | nil => rfl
  | cons i is ih => simpa [names] using ih

theorem idents {s : Sym} {is : List Ident} : Cov fns b (Spec.idents s is) (names is) :=
  (sepBy (all_words is)).eq (names_flatten is)
theorem objectName {o : ObjectName} : Cov fns b (Spec.objectName o) (names o.idents) := idents
theorem exprName : ∀ {is : List Ident}, Cov fns b (Spec.exprName is) (names is)
  | [] => never
  | [i] => word
  | i :: j :: is => (word.cat (symCat idents)).eq (by simp [names])
theorem typeName : ∀ {is : List Ident}, Cov fns b (Spec.typeName is) (names is)
  | [] => never
  | [i] => word
  | i :: j :: is => (word.cat (symCat idents)).eq (by simp [names])
theorem alias {bad : List KW} {i : Ident} : Cov fns b (aliasLang bad i) [.name i] := alt (kwdCat word) word
theorem tableAlias {q : Quirks} : ∀ {i : Option Ident}, Cov fns b (tableAliasLang q i) (nameO i)
  | none => lost kwd
  | some _ => alias
theorem columns {is : List Ident} : Cov fns b (columnsLang is) (names is) :=
  (clause (all_words is) fun _ _ h => h.parens).eq (names_flatten is)

theorem whens : ∀ {xs ys : List Lang} {as bs : List (List Atom)}, All fns b xs as → All fns b ys bs →
    Cov fns b (Spec.whens xs ys) (byTurns as bs)
  | _, _, _, _, .nil, .nil => eps
  | _, _, _, _, .cons h1 h2, .cons h3 h4 =>
    (kwdCat (h1.cat (kwdCat (h3.cat (whens h2 h4))))).eq (by simp [byTurns])
  | _, _, _, _, .nil, .cons _ _ => never
  | _, _, _, _, .cons _ _, .nil => never

theorem size : ∀ {n : Option Nat}, Cov fns b (sizeLang p n) (sizeO n)
  | none => unset
  | some _ => parensTo number
theorem precision {n : Nat} : ∀ {m : Option Nat}, Cov fns b (precisionLang p n m) (sizeO (some n) ++ sizeO m)
  | none => parensTo number
  | some _ => parensTo (number.cat (symCat number))
theorem unsigned {u : Bool} : Cov fns b (unsignedLang u p) [] := flagTo kwd
theorem bigUnsigned {u : Bool} : Cov fns b (bigUnsignedLang u p) [] := by
  unfold bigUnsignedLang; split
  · exact kwd.endsAt
  · exact eps
theorem timeZone {w : Bool} : Cov fns b (timeZoneLang w) [] := by
  unfold timeZoneLang; split
  · exact kwdCat ((opt kwd).cat (kwdCat kwd))
  · exact opt (kwdCat (kwdCat kwd))

theorem zero (h : Cov fns b x []) (h' : Cov fns b y as) : Cov fns b (x ⬝ y) as := h.cat h'
theorem right (h' : Cov fns b x as) (h : Cov fns b y []) : Cov fns b (x ⬝ y) as := (h'.cat h).eq (by simp)

end Cov
open Cov

theorem cov_dataType : ∀ t : DataType, Cov fns b t.lang t.atoms
  | .char _ _ _ _ => zero (spans (alt kwd kwd)) size
  | .varchar _ _ _ _ =>
    zero (alt (zero kwd.startsAt unset) (zero (startsAt (alt kwd kwd)) kwd.endsAt)) size
  | .uuid _ _ => spans kwd
  | .decimal (some _) _ _ _ _ _ => zero kwd.startsAt (right precision unsigned)
  | .decimal none _ _ _ _ _ => never
  | .float _ _ _ _ _ _ => zero (spans kwd) (right size unsigned)
  | .smallInt _ _ _ _ => zero (spans kwd) unsigned
  | .int _ _ _ _ => zero (spans (alt kwd kwd)) unsigned
  | .bigInt _ _ _ _ => zero (spans kwd) bigUnsigned
  | .real _ _ _ _ => zero (spans kwd) unsigned
  | .double _ _ => zero kwd.startsAt kwd.endsAt
  | .boolean _ _ => spans kwd
  | .date _ _ => kwdCat unset2
  | .time _ _ => kwdCat (zero (alt timeZone timeZone) unset2)
  | .timestamp _ _ _ => zero kwd.startsAt (zero timeZone unset)
  | .regclass _ _ => kwdCat unset2
  | .text _ _ => kwdCat unset2
  | .bytea _ _ => kwdCat unset2
  | .array ty rb => by
    cases ty
    case text => exact kwdCat (symCat (symCat (zero unset2 unset)))
    all_goals exact never
  | .custom _ => typeName
  | .clob _ _ _ => never
  | .binary _ _ _ => never
  | .varbinary _ _ _ => never
  | .blob _ _ _ => never

theorem cov_binaryOp (op : Operator) : Cov fns b (binaryOp op) [] := by
  unfold binaryOp
  split
  all_goals first
    | exact spans sym
    | exact spans kwd
    | exact zero (spans kwd) kwd
    | exact never

theorem cov_unaryOp (p : Pos) (op : Operator) : Cov fns b (unaryOp p op) [] := by
  unfold unaryOp
  split
  all_goals first
    | exact startsAt (spans sym)
    | exact zero kwd.startsAt unset2
    | exact never

theorem cov_bound : ∀ x : FrameBound, Cov fns b (boundLang x) x.atoms
  | .currentRow _ _ => kwdCat (kwdCat unset2)
  | .unboundedPreceding _ _ => kwdCat (kwdCat unset2)
  | .unboundedFollowing _ _ => kwdCat (kwdCat unset2)
  | .preceding _ _ _ => right number (kwdCat unset2)
  | .following _ _ _ => right number (kwdCat unset2)

theorem cov_unit (u : WindowFrameUnit) : Cov fns b (unitLang u) [] := by
  unfold unitLang
  refine zero ?_ unset2
  split <;> exact kwd

theorem cov_frame : ∀ f : Option WindowFrame, Cov fns b (frameLang f) (frameAtoms f)
  | none => eps
  | some ⟨u, s, none⟩ => zero (cov_unit u) (cov_bound s)
  | some ⟨u, s, some e⟩ => zero (cov_unit u) (kwdCat ((cov_bound s).cat (kwdCat (cov_bound e))))

theorem cov_direction : ∀ d : Option Bool, Cov fns b (directionLang d) []
  | none => eps
  | some true => kwd
  | some false => kwd

theorem cov_limitNumber {f t : Pos} {v : Int} : Cov fns b (Spec.spans f t (Spec.numberZ v)) [.limit f t v] := by
  rintro ts ⟨⟨⟨n, rfl, u, s, rfl, h1, h2⟩, us, w, h3, h4⟩, w', ws, h5, h6⟩
  obtain ⟨rfl, rfl⟩ : us = [] ∧ w = u := by
    cases us with
    | nil => exact ⟨rfl, (List.singleton_inj.1 h3).symm⟩
    | cons x xs => simp at h3
  cases h5
  obtain ⟨tok, f', t'⟩ := w
  simp only at h1 h4 h6
  subst h1 h4 h6
  exact .take _ _ ⟨s, n, rfl, h2.1, rfl, h2.2⟩ .nil

theorem cov_limit : ∀ l : Option LimitExpr, Cov fns b (limitLang l) (limitAtoms l)
  | none => eps
  | some ⟨none, _, _, none⟩ => kwdCat (kwdCat unset2)
  | some ⟨none, _, _, some _⟩ => never
  | some ⟨some _, _, _, none⟩ => kwdCat (right cov_limitNumber unset2)
  | some ⟨some _, _, _, some _⟩ =>
    kwdCat (cov_limitNumber.cat (zero (spans kwd) (right numberZ unset2)))

theorem cov_setOp : ∀ o : SetOp, Cov fns b (setOpLang o) []
  | .union _ _ => kwdCat unset2
  | .except _ _ => kwdCat unset2
  | .intersect _ _ => kwdCat unset2

theorem cov_joinType (nat : Bool) (ty : JoinType) : Cov fns b (joinTypeLang nat ty) [] := by
  unfold joinTypeLang
  split
  · split
    · exact spans kwd
    · exact kwdCat unset2
  all_goals first
    | exact spans kwd
    | exact kwdCat unset2
    | exact zero (spans kwd) kwd
    | exact kwdCat (kwdCat unset2)
    | exact unset2


variable {q : Quirks}

mutual

theorem cov_expr (hq : q.cross = true → b = true) : ∀ e : Expr, Cov fns b (e.lang fns q) e.atoms
  | .ident i => by rw [Expr.lang, Expr.atoms]; exact word
  | .wildcard p => by rw [Expr.lang, Expr.atoms]; exact sym.startsAt
  | .qualifiedWildcard is => by rw [Expr.lang, Expr.atoms]; exact right exprName (symCat sym)
  | .compoundIdent is => by rw [Expr.lang, Expr.atoms]; exact right exprName only
  | .isNull x => by rw [Expr.lang, Expr.atoms]; exact right (cov_expr hq x) (kwdCat kwd)
  | .isNotNull x => by rw [Expr.lang, Expr.atoms]; exact right (cov_expr hq x) (kwdCat (kwdCat kwd))
  | .inList x l neg rp => by
    rw [Expr.lang, Expr.atoms]
    exact (cov_expr hq x).cat (zero (flag kwd) (kwdCat (parensTo (sepBy (cov_exprs hq l)))))
  | .inSubQuery x s neg rp => by
    rw [Expr.lang, Expr.atoms]
    exact (cov_expr hq x).cat (zero (flag kwd) (kwdCat (subquery (cov_query hq s))))
  | .between x neg low high => by
    rw [Expr.lang, Expr.atoms]
    exact ((cov_expr hq x).cat (zero (flag kwd) (kwdCat ((cov_expr hq low).cat (kwdCat (right (cov_expr hq high) only)))))).eq
      (by simp)
  | .binary l op r => by
    rw [Expr.lang, Expr.atoms]
    exact (cov_expr hq l).cat (zero (cov_binaryOp op) (cov_expr hq r))
  | .cast x ty c rp => by
    rw [Expr.lang, Expr.atoms]
    exact alt (zero kwd.startsAt (symCat ((cov_expr hq x).cat (kwdCat (right (cov_dataType ty) sym.endsAt)))))
      ((cov_expr hq x).cat (symCat (right (cov_dataType ty) (zero unset2 only))))
  | .nested x lp rp => by rw [Expr.lang, Expr.atoms]; exact zero sym.startsAt (right (cov_expr hq x) sym.endsAt)
  | .unary p op x => by rw [Expr.lang, Expr.atoms]; exact zero (cov_unaryOp p op) (right (cov_expr hq x) only)
  | .function name args rp none orp => by
    rw [Expr.lang, Expr.atoms]
    exact exprName.cat (right (parensTo (clause (cov_exprs hq args) fun _ _ h => h)) unset)
  | .function name args rp (some over) orp => by
    rw [Expr.lang, Expr.atoms]
    exact (exprName.cat ((parensTo (clause (cov_exprs hq args) fun _ _ h => h)).cat
      (kwdCat (right (cov_window hq over) unset)))).eq (by simp)
  | .caseExpr c e operand conditions results elseResult => by
    rw [Expr.lang, Expr.atoms]
    exact (zero kwd.startsAt ((cov_exprO hq operand (fun _ _ h => h)).cat ((whens (cov_exprs hq conditions) (cov_exprs hq results)).cat
      (right (cov_exprO hq elseResult fun _ _ h => kwdCat h) kwd.endsAt)))).eq (by simp)
  | .exists_ neg s n e rp => by
    rw [Expr.lang, Expr.atoms]
    exact zero (flagFrom kwd) (zero kwd.startsAt (parensTo (cov_query hq s)))
  | .subQuery rp lp s => by rw [Expr.lang, Expr.atoms]; exact startsAt (subquery (cov_query hq s))
  | .long v => by
    rw [Expr.lang, Expr.atoms]
    refine one_span ?_
    rintro ts ⟨⟨tok, f, t⟩, s, rfl, h1, -, h2⟩
    refine ⟨_, rfl, fun h3 h4 => ?_⟩
    simp only at h1 h3 h4
    subst h1 h3 h4
    exact ⟨s, rfl, h2⟩
  | .double f t v => by
    rw [Expr.lang, Expr.atoms]
    refine one_span ?_
    rintro ts ⟨⟨tok, f, t⟩, s, rfl, h1, -, h2⟩
    refine ⟨_, rfl, fun h3 h4 => ?_⟩
    simp only at h1 h3 h4
    subst h1 h3 h4
    exact ⟨s, rfl, h2⟩
  | .singleQuoted f t s => by
    rw [Expr.lang, Expr.atoms]
    exact single_span fun u hu h1 h2 => by
      obtain ⟨tok, f, t⟩ := u; simp only at hu h1 h2; subst hu h1 h2; rfl
  | .national f t s => by
    rw [Expr.lang, Expr.atoms]
    exact single_span fun u hu h1 h2 => by
      obtain ⟨tok, f, t⟩ := u; simp only at hu h1 h2; subst hu h1 h2; rfl
  | .boolean f t v => by
    rw [Expr.lang, Expr.atoms]
    exact spans (by split <;> exact kwd)
  | .null f t => by rw [Expr.lang, Expr.atoms]; exact spans kwd
  | .timeValue _ _ _ _ => by rw [Expr.lang, Expr.atoms]; exact never

theorem cov_exprs (hq : q.cross = true → b = true) : ∀ es : List Expr, All fns b (Expr.langs fns q es) (Expr.atomsL es)
  | [] => by rw [Expr.langs, Expr.atomsL]; exact .nil
  | x :: xs => by rw [Expr.langs, Expr.atomsL]; exact .cons (cov_expr hq x) (cov_exprs hq xs)

theorem cov_exprO (hq : q.cross = true → b = true) : ∀ (e : Option Expr) {wrap : Lang → Lang},
    (∀ x as, Cov fns b x as → Cov fns b (wrap x) as) → Cov fns b (Spec.optional wrap (Expr.langO fns q e)) (Expr.atomsO e)
  | none, _, _ => by rw [Expr.langO, Expr.atomsO]; exact eps
  | some x, _, hw => by rw [Expr.langO, Expr.atomsO]; exact hw _ _ (cov_expr hq x)

theorem cov_window (hq : q.cross = true → b = true) : ∀ w : WindowSpec, Cov fns b (w.lang fns q) w.atoms
  | .mk partitionBy orderBy frame p o => by
    rw [WindowSpec.lang, WindowSpec.atoms]
    exact (symCat ((clauseOr (cov_exprs hq partitionBy) unset fun _ _ h => atKwdCat (kwdCat h)).cat
      ((clauseOr (cov_orderBys hq orderBy) unset fun _ _ h => atKwdCat (kwdCat h)).cat
      (right (cov_frame frame) sym)))).eq (by simp)

theorem cov_orderBy (hq : q.cross = true → b = true) : ∀ o : OrderByExpr, Cov fns b (o.lang fns q) o.atoms
  | .mk x p asc => by
    rw [OrderByExpr.lang, OrderByExpr.atoms]
    exact right (cov_expr hq x) (zero (cov_direction asc) unset)

theorem cov_orderBys (hq : q.cross = true → b = true) : ∀ es : List OrderByExpr,
    All fns b (OrderByExpr.langs fns q es) (OrderByExpr.atomsL es)
  | [] => by rw [OrderByExpr.langs, OrderByExpr.atomsL]; exact .nil
  | x :: xs => by rw [OrderByExpr.langs, OrderByExpr.atomsL]; exact .cons (cov_orderBy hq x) (cov_orderBys hq xs)

theorem cov_query (hq : q.cross = true → b = true) : ∀ s : QueryStmt, Cov fns b (s.lang fns q) s.atoms
  | .mk w ctes body orderBy limit => by
    rw [QueryStmt.lang, QueryStmt.atoms]
    exact ((clause (cov_ctes hq ctes) fun _ _ h => kwdCat h).cat ((cov_body hq body).cat
      ((clause (cov_orderBys hq orderBy) fun _ _ h => kwdCat (kwdCat h)).cat (right (cov_limit limit) unset)))).eq (by simp)

theorem cov_cte (hq : q.cross = true → b = true) : ∀ c : CTE, Cov fns b (c.lang fns q) c.atoms
  | .mk alias s rp => by
    rw [CTE.lang, CTE.atoms]
    exact word.cat (kwdCat (right (parens (cov_query hq s)) unset))

theorem cov_ctes (hq : q.cross = true → b = true) : ∀ es : List CTE, All fns b (CTE.langs fns q es) (CTE.atomsL es)
  | [] => by rw [CTE.langs, CTE.atomsL]; exact .nil
  | x :: xs => by rw [CTE.langs, CTE.atomsL]; exact .cons (cov_cte hq x) (cov_ctes hq xs)

theorem cov_body (hq : q.cross = true → b = true) : ∀ s : SetExpr, Cov fns b (s.lang fns q) s.atoms
  | .selectExpr s => by rw [SetExpr.lang, SetExpr.atoms]; exact never
  | .select s => by rw [SetExpr.lang, SetExpr.atoms]; exact cov_select hq s
  | .query lp rp s => by rw [SetExpr.lang, SetExpr.atoms]; exact right (parens (cov_query hq s)) unset2
  | .setOp op all l r => by
    rw [SetExpr.lang, SetExpr.atoms]
    exact (cov_body hq l).cat (zero (cov_setOp op) (zero (flag kwd) (cov_body hq r)))

theorem cov_select (hq : q.cross = true → b = true) : ∀ s : SQLSelect, Cov fns b (s.lang fns q) s.atoms
  | .mk distinct projection from_ where_ groupBy having p => by
    rw [SQLSelect.lang, SQLSelect.atoms]
    exact (zero kwd.startsAt (zero (flag kwd) ((sepBy (cov_items hq projection)).cat
      ((clause (cov_tableRefs hq from_) fun _ _ h => kwdCat h).cat ((cov_exprO hq where_ fun _ _ h => kwdCat h).cat
      ((clause (cov_exprs hq groupBy) fun _ _ h => kwdCat (kwdCat h)).cat
        (cov_exprO hq having fun _ _ h => kwdCat h))))))).eq (by simp)

theorem cov_item (hq : q.cross = true → b = true) : ∀ i : SelectItem, Cov fns b (i.lang fns q) i.atoms
  | .unnamed x => by rw [SelectItem.lang, SelectItem.atoms]; exact cov_expr hq x
  | .alias x a => by rw [SelectItem.lang, SelectItem.atoms]; exact (cov_expr hq x).cat alias
  | .qualifiedWildcard p => by rw [SelectItem.lang, SelectItem.atoms]; exact right exprName (symCat sym)
  | .wildcard _ _ => by rw [SelectItem.lang, SelectItem.atoms]; exact never

theorem cov_items (hq : q.cross = true → b = true) : ∀ es : List SelectItem,
    All fns b (SelectItem.langs fns q es) (SelectItem.atomsL es)
  | [] => by rw [SelectItem.langs, SelectItem.atomsL]; exact .nil
  | x :: xs => by rw [SelectItem.langs, SelectItem.atomsL]; exact .cons (cov_item hq x) (cov_items hq xs)

theorem cov_factor (hq : q.cross = true → b = true) : ∀ f : TableFactor, Cov fns b (f.lang fns q) f.atoms
  | .table name alias [] arp hints hrp => by
    rw [TableFactor.lang, TableFactor.atoms]
    exact (objectName.cat (zero (lost sym) (tableAlias.cat (right
      (clause (cov_exprs hq hints) fun _ _ h => kwdCat h.parens) unset2)))).eq (by simp [Expr.atomsL])
  | .table name alias (a :: args) arp hints hrp => by
    rw [TableFactor.lang, TableFactor.atoms]
    · exact (objectName.cat (symCat ((sepBy (cov_exprs hq (a :: args))).cat (tableAlias.cat (right
        (clause (cov_exprs hq hints) fun _ _ h => kwdCat h.parens) (zero unset2 only)))))).eq (by simp)
    · simp
  | .derived lateral p lp rp s alias => by
    rw [TableFactor.lang, TableFactor.atoms]
    exact zero (flag kwd) ((parens (cov_query hq s)).cat (right tableAlias (zero unset unset2)))

theorem cov_tableRef (hq : q.cross = true → b = true) : ∀ r : TableRef, Cov fns b (r.lang fns q) r.atoms
  | .factor f => by rw [TableRef.lang, TableRef.atoms]; exact cov_factor hq f
  | .cross r f => by
    rw [TableRef.lang, TableRef.atoms]
    refine (cov_tableRef hq r).cat (zero ?_ (kwdCat (kwdCat (cov_factor hq f))))
    unfold Spec.lost
    split
    · rename_i hc
      rw [hq hc]
      exact alt eps fun ts _ => Covers.any ts
    · exact eps
  | .partitioned _ _ _ => by rw [TableRef.lang, TableRef.atoms]; exact never
  | .qualified l ty r spec => by
    rw [TableRef.lang, TableRef.atoms]
    exact ((cov_tableRef hq l).cat (zero (cov_joinType false ty) (kwdCat ((cov_tableRef hq r).cat (cov_join hq spec))))).eq
      (by simp)
  | .natural l ty r => by
    rw [TableRef.lang, TableRef.atoms]
    exact (cov_tableRef hq l).cat (kwdCat (zero (cov_joinType true ty) (kwdCat (cov_tableRef hq r))))

theorem cov_tableRefs (hq : q.cross = true → b = true) : ∀ es : List TableRef,
    All fns b (TableRef.langs fns q es) (TableRef.atomsL es)
  | [] => by rw [TableRef.langs, TableRef.atomsL]; exact .nil
  | x :: xs => by rw [TableRef.langs, TableRef.atomsL]; exact .cons (cov_tableRef hq x) (cov_tableRefs hq xs)

theorem cov_join (hq : q.cross = true → b = true) : ∀ s : JoinSpec, Cov fns b (s.lang fns q) s.atoms
  | .namedColumns is u rp => by
    rw [JoinSpec.lang, JoinSpec.atoms]
    exact kwdCat (right (parens idents) unset2)
  | .condition x p => by rw [JoinSpec.lang, JoinSpec.atoms]; exact atKwdCat (cov_expr hq x)

end

/-! ### Statements -/

theorem cov_where (hq : q.cross = true → b = true) (x : Option Expr) : Cov fns b (whereLang fns q x) (Expr.atomsO x) :=
  cov_exprO hq x fun _ _ h => kwdCat h

theorem cov_assignment (hq : q.cross = true → b = true) (a : Assignment) : Cov fns b (a.lang fns q) a.atoms :=
  word.cat (symCat (cov_expr hq a.value))

theorem all_map {β : Type} {f : β → Lang} {g : β → List Atom} (h : ∀ x, Cov fns b (f x) (g x)) :
    ∀ xs : List β, All fns b (xs.map f) (xs.map g)
  | [] => .nil
  | x :: xs => .cons (h x) (all_map h xs)

theorem cov_sepBy_map {β : Type} {s : Sym} {f : β → Lang} {g : β → List Atom} (h : ∀ x, Cov fns b (f x) (g x)) (xs : List β) :
    Cov fns b (Spec.sepBy s (xs.map f)) (xs.flatMap g) :=
  (sepBy (all_map h xs)).eq (by rw [List.flatMap_def])

theorem cov_concat_map {β : Type} {f : β → Lang} {g : β → List Atom} (h : ∀ x, Cov fns b (f x) (g x)) (xs : List β) :
    Cov fns b (Spec.concat (xs.map f)) (xs.flatMap g) :=
  (concat (all_map h xs)).eq (by rw [List.flatMap_def])

theorem cov_row (hq : q.cross = true → b = true) (r : RowValueExpr) : Cov fns b (r.lang fns q) (Expr.atomsL r.values).flatten :=
  zero sym.startsAt (right (sepBy (cov_exprs hq r.values)) sym.endsAt)

theorem cov_source (hq : q.cross = true → b = true) : ∀ s : InsertSource, Cov fns b (s.lang fns q) s.atoms
  | .subQuery s => cov_query hq s
  | .constructor _ rows => kwdCat (right (cov_sepBy_map (cov_row hq) rows) unset)

theorem cov_dropped : ∀ ts, DroppedIdents ts → Covers fns b [] ts := by
  intro ts h
  induction h with
  | nil => exact .nil
  | cons t t' w s ts h1 h2 _ ih =>
    exact .skip _ (.inr (by simp [isLiteral, h1])) (.skip _ (.inr (by simp [isLiteral, h2])) ih)

theorem cov_referenced : ∀ is : List Ident, Cov fns b (referencedLang q is) (names is)
  | [] => zero cov_dropped only
  | _ :: _ => idents

theorem cov_constraintSpec (hq : q.cross = true → b = true) : ∀ s : TableConstraintSpec, Cov fns b (s.lang fns q) s.atoms
  | .unique true _ _ _ is => zero kwd.startsAt (kwdCat (right (parensTo idents) unset))
  | .unique false _ _ _ is => zero kwd.startsAt (zero (opt kwd) (right (parensTo idents) unset))
  | .referential _ is key => zero kwd.startsAt (kwdCat ((parens idents).cat (kwdCat (word.cat
      (parensTo (cov_referenced key.columns))))))
  | .check _ _ x => zero kwd.startsAt (parensTo (cov_expr hq x))

theorem cov_name {p : Pos} : ∀ n : Option Ident, Cov fns b (nameLang p n) (nameO n)
  | none => unset
  | some _ => zero kwd.startsAt word

theorem cov_columnName : ∀ n : Option Ident, Cov fns b (columnNameLang n) (nameO n)
  | none => eps
  | some _ => kwdCat word

theorem cov_constraint (hq : q.cross = true → b = true) (c : TableConstraint) : Cov fns b (c.lang fns q) c.atoms :=
  (cov_name c.name).cat (cov_constraintSpec hq c.spec)

theorem cov_columnSpec (hq : q.cross = true → b = true) : ∀ s : ColumnSpec, Cov fns b (s.lang fns q) s.atoms
  | .notNull _ _ => zero kwd.startsAt kwd.endsAt
  | .unique true _ _ _ => zero kwd.startsAt (zero kwd.endsAt unset)
  | .unique false _ _ _ => zero kwd.startsAt unset2
  | .references _ _ name is => zero kwd.startsAt (objectName.cat (parensTo idents))
  | .check x _ _ => zero kwd.startsAt (parensTo (cov_expr hq x))

theorem cov_columnConstraint (hq : q.cross = true → b = true) (c : ColumnConstraint) : Cov fns b (c.lang fns q) c.atoms :=
  (cov_columnName c.name).cat (right (cov_columnSpec hq c.spec) unset)

/-- The atoms of an item of a column. -/
def itemAtoms : ColumnItem → List Atom
  | .default_ x => x.atoms
  | .constraints cs => cs.flatMap ColumnConstraint.atoms
  | .autoIncrement _ => []

theorem Spec.Covers.skipName {us : List Token} {i : Ident} (h : Covers fns b [.name i] us) : Covers fns b [] us := by
  generalize e : [Atom.name i] = as at h
  induction h with
  | nil => cases e
  | skip t ht _ ih => exact .skip t ht (ih e)
  | take a t ht h' _ =>
    cases e
    obtain ⟨w, rfl, _⟩ := ht
    exact .skip _ (.inr rfl) h'

theorem cov_item_lang (hq : q.cross = true → b = true) : ∀ i : ColumnItem, Cov fns b (ColumnItem.lang fns q i) (itemAtoms i)
  | .default_ x => kwdCat (cov_expr hq x)
  | .constraints cs => right (cov_concat_map (cov_columnConstraint hq) cs) (Cov.lost fun ts ⟨n, h⟩ => (cov_columnName (some n) ts h).skipName)
  | .autoIncrement _ => spans kwd

theorem Spec.Covers.sub {as as' : List Atom} {us : List Token} (h : Covers fns true as us) (hs : as'.Sublist as) :
    Covers fns true as' us := by
  induction h generalizing as' with
  | nil => rw [List.sublist_nil.1 hs]; exact .nil
  | skip t ht _ ih => exact .skip t ht (ih hs)
  | take a t ht _ ih =>
    cases hs with
    | cons _ hs => exact .skip t (.inl rfl) (ih hs)
    | cons_cons _ hs => exact .take a t ht (ih hs)

theorem single_iff (items : List ColumnItem) : ColumnItem.single items = true ↔
    (items.filterMap ColumnItem.default?).length ≤ 1 ∧ (items.filterMap ColumnItem.constraints?).length ≤ 1 := by
  rw [ColumnItem.single, Bool.and_eq_true]
  exact and_congr ⟨of_decide_eq_true, decide_eq_true⟩ ⟨of_decide_eq_true, decide_eq_true⟩

theorem items_atoms (items : List ColumnItem) :
    ∃ as, (as = Expr.atomsO (items.filterMap ColumnItem.default?).getLast? ++
        (((items.filterMap ColumnItem.constraints?).getLast?).getD []).flatMap ColumnConstraint.atoms ∨
      as = (((items.filterMap ColumnItem.constraints?).getLast?).getD []).flatMap ColumnConstraint.atoms ++
        Expr.atomsO (items.filterMap ColumnItem.default?).getLast?) ∧
      as.Sublist (items.flatMap itemAtoms) ∧ (ColumnItem.single items = true → as = items.flatMap itemAtoms) := by
  induction items with
  | nil => exact ⟨[], .inl (by simp [Expr.atomsO]), by simp, by simp⟩
  | cons x items ih =>
    obtain ⟨as, h1, h2, h3⟩ := ih
    cases x with
    | autoIncrement a =>
      refine ⟨as, ?_, by simpa [itemAtoms] using h2, ?_⟩
      · simpa [List.filterMap_cons, ColumnItem.default?, ColumnItem.constraints?] using h1
      · intro h
        have : ColumnItem.single items = true := by
          rw [single_iff] at h ⊢
          simpa [List.filterMap_cons, ColumnItem.default?, ColumnItem.constraints?] using h
        simpa [itemAtoms] using h3 this
    | default_ e =>
      simp only [List.filterMap_cons, ColumnItem.default?, ColumnItem.constraints?]
      cases hd : items.filterMap ColumnItem.default? with
      | nil =>
        simp only [hd, List.getLast?_nil, Expr.atomsO, List.nil_append, List.append_nil, or_self] at h1
        refine ⟨e.atoms ++ as, .inl ?_, ?_, ?_⟩
        · rw [h1]; simp [Expr.atomsO]
        · simpa [itemAtoms] using h2
        · intro h
          have : ColumnItem.single items = true := by
            rw [single_iff] at h ⊢
            simp only [List.filterMap_cons, ColumnItem.default?, ColumnItem.constraints?, hd] at h ⊢
            simpa using h
          simp [itemAtoms, h3 this]
      | cons y ys =>
        refine ⟨as, ?_, ?_, ?_⟩
        · rw [hd] at h1
          simpa [List.getLast?_cons_cons] using h1
        · exact h2.trans (by simp)
        · intro h
          rw [single_iff] at h
          simp [List.filterMap_cons, ColumnItem.default?, ColumnItem.constraints?, hd] at h
    | constraints cs =>
      simp only [List.filterMap_cons, ColumnItem.default?, ColumnItem.constraints?]
      cases hd : items.filterMap ColumnItem.constraints? with
      | nil =>
        simp only [hd, List.getLast?_nil, Option.getD_none, List.flatMap_nil, List.nil_append, List.append_nil, or_self] at h1
        refine ⟨cs.flatMap ColumnConstraint.atoms ++ as, .inr ?_, ?_, ?_⟩
        · rw [h1]; simp
        · simpa [itemAtoms] using h2
        · intro h
          have : ColumnItem.single items = true := by
            rw [single_iff] at h ⊢
            simp only [List.filterMap_cons, ColumnItem.default?, ColumnItem.constraints?, hd] at h ⊢
            simpa using h
          simp [itemAtoms, h3 this]
      | cons y ys =>
        refine ⟨as, ?_, ?_, ?_⟩
        · rw [hd] at h1
          simpa [List.getLast?_cons_cons] using h1
        · exact h2.trans (by simp)
        · intro h
          rw [single_iff] at h
          simp [List.filterMap_cons, ColumnItem.default?, ColumnItem.constraints?, hd] at h

/-- Every sentence has one of the arrangements in order. -/
def Covs (fns : FloatFns) (b : Bool) (x : Lang) (ass : List (List Atom)) : Prop := ∀ ts, x ts → ∃ as ∈ ass, Covers fns b as ts

theorem Cov.covs {x : Lang} {as : List Atom} (h : Cov fns b x as) : Covs fns b x [as] :=
  fun ts ht => ⟨as, List.mem_singleton.2 rfl, h ts ht⟩

theorem Covs.pre {x y : Lang} {as : List Atom} {ass : List (List Atom)} (h1 : Cov fns b x as) (h2 : Covs fns b y ass) :
    Covs fns b (x ⬝ y) (ass.map (as ++ ·)) := by
  rintro ts ⟨us, vs, rfl, hu, hv⟩
  obtain ⟨bs, hb, hc⟩ := h2 vs hv
  exact ⟨_, List.mem_map_of_mem hb, (h1 us hu).append hc⟩

theorem Covs.zero {x y : Lang} {ass : List (List Atom)} (h1 : Cov fns b x []) (h2 : Covs fns b y ass) :
    Covs fns b (x ⬝ y) ass := by simpa using Covs.pre h1 h2

theorem Covs.post {x y : Lang} {as : List Atom} {ass : List (List Atom)} (h1 : Covs fns b x ass) (h2 : Cov fns b y as) :
    Covs fns b (x ⬝ y) (ass.map (· ++ as)) := by
  rintro ts ⟨us, vs, rfl, hu, hv⟩
  obtain ⟨bs, hb, hc⟩ := h1 us hu
  exact ⟨_, List.mem_map_of_mem hb, hc.append (h2 vs hv)⟩

theorem Covs.right {x y : Lang} {ass : List (List Atom)} (h1 : Covs fns b x ass) (h2 : Cov fns b y []) :
    Covs fns b (x ⬝ y) ass := by simpa using Covs.post h1 h2

theorem cov_column (hq : q.cross = true → b = true) (ho : q.odd = true → b = true) (c : ColumnDef) :
    Covs fns b (c.lang fns q) c.arrangements := by
  rintro ts ⟨us, vs, rfl, hu, us', vs', rfl, hd, items, hv, hi, hs⟩
  have h1 := word (fns := fns) (b := b) us hu
  have h2 := cov_dataType (fns := fns) (b := b) c.dataType us' hd
  have h3 := cov_concat_map (cov_item_lang (fns := fns) hq) items vs' hv
  obtain ⟨as, ha, hsub, hsingle⟩ := items_atoms items
  rw [← hi.default_, ← hi.constraints] at ha
  have h4 : Covers fns b as vs' := by
    by_cases hb : b = true
    · subst hb; exact h3.sub hsub
    · have : q.odd = false := by
        cases hqo : q.odd
        · rfl
        · exact absurd (ho hqo) hb
      rw [this] at hs
      simp only [Bool.false_eq_true, false_or, Bool.and_eq_true] at hs
      rw [hsingle hs.2]
      exact h3
  have := h1.append (h2.append h4)
  rcases ha with rfl | rfl
  · exact ⟨_, List.mem_cons_self, by simpa using this⟩
  · exact ⟨_, List.mem_cons_of_mem _ List.mem_cons_self, by simpa using this⟩

theorem cov_element (hq : q.cross = true → b = true) : ∀ e : TableElement,
    (e.isColumn = true → q.odd = true → b = true) → Covs fns b (e.lang fns q) e.arrangements
  | .constraint c, _ => (cov_constraint hq c).covs
  | .column c, ho => cov_column hq (ho rfl) c

theorem Covs.cat {x y : Lang} {ass : List (List Atom)} {bss : List (List (List Atom))} (h1 : Covs fns b x ass)
    (h2 : Covs fns b y (arrange bss)) : Covs fns b (x ⬝ y) (arrange (ass :: bss)) := by
  rintro ts ⟨us, vs, rfl, hu, hv⟩
  obtain ⟨as, ha, h3⟩ := h1 us hu
  obtain ⟨bs, hb, h4⟩ := h2 vs hv
  exact ⟨as ++ bs, List.mem_flatMap.2 ⟨as, ha, List.mem_map_of_mem hb⟩, h3.append h4⟩

theorem Covs.sepBy {β : Type} {s : Sym} {f : β → Lang} {g : β → List (List Atom)} {P : β → Prop} (h : ∀ x, P x → Covs fns b (f x) (g x)) :
    ∀ xs : List β, (∀ x ∈ xs, P x) → Covs fns b (Spec.sepBy s (xs.map f)) (arrange (xs.map g))
  | [], _ => fun _ h => h.elim
  | [x], hp => fun ts ht => by
    obtain ⟨as, ha, h1⟩ := h x (hp x List.mem_cons_self) ts ht
    exact ⟨as, by simpa [arrange] using ha, h1⟩
  | x :: y :: xs, hp => (h x (hp x List.mem_cons_self)).cat
    (Covs.zero sym (Covs.sepBy h (y :: xs) fun z hz => hp z (List.mem_cons_of_mem _ hz)))

theorem Covs.concat {β : Type} {f : β → Lang} {g : β → List (List Atom)} {P : β → Prop} (h : ∀ x, P x → Covs fns b (f x) (g x)) :
    ∀ xs : List β, (∀ x ∈ xs, P x) → Covs fns b (Spec.concat (xs.map f)) (arrange (xs.map g))
  | [], _ => fun ts ht => ⟨[], by simp [arrange], by rw [show ts = [] from ht]; exact .nil⟩
  | x :: xs, hp => (h x (hp x List.mem_cons_self)).cat (Covs.concat h xs fun z hz => hp z (List.mem_cons_of_mem _ hz))

theorem cov_option : ∀ o : TableOption, Cov fns b o.lang o.atoms
  | .engine _ _ _ => Cov.zero kwd.startsAt (Cov.zero (flag sym) word)
  | .charset _ _ _ _ _ => Cov.zero (flagFrom kwd) (Cov.zero kwd.startsAt (Cov.zero (flag sym) word))

theorem cov_alterColumn (hq : q.cross = true → b = true) : ∀ a : AlterColumnAction, Cov fns b (a.lang fns q) a.atoms
  | .setDefault _ x => Cov.zero kwd.startsAt (kwdCat (cov_expr hq x))
  | .dropDefault _ _ => Cov.zero kwd.startsAt kwd.endsAt
  | .pgAlterDataType _ ty => Cov.zero kwd.startsAt (cov_dataType ty)
  | .pgSetNotNull _ _ => Cov.zero kwd.startsAt (kwdCat kwd.endsAt)
  | .pgDropNotNull _ _ => Cov.zero kwd.startsAt (kwdCat kwd.endsAt)

theorem cov_alter (hq : q.cross = true → b = true) : ∀ a : AlterTableAction,
    (a.hasColumns = true → q.odd = true → b = true) → Covs fns b (a.lang fns q) a.arrangements
  | .addColumn _ c, ho => Covs.zero kwd.startsAt (Covs.zero kwd (cov_column hq (ho rfl) c))
  | .alterColumn _ _ action, _ =>
    (Cov.zero kwd.startsAt (kwdCat (word.cat (cov_alterColumn hq action)))).covs
  | .removeColumn _ _ _ _, _ => (Cov.zero kwd.startsAt (kwdCat (Cov.right word (flagTo kwd)))).covs
  | .addConstraint _ c, _ => (Cov.zero kwd.startsAt (cov_constraint hq c)).covs
  | .dropConstraint _ _ _ _, _ => (Cov.zero kwd.startsAt (kwdCat (Cov.right word (flagTo kwd)))).covs

theorem cov_optWord {bad : List KW} : ∀ i : Option Ident, Cov fns b (Spec.optional id (i.map (Spec.word bad))) (nameO i)
  | none => eps
  | some _ => word

theorem cov_using {bad : List KW} {k : KW} : ∀ i : Option Ident,
    Cov fns b (Spec.optional (Spec.kwd k ⬝ ·) (i.map (Spec.word bad))) (nameO i)
  | none => eps
  | some _ => kwdCat word

theorem cov_stmt (hq : q.cross = true → b = true) : ∀ s : Stmt,
    (s.hasColumns = true → q.odd = true → b = true) → Covs fns b (s.lang fns q) s.arrangements
  | .query s, _ => by rw [Stmt.lang, Stmt.arrangements]; exact (cov_query hq s).covs
  | .insert _ name is source assigns, _ => by
    rw [Stmt.lang, Stmt.arrangements]
    refine Cov.covs (Cov.eq (Cov.zero kwd.startsAt (kwdCat (objectName.cat (columns.cat ((cov_source hq source).cat
      (clause (all_map (cov_assignment hq) assigns) fun _ _ h => kwdCat (kwdCat (kwdCat (kwdCat h))))))))) ?_)
    simp [List.flatMap_def]
  | .update _ name assigns cond, _ => by
    rw [Stmt.lang, Stmt.arrangements]
    exact Cov.covs (Cov.eq (Cov.zero kwd.startsAt (objectName.cat (kwdCat ((cov_sepBy_map (cov_assignment hq) assigns).cat
      (cov_where hq cond))))) (by simp))
  | .delete _ name cond, _ => by
    rw [Stmt.lang, Stmt.arrangements]
    exact Cov.covs (Cov.zero kwd.startsAt (kwdCat (objectName.cat (cov_where hq cond))))
  | .createView _ name s false, _ => by
    rw [Stmt.lang, Stmt.arrangements]
    exact Cov.covs (Cov.zero kwd.startsAt (Cov.zero (opt kwd) (kwdCat (objectName.cat (kwdCat (cov_query hq s))))))
  | .createView _ _ _ true, _ => by rw [Stmt.lang]; exact fun _ h => h.elim
  | .createTable _ name elements notExists options, ho => by
    rw [Stmt.lang, Stmt.arrangements]
    have he : Covs fns b (Spec.clause Spec.parens (elements.map (TableElement.lang fns q)))
        (arrange (elements.map TableElement.arrangements)) := by
      cases elements with
      | nil => exact fun ts ht => ⟨[], by simp [arrange], by rw [show ts = [] from ht]; exact .nil⟩
      | cons x xs => exact Covs.zero sym (Covs.right (Covs.sepBy (cov_element hq) (x :: xs) fun y hy h =>
        ho (List.any_eq_true.2 ⟨y, hy, h⟩)) sym)
    have ha : Covs fns b (Spec.clause Spec.parens (elements.map (TableElement.lang fns q)) ⬝ Spec.concat
        (options.map TableOption.lang) ⬝ Spec.opt (Spec.sym .Comma)) _ :=
      Covs.post he (Cov.right (cov_concat_map cov_option options) (opt sym))
    have hx := Covs.pre (objectName (o := name)) ha
    rw [List.map_map] at hx
    refine Covs.zero kwd.startsAt (Covs.zero kwd (Covs.zero (flag (kwdCat (kwdCat kwd))) ?_))
    simpa [Function.comp_def] using hx
  | .alterTable _ name action, ho => by
    rw [Stmt.lang, Stmt.arrangements]
    exact Covs.zero kwd.startsAt (Covs.zero kwd (Covs.pre objectName (cov_alter hq action ho)))
  | .dropTable ns cascade _ ifExists _, _ => by
    rw [Stmt.lang, Stmt.arrangements]
    exact Cov.covs (Cov.zero kwd.startsAt (kwdCat (Cov.zero (flag (kwdCat kwd)) (Cov.right
      (cov_sepBy_map (fun _ => objectName) ns) (flagTo kwd)))))
  | .createIndex _ name unique indexName methodName is _ cond, _ => by
    rw [Stmt.lang, Stmt.arrangements]
    refine Cov.covs (Cov.eq (kwdCat (Cov.zero ?_ ((cov_optWord indexName).cat (kwdCat (objectName.cat ((cov_using methodName).cat
      (columns.cat (Cov.right (cov_where hq cond) unset2)))))))) (by simp))
    split
    · exact Cov.zero (opt kwd) (kwdCat kwd)
    · exact kwd
  | .dropIndex _ is, _ => by
    rw [Stmt.lang, Stmt.arrangements]
    exact Cov.covs (Cov.zero kwd.startsAt (kwdCat idents))
  | .explain s _, ho => by
    rw [Stmt.lang, Stmt.arrangements]
    exact Covs.zero kwd (Covs.right (cov_stmt hq s ho) unset)
  | .copy _ _ _ _, _ => by rw [Stmt.lang]; exact fun _ h => h.elim

theorem cov_script (hq : q.cross = true → b = true) (ss : List Stmt)
    (ho : ∀ s ∈ ss, s.hasColumns = true → q.odd = true → b = true) :
    Covs fns b (scriptLang fns q ss) (scriptArrangements ss) :=
  Covs.zero (opt sym) (Covs.concat (fun s h => Covs.right (cov_stmt hq s h) sym) ss ho)

end Verif
