import Verif.Proofs.Within
import Verif.Proofs.GrammarStmt
/-
`Pos` and `End` of a node from its grammar rule.
-/
set_option linter.unusedVariables false
set_option linter.unusedSimpArgs false
namespace Verif
open Spec

theorem StarsOk.left {us vs : List Token} (h : StarsOk (us ++ vs)) : StarsOk us :=
  fun t ht => h t (List.mem_append_left _ ht)
theorem StarsOk.right {us vs : List Token} (h : StarsOk (us ++ vs)) : StarsOk vs :=
  fun t ht => h t (List.mem_append_right _ ht)

/-- No sentence has a token. -/
def Void (a : Lang) : Prop := ∀ ts, a ts → ts = []

theorem Void.eps : Void eps := fun ts h => h
theorem Void.unset {p : Pos} : Void (unset p) := fun ts h => h.1
theorem Void.cat {a b : Lang} (ha : Void a) (hb : Void b) : Void (a ⬝ b) := fun ts h => by
  obtain ⟨x, y, rfl, h1, h2⟩ := h
  rw [ha x h1, hb y h2, List.append_nil]
theorem Void.only {c : Prop} : Void (Spec.only c) := fun ts h => h.1
theorem Void.unset2 {p p' : Pos} : Void (unset2 p p') := Void.unset.cat Void.unset

/-- All sentences begin at the position. -/
def St (p : Option Pos) (a : Lang) : Prop := ∀ ts, a ts → ∃ t us, ts = t :: us ∧ p = some t.from_

namespace St
variable {p : Option Pos} {a b : Lang} {x : Pos}

theorem cat (h : St p a) : St p (a ⬝ b) := fun ts hb => by
  obtain ⟨y, z, rfl, h1, h2⟩ := hb
  obtain ⟨t, us, rfl, h3⟩ := h y h1
  exact ⟨t, us ++ z, rfl, h3⟩
theorem void (hv : Void a) (h : St p b) : St p (a ⬝ b) := fun ts hb => by
  obtain ⟨y, z, rfl, h1, h2⟩ := hb
  rw [hv y h1]
  exact h z h2
theorem both (h1 : St p a) (h2 : St p b) : St p (a ⊹ b) := fun ts h => h.elim (h1 ts) (h2 ts)
theorem never : St p never := fun ts h => h.elim
theorem starts : St (some x) (x ▹ a) := fun ts h => by
  obtain ⟨-, t, us, h1, h2⟩ := h
  exact ⟨t, us, h1, by rw [h2]⟩
theorem spans {y : Pos} : St (some x) (Spec.spans x y a) := starts
theorem startsAt (h : St p a) : St p (x ▹ a) := fun ts h' => h ts h'.1
theorem word {bad : List KW} {i : Ident} : St (some i.from_) (Spec.word bad i) := fun ts h => by
  obtain ⟨t, w, rfl, -, -, h, -⟩ := h
  exact ⟨t, [], rfl, by rw [h]⟩
theorem idents {s : Sym} : ∀ {is : List Ident}, St (identsPos is) (Spec.idents s is)
  | [] => never
  | [i] => word
  | i :: j :: is => cat (word (bad := []))
theorem objectName {o : ObjectName} : St (identsPos o.idents) (Spec.objectName o) := idents
theorem exprName : ∀ {is : List Ident}, St (identsPos is) (Spec.exprName is)
  | [] => never
  | [i] => word
  | i :: j :: is => cat word
theorem typeName : ∀ {is : List Ident}, St (identsPos is) (Spec.typeName is)
  | [] => never
  | [i] => word
  | i :: j :: is => cat word
end St

/-- All sentences end at the position; if `d`, then only those that do not end with a lost token. -/
def En (d : Bool) (p : Option Pos) (a : Lang) : Prop :=
  ∀ ts, StarsOk ts → a ts → ∃ us t, ts = us ++ [t] ∧ ((d = true → t.dangling = false) → p = some t.to_)

namespace En
variable {d : Bool} {p : Option Pos} {a b : Lang} {x : Pos}

theorem weak (h : En false p a) : En d p a := fun ts hs ht => by
  obtain ⟨us, t, h1, h2⟩ := h ts hs ht
  exact ⟨us, t, h1, fun _ => h2 (by simp)⟩
theorem cat (h : En d p b) : En d p (a ⬝ b) := fun ts hs hb => by
  obtain ⟨y, z, rfl, h1, h2⟩ := hb
  obtain ⟨us, t, rfl, h3⟩ := h z hs.right h2
  exact ⟨y ++ us, t, by simp, h3⟩
theorem void (hv : Void b) (h : En d p a) : En d p (a ⬝ b) := fun ts hs hb => by
  obtain ⟨y, z, rfl, h1, h2⟩ := hb
  rw [hv z h2, List.append_nil]
  exact h y hs.left h1
theorem both (h1 : En d p a) (h2 : En d p b) : En d p (a ⊹ b) := fun ts hs h => h.elim (h1 ts hs) (h2 ts hs)
theorem never : En d p never := fun ts _ h => h.elim
theorem ends : En d (some x) (a ◃ x) := fun ts _ h => by
  obtain ⟨-, us, t, h1, h2⟩ := h
  exact ⟨us, t, h1, fun _ => by rw [h2]⟩
theorem startsAt (h : En d p a) : En d p (x ▹ a) := fun ts hs h' => h ts hs h'.1
theorem spans {y : Pos} : En d (some x) (Spec.spans y x a) := startsAt ends
theorem parensTo : En d (some x) (Spec.parensTo x a) := cat (cat ends)
theorem subquery {w : Bool} : En d (some x) (subqueryLang w x a) := cat (cat (cat ends))
theorem word {bad : List KW} {i : Ident} : En d (some i.to_) (Spec.word bad i) := fun ts _ h => by
  obtain ⟨t, w, rfl, -, -, -, h, -⟩ := h
  exact ⟨[], t, rfl, fun _ => by rw [h]⟩
theorem alias {bad : List KW} {i : Ident} : En d (some i.to_) (aliasLang bad i) := both (cat word) word
theorem tableAlias {q : Quirks} {i : Ident} : En d (some i.to_) (tableAliasLang q (some i)) := alias

/-- The last of a list. -/
theorem sepBy {s : Sym} : ∀ {as : List Lang} {b : Lang}, as.getLast? = some b → En d p b → En d p (Spec.sepBy s as)
  | [c], b, h, hb => by
    simp only [List.getLast?_singleton, Option.some.injEq] at h
    subst h
    exact hb
  | c :: e :: as, b, h, hb => cat (cat (sepBy (as := e :: as) (by rwa [List.getLast?_cons_cons] at h) hb))
theorem clause {wrap : Lang → Lang} {as : List Lang} {b : Lang} (h : as.getLast? = some b)
    (hw : En d p b → En d p (wrap (Spec.sepBy .Comma as))) (hb : En d p b) : En d p (Spec.clause wrap as) := by
  cases as with
  | nil => cases h
  | cons c cs => exact hw hb
theorem idents {s : Sym} {is : List Ident} : En d (identsEnd is) (Spec.idents s is) := by
  cases h : is.getLast? with
  | none => rw [List.getLast?_eq_none_iff] at h; subst h; exact never
  | some i =>
    rw [identsEnd, h]
    exact sepBy (by rw [List.getLast?_map, h]; rfl) word
theorem objectName {o : ObjectName} : En d (identsEnd o.idents) (Spec.objectName o) := idents
theorem exprName : ∀ {is : List Ident}, En d (identsEnd is) (Spec.exprName is)
  | [] => never
  | [i] => word
  | i :: j :: is => by
    rw [identsEnd, List.getLast?_cons_cons]
    exact cat (cat (idents (is := j :: is)))
theorem typeName : ∀ {is : List Ident}, En d (identsEnd is) (Spec.typeName is)
  | [] => never
  | [i] => word
  | i :: j :: is => by
    rw [identsEnd, List.getLast?_cons_cons]
    exact cat (cat (idents (is := j :: is)))
theorem flagTo {p' : Pos} (h : En d (some p') a) {c : Bool} :
    En d (some (if c then x else p')) (a ⬝ Spec.flagTo c x b) := by
  cases c
  · exact void Void.unset h
  · exact cat ends
end En

section
variable {fns : FloatFns} {q : Quirks} {d : Bool}

/-! ### Expressions and types -/

theorem expr_starts : ∀ (e : Expr), e.leftOk = true → St e.pos (e.lang fns q)
  | .ident i, _ => by rw [Expr.lang, Expr.pos]; exact St.word
  | .wildcard _, _ => by rw [Expr.lang, Expr.pos]; exact St.starts
  | .qualifiedWildcard is, _ => by rw [Expr.lang, Expr.pos]; exact St.exprName.cat
  | .compoundIdent is, _ => by rw [Expr.lang, Expr.pos]; exact St.exprName.cat
  | .isNull x, h => by rw [Expr.leftOk] at h; rw [Expr.lang, Expr.pos]; exact (expr_starts x h).cat
  | .isNotNull x, h => by rw [Expr.leftOk] at h; rw [Expr.lang, Expr.pos]; exact (expr_starts x h).cat
  | .inList x _ _ _, h => by rw [Expr.leftOk] at h; rw [Expr.lang, Expr.pos]; exact (expr_starts x h).cat
  | .inSubQuery x _ _ _, h => by rw [Expr.leftOk] at h; rw [Expr.lang, Expr.pos]; exact (expr_starts x h).cat
  | .between x _ _ _, h => by rw [Expr.leftOk] at h; rw [Expr.lang, Expr.pos]; exact (expr_starts x h).cat
  | .binary x _ _, h => by rw [Expr.leftOk] at h; rw [Expr.lang, Expr.pos]; exact (expr_starts x h).cat
  | .cast x ty c rp, h => by
    rw [Expr.lang, Expr.pos]
    refine St.both St.starts.cat fun ts ht => ?_
    obtain ⟨_, _, -, -, _, _, -, -, _, _, -, -, _, _, -, ⟨_, _, -, ⟨-, h0⟩, -⟩, -⟩ := ht
    simp [Expr.leftOk, h0] at h
  | .nested x _ _, _ => by rw [Expr.lang, Expr.pos]; exact St.starts.cat
  | .unary p op x, _ => by
    rw [Expr.lang, Expr.pos]
    refine St.cat ?_
    unfold unaryOp
    split
    · exact St.starts
    · exact St.starts
    · exact St.starts.cat
    · exact St.never
  | .function _ _ _ none _, _ => by rw [Expr.lang, Expr.pos]; exact St.exprName.cat
  | .function _ _ _ (some _) _, _ => by rw [Expr.lang, Expr.pos]; exact St.exprName.cat
  | .caseExpr _ _ _ _ _ _, _ => by rw [Expr.lang, Expr.pos]; exact St.starts.cat
  | .exists_ neg _ _ _ _, _ => by
    rw [Expr.lang, Expr.pos]
    cases neg
    · exact St.void Void.unset St.starts.cat
    · exact St.starts.cat
  | .subQuery _ _ _, h => by simp [Expr.leftOk] at h
  | .long _, _ => by rw [Expr.lang, Expr.pos]; exact St.spans
  | .double _ _ _, _ => by rw [Expr.lang, Expr.pos]; exact St.spans
  | .singleQuoted _ _ _, _ => by rw [Expr.lang, Expr.pos]; exact St.spans
  | .national _ _ _, _ => by rw [Expr.lang, Expr.pos]; exact St.spans
  | .boolean _ _ _, _ => by rw [Expr.lang, Expr.pos]; exact St.spans
  | .null _ _, _ => by rw [Expr.lang, Expr.pos]; exact St.spans
  | .timeValue _ _ _ _, _ => by rw [Expr.lang]; exact St.never

theorem expr_ends : ∀ (e : Expr), e.rightOk = true → En d e.end_ (e.lang fns q)
  | .ident i, _ => by rw [Expr.lang, Expr.end_]; exact En.word
  | .wildcard p, _ => by
    rw [Expr.lang, Expr.end_]
    intro ts hs ht
    obtain ⟨⟨t, s, rfl, h1⟩, t', us, h2, h3⟩ := ht
    cases h2
    exact ⟨[], t, rfl, fun _ => by rw [hs t (by simp) (by simp [Token.isSym, h1]), h3]⟩
  | .qualifiedWildcard is, h => by simp [Expr.rightOk] at h
  | .compoundIdent is, _ => by rw [Expr.lang, Expr.end_]; exact .void Void.only En.exprName
  | .isNull x, h => by simp [Expr.rightOk] at h
  | .isNotNull x, h => by simp [Expr.rightOk] at h
  | .inList x _ _ _, h => by rw [Expr.lang, Expr.end_]; exact .cat (.cat (.cat .parensTo))
  | .inSubQuery x _ _ _, h => by rw [Expr.lang, Expr.end_]; exact .cat (.cat (.cat .subquery))
  | .between _ _ _ x, h => by
    rw [Expr.rightOk] at h; rw [Expr.lang, Expr.end_]; exact .cat (.cat (.cat (.cat (.cat (.void Void.only (expr_ends x h))))))
  | .binary _ _ x, h => by rw [Expr.rightOk] at h; rw [Expr.lang, Expr.end_]; exact .cat (.cat (expr_ends x h))
  | .cast x ty c rp, h => by
    rw [Expr.lang, Expr.end_]
    refine En.both (.cat (.cat (.cat (.cat (.cat .ends))))) fun ts _ ht => ?_
    obtain ⟨_, _, -, -, _, _, -, -, _, _, -, -, _, _, -, ⟨_, _, -, -, ⟨-, h0⟩⟩, -⟩ := ht
    simp [Expr.rightOk, h0] at h
  | .nested x _ _, _ => by rw [Expr.lang, Expr.end_]; exact .cat (.cat .ends)
  | .unary p op x, h => by rw [Expr.rightOk] at h; rw [Expr.lang, Expr.end_]; exact .cat (.void Void.only (expr_ends x h))
  | .function _ _ _ none _, _ => by rw [Expr.lang, Expr.end_]; exact .cat (.void Void.unset .parensTo)
  | .function _ _ _ (some _) _, h => by simp [Expr.rightOk] at h
  | .caseExpr _ _ _ _ _ _, _ => by rw [Expr.lang, Expr.end_]; exact .cat (.cat (.cat (.cat .ends)))
  | .exists_ neg _ _ _ _, _ => by rw [Expr.lang, Expr.end_]; exact .cat (.cat .parensTo)
  | .subQuery _ _ _, h => by simp [Expr.rightOk] at h
  | .long _, _ => by rw [Expr.lang, Expr.end_]; exact En.spans
  | .double _ _ _, _ => by rw [Expr.lang, Expr.end_]; exact En.spans
  | .singleQuoted _ _ _, _ => by rw [Expr.lang, Expr.end_]; exact En.spans
  | .national _ _ _, _ => by rw [Expr.lang, Expr.end_]; exact En.spans
  | .boolean _ _ _, _ => by rw [Expr.lang, Expr.end_]; exact En.spans
  | .null _ _, _ => by rw [Expr.lang, Expr.end_]; exact En.spans
  | .timeValue _ _ _ _, _ => by rw [Expr.lang]; exact En.never

theorem dataType_starts : ∀ (t : DataType), t.leftOk = true → St t.pos t.lang
  | .char _ _ _ _, _ => by rw [DataType.lang, DataType.pos]; exact St.spans.cat
  | .varchar _ _ _ _, _ => by
    rw [DataType.lang, DataType.pos]
    exact (St.both St.starts.cat St.starts.cat).cat
  | .uuid _ _, _ => by rw [DataType.lang, DataType.pos]; exact St.spans
  | .decimal (some _) _ _ _ _ _, _ => by rw [DataType.lang, DataType.pos]; exact St.starts.cat
  | .decimal none _ _ _ _ _, _ => by rw [DataType.lang]; exact St.never
  | .float _ _ _ _ _ _, _ => by rw [DataType.lang, DataType.pos]; exact St.spans.cat
  | .smallInt _ _ _ _, _ => by rw [DataType.lang, DataType.pos]; exact St.spans.cat
  | .int _ _ _ _, _ => by rw [DataType.lang, DataType.pos]; exact St.spans.cat
  | .bigInt _ _ _ _, _ => by rw [DataType.lang, DataType.pos]; exact St.spans.cat
  | .real _ _ _ _, _ => by rw [DataType.lang, DataType.pos]; exact St.spans.cat
  | .double _ _, _ => by rw [DataType.lang, DataType.pos]; exact St.starts.cat
  | .boolean _ _, _ => by rw [DataType.lang, DataType.pos]; exact St.spans
  | .date _ _, h => by simp [DataType.leftOk] at h
  | .time _ _, h => by simp [DataType.leftOk] at h
  | .timestamp _ _ _, _ => by rw [DataType.lang, DataType.pos]; exact St.starts.cat
  | .regclass _ _, h => by simp [DataType.leftOk] at h
  | .text _ _, h => by simp [DataType.leftOk] at h
  | .bytea _ _, h => by simp [DataType.leftOk] at h
  | .array _ _, h => by simp [DataType.leftOk] at h
  | .custom _, _ => by rw [DataType.lang, DataType.pos]; exact St.typeName
  | .clob _ _ _, _ => by rw [DataType.lang]; exact St.never
  | .binary _ _ _, _ => by rw [DataType.lang]; exact St.never
  | .varbinary _ _ _, _ => by rw [DataType.lang]; exact St.never
  | .blob _ _ _, _ => by rw [DataType.lang]; exact St.never

theorem En.unsigned {a : Lang} {p p' : Pos} {u : Bool} (h : En d (some p') a) :
    En d (some (if u then p else p')) (a ⬝ unsignedLang u p) := En.flagTo h

theorem En.size {a : Lang} {p p' : Pos} {size : Option Nat} (h : En d (some p') a) :
    En d (some (if size.isSome then p else p')) (a ⬝ sizeLang p size) := by
  cases size
  · exact .void Void.unset h
  · exact .cat .parensTo

theorem En.precision {p : Pos} {n : Nat} {scale : Option Nat} : En d (some p) (precisionLang p n scale) := by
  cases scale <;> exact .parensTo

theorem cat_assoc_ends {a b c : Lang} {p : Option Pos} (h : En d p ((a ⬝ b) ⬝ c)) : En d p (a ⬝ b ⬝ c) :=
  fun ts hs ht => by
    obtain ⟨x, _, rfl, hx, y, z, rfl, hy, hz⟩ := ht
    exact h _ hs ⟨x ++ y, z, by simp, ⟨x, y, rfl, hx, hy⟩, hz⟩

theorem dataType_ends : ∀ (t : DataType), t.rightOk = true → En d t.end_ t.lang
  | .char _ _ _ _, _ => by rw [DataType.lang, DataType.end_]; exact .size .spans
  | .varchar none c v rp, h => by
    rw [DataType.lang, DataType.end_]
    refine .void Void.unset (En.both (fun ts _ ht => ?_) (.cat .ends))
    obtain ⟨_, _, -, -, -, h0⟩ := ht
    simp [DataType.rightOk, h0] at h
  | .varchar (some n) c v rp, h => by
    rw [DataType.lang, DataType.end_]
    exact .cat .parensTo
  | .uuid _ _, _ => by rw [DataType.lang, DataType.end_]; exact .spans
  | .decimal (some _) _ _ _ _ _, _ => by
    rw [DataType.lang, DataType.end_]; exact .cat (.unsigned .precision)
  | .decimal none _ _ _ _ _, _ => by rw [DataType.lang]; exact .never
  | .float size _ _ _ _ _, _ => by
    rw [DataType.lang, DataType.end_]; exact cat_assoc_ends (.unsigned (.size .spans))
  | .smallInt _ _ _ _, _ => by rw [DataType.lang, DataType.end_]; exact .unsigned .spans
  | .int _ _ _ _, _ => by rw [DataType.lang, DataType.end_]; exact .unsigned .spans
  | .bigInt _ _ true _, _ => by rw [DataType.lang, DataType.end_]; exact .cat .ends
  | .bigInt _ _ false _, _ => by rw [DataType.lang, DataType.end_]; exact .void Void.eps .spans
  | .real _ _ _ _, _ => by rw [DataType.lang, DataType.end_]; exact .unsigned .spans
  | .double _ _, _ => by rw [DataType.lang, DataType.end_]; exact .cat .ends
  | .boolean _ _, _ => by rw [DataType.lang, DataType.end_]; exact .spans
  | .date _ _, h => by simp [DataType.rightOk] at h
  | .time _ _, h => by simp [DataType.rightOk] at h
  | .timestamp _ _ _, h => by simp [DataType.rightOk] at h
  | .regclass _ _, h => by simp [DataType.rightOk] at h
  | .text _ _, h => by simp [DataType.rightOk] at h
  | .bytea _ _, h => by simp [DataType.rightOk] at h
  | .array _ _, h => by simp [DataType.rightOk] at h
  | .custom _, _ => by rw [DataType.lang, DataType.end_]; exact .typeName
  | .clob _ _ _, _ => by rw [DataType.lang]; exact .never
  | .binary _ _ _, _ => by rw [DataType.lang]; exact .never
  | .varbinary _ _ _, _ => by rw [DataType.lang]; exact .never
  | .blob _ _ _, _ => by rw [DataType.lang]; exact .never

/-! ### Queries -/

theorem Expr.langs_eq : ∀ (xs : List Expr), Expr.langs fns q xs = xs.map (Expr.lang fns q)
  | [] => by rw [Expr.langs]; rfl
  | x :: xs => by rw [Expr.langs, Expr.langs_eq xs]; rfl
theorem OrderByExpr.langs_eq : ∀ (xs : List OrderByExpr), OrderByExpr.langs fns q xs = xs.map (OrderByExpr.lang fns q)
  | [] => by rw [OrderByExpr.langs]; rfl
  | x :: xs => by rw [OrderByExpr.langs, OrderByExpr.langs_eq xs]; rfl
theorem TableRef.langs_eq : ∀ (xs : List TableRef), TableRef.langs fns q xs = xs.map (TableRef.lang fns q)
  | [] => by rw [TableRef.langs]; rfl
  | x :: xs => by rw [TableRef.langs, TableRef.langs_eq xs]; rfl
theorem SelectItem.langs_eq : ∀ (xs : List SelectItem), SelectItem.langs fns q xs = xs.map (SelectItem.lang fns q)
  | [] => by rw [SelectItem.langs]; rfl
  | x :: xs => by rw [SelectItem.langs, SelectItem.langs_eq xs]; rfl

theorem clause_nil {wrap : Lang → Lang} : clause wrap [] = eps := rfl

theorem orderBy_starts {x : Expr} {p : Pos} {asc : Option Bool} (h : x.leftOk = true) :
    St (OrderByExpr.mk x p asc).pos ((OrderByExpr.mk x p asc).lang fns q) := by
  rw [OrderByExpr.lang, OrderByExpr.pos]
  exact (expr_starts x h).cat

theorem orderBy_ends : ∀ (o : OrderByExpr), o.rightOk = true → En d o.end_ (o.lang fns q)
  | .mk x p (some _), h => by simp [OrderByExpr.rightOk] at h
  | .mk x p none, h => by
    rw [OrderByExpr.lang, OrderByExpr.end_]
    exact .void (Void.eps.cat Void.unset) (expr_ends x (by simpa [OrderByExpr.rightOk] using h))

theorem item_starts : ∀ (i : SelectItem), (Piece.item i).leftOk = true → St i.pos (i.lang fns q)
  | .unnamed x, h => by rw [SelectItem.lang, SelectItem.pos]; exact expr_starts x h
  | .alias x _, h => by rw [SelectItem.lang, SelectItem.pos]; exact (expr_starts x h).cat
  | .qualifiedWildcard _, _ => by rw [SelectItem.lang, SelectItem.pos]; exact St.exprName.cat
  | .wildcard _ _, _ => by rw [SelectItem.lang]; exact St.never

theorem item_ends : ∀ (i : SelectItem), i.rightOk = true → En d i.end_ (i.lang fns q)
  | .unnamed x, h => by rw [SelectItem.lang, SelectItem.end_]; exact expr_ends x h
  | .alias x _, h => by rw [SelectItem.lang, SelectItem.end_]; exact .cat .alias
  | .qualifiedWildcard _, h => by simp [SelectItem.rightOk] at h
  | .wildcard _ _, _ => by rw [SelectItem.lang]; exact .never

theorem factor_starts : ∀ (f : TableFactor), f.leftOk = true → St f.pos (f.lang fns q)
  | .table _ _ [] _ _ _, h => by rw [TableFactor.lang, TableFactor.pos]; exact St.objectName.cat
  | .table _ _ (_ :: _) _ _ _, h => by
    rw [TableFactor.lang, TableFactor.pos]
    · exact St.objectName.cat
    · exact fun h => by cases h
  | .derived _ _ _ _ _ _, h => by simp [TableFactor.leftOk] at h

/-- A token that may be lost at the end. -/
theorem En.lost {a b : Lang} {p : Option Pos} (h : En true p a)
    (hb : ∀ ts, b ts → ts = [] ∨ ∃ us t, ts = us ++ [t] ∧ t.dangling = true) : En true p (a ⬝ b) := fun ts hs ht => by
  obtain ⟨x, y, rfl, h1, h2⟩ := ht
  rcases hb y h2 with rfl | ⟨us, t, rfl, hd⟩
  · rw [List.append_nil]
    exact h x hs.left h1
  · exact ⟨x ++ us, t, by simp, fun h => by rw [h rfl] at hd; cases hd⟩

theorem optLParen_dangling {b : Bool} (ts : List Token) (h : Spec.lost b (sym .LParen) ts) :
    ts = [] ∨ ∃ us t, ts = us ++ [t] ∧ t.dangling = true := by
  cases b
  · exact .inl h
  rcases h with h | ⟨t, s, rfl, h⟩
  · exact .inl h
  · exact .inr ⟨[], t, rfl, by simp [Token.dangling, Token.isSym, h]⟩

theorem factor_ends : ∀ (f : TableFactor), f.rightOk = true → En true f.end_ (f.lang fns q)
  | .table name none [] arp [] hrp, h => by
    rw [TableFactor.lang, TableFactor.end_, Expr.langs, clause_nil]
    simp only [ne_eq, not_true_eq_false, if_false]
    refine cat_assoc_ends (cat_assoc_ends (.void (Void.eps.cat Void.unset2) (En.lost (En.lost .objectName optLParen_dangling)
      fun ts ht => ?_)))
    simp only [tableAliasLang, Spec.lost] at ht
    cases hq : q.as with
    | false => rw [hq] at ht; exact .inl ht
    | true =>
      rw [hq] at ht
      rcases ht with ht | ⟨t, w, rfl, h1, h2⟩
      · exact .inl ht
      · refine .inr ⟨[], t, rfl, ?_⟩
        have h3 : equalFold w.value KW.AS.str = true := h2.elim id fun h => equalFold_of_upper h (by decide)
        simp only [Token.dangling, Token.matchesKw, h1, Bool.or_eq_true]
        exact .inl h3
  | .table name none (_ :: _) arp [] hrp, h => by simp [TableFactor.rightOk] at h
  | .table name (some a) [] arp [] hrp, h => by
    rw [TableFactor.lang, TableFactor.end_, Expr.langs, clause_nil]
    simp only [ne_eq, not_true_eq_false, if_false]
    exact .cat (.cat (.void (Void.eps.cat Void.unset2) .tableAlias))
  | .table name (some a) (_ :: _) arp [] hrp, h => by
    rw [TableFactor.lang, TableFactor.end_]
    · conv => arg 3; rw [show Expr.langs fns q ([] : List Expr) = [] from by rw [Expr.langs], clause_nil]
      simp only [ne_eq, not_true_eq_false, if_false]
      exact .cat (.cat (.cat (.void (Void.eps.cat (Void.unset2.cat Void.only)) .tableAlias)))
    · exact fun h => by cases h
  | .table name _ _ arp (_ :: _) hrp, h => by simp [TableFactor.rightOk] at h
  | .derived lateral p lp rp s none, h => by simp [TableFactor.rightOk] at h
  | .derived lateral p lp rp s (some a), h => by
    rw [TableFactor.lang, TableFactor.end_]
    exact .cat (.cat (.void (Void.unset.cat Void.unset2) .tableAlias))

theorem join_ends : ∀ (s : JoinSpec), s.rightOk = true → En d s.end_ (s.lang fns q)
  | .namedColumns _ _ _, h => by simp [JoinSpec.rightOk] at h
  | .condition x _, h => by rw [JoinSpec.lang, JoinSpec.end_]; exact .cat (expr_ends x h)

theorem tableRef_starts : ∀ (r : TableRef), r.leftOk = true → St r.pos (r.lang fns q)
  | .factor f, h => by rw [TableRef.leftOk] at h; rw [TableRef.lang, TableRef.pos]; exact factor_starts f h
  | .cross r _, h => by rw [TableRef.leftOk] at h; rw [TableRef.lang, TableRef.pos]; exact (tableRef_starts r h).cat
  | .partitioned _ _ _, _ => by rw [TableRef.lang]; exact .never
  | .qualified l _ _ _, h => by rw [TableRef.leftOk] at h; rw [TableRef.lang, TableRef.pos]; exact (tableRef_starts l h).cat
  | .natural l _ _, h => by rw [TableRef.leftOk] at h; rw [TableRef.lang, TableRef.pos]; exact (tableRef_starts l h).cat

theorem tableRef_ends : ∀ (r : TableRef), r.rightOk = true → En true r.end_ (r.lang fns q)
  | .factor f, h => by rw [TableRef.rightOk] at h; rw [TableRef.lang, TableRef.end_]; exact factor_ends f h
  | .cross _ f, h => by
    rw [TableRef.rightOk] at h; rw [TableRef.lang, TableRef.end_]; exact .cat (.cat (.cat (.cat (factor_ends f h))))
  | .partitioned _ _ _, _ => by rw [TableRef.lang]; exact .never
  | .qualified _ _ _ s, h => by
    rw [TableRef.rightOk] at h; rw [TableRef.lang, TableRef.end_]; exact .cat (.cat (.cat (.cat (join_ends s h))))
  | .natural _ _ r, h => by
    rw [TableRef.rightOk] at h; rw [TableRef.lang, TableRef.end_]; exact .cat (.cat (.cat (.cat (tableRef_ends r h))))

theorem select_starts : ∀ (s : SQLSelect), St s.pos (s.lang fns q)
  | .mk _ _ _ _ _ _ _ => by rw [SQLSelect.lang, SQLSelect.pos]; exact St.starts.cat

theorem last_map {β : Type} {f : β → Lang} {xs : List β} {x : β} (h : xs.getLast? = some x) :
    (xs.map f).getLast? = some (f x) := by rw [List.getLast?_map, h]; rfl

theorem select_ends : ∀ (s : SQLSelect), s.rightOk = true → En true s.end_ (s.lang fns q)
  | .mk distinct projection from_ where_ groupBy having p, h => by
    rw [SQLSelect.lang, SQLSelect.end_.eq_def]
    simp only [Expr.langs_eq, TableRef.langs_eq, SelectItem.langs_eq]
    simp only [SQLSelect.rightOk] at h
    cases having with
    | some x =>
      simp only [Expr.langO] at h ⊢
      exact .cat (.cat (.cat (.cat (.cat (.cat (.cat (expr_ends x h)))))))
    | none =>
      simp only [Expr.langO] at h ⊢
      cases hg : groupBy.getLast? with
      | some x =>
        simp only [hg] at h ⊢
        exact .cat (.cat (.cat (.cat (.cat (.void Void.eps
          (.clause (last_map hg) (fun h => .cat (.cat (.sepBy (last_map hg) h))) (expr_ends x h)))))))
      | none =>
        simp only [hg] at h ⊢
        rw [List.getLast?_eq_none_iff] at hg
        subst hg
        cases where_ with
        | some x =>
          simp only [Expr.langO] at h ⊢
          exact .cat (.cat (.cat (.cat (.void (Void.eps.cat Void.eps) (.cat (expr_ends x h))))))
        | none =>
          simp only [Expr.langO] at h ⊢
          cases hf : from_.getLast? with
          | some r =>
            simp only [hf] at h ⊢
            exact .cat (.cat (.cat (.void (Void.eps.cat (Void.eps.cat Void.eps))
              (.clause (last_map hf) (fun h => .cat (.sepBy (last_map hf) h)) (tableRef_ends r h)))))
          | none =>
            simp only [hf] at h ⊢
            rw [List.getLast?_eq_none_iff] at hf
            subst hf
            cases hp : projection.getLast? with
            | some i =>
              simp only [hp] at h ⊢
              exact .cat (.cat (.void (Void.eps.cat (Void.eps.cat (Void.eps.cat Void.eps)))
                (.sepBy (last_map hp) (item_ends i h))))
            | none => simp [hp] at h

theorem body_starts : ∀ (s : SetExpr), s.leftOk = true → St s.pos (s.lang fns q)
  | .selectExpr _, _ => by rw [SetExpr.lang]; exact .never
  | .select s, _ => by rw [SetExpr.lang, SetExpr.pos]; exact select_starts s
  | .query _ _ _, h => by simp [SetExpr.leftOk] at h
  | .setOp _ _ l _, h => by rw [SetExpr.leftOk] at h; rw [SetExpr.lang, SetExpr.pos]; exact (body_starts l h).cat

theorem body_ends : ∀ (s : SetExpr), s.rightOk = true → En true s.end_ (s.lang fns q)
  | .selectExpr _, _ => by rw [SetExpr.lang]; exact .never
  | .select s, h => by rw [SetExpr.rightOk] at h; rw [SetExpr.lang, SetExpr.end_]; exact select_ends s h
  | .query _ _ _, h => by simp [SetExpr.rightOk] at h
  | .setOp _ _ _ r, h => by
    rw [SetExpr.rightOk] at h; rw [SetExpr.lang, SetExpr.end_]; exact .cat (.cat (.cat (body_ends r h)))

theorem query_starts : ∀ (s : QueryStmt), s.leftOk = true → St s.pos (s.lang fns q)
  | .mk w [] body orderBy limit, h => by
    rw [QueryStmt.lang, QueryStmt.pos, CTE.langs]
    simp only [ne_eq, not_true_eq_false, if_false]
    exact .void Void.eps (body_starts body (by simpa [QueryStmt.leftOk] using h)).cat
  | .mk w (_ :: _) body orderBy limit, h => by simp [QueryStmt.leftOk] at h

theorem query_ends : ∀ (s : QueryStmt), s.rightOk = true → En true s.end_ (s.lang fns q)
  | .mk w ctes body orderBy limit, h => by
    rw [QueryStmt.lang, QueryStmt.end_.eq_def, OrderByExpr.langs_eq]
    simp only [QueryStmt.rightOk] at h
    cases limit with
    | some l =>
      obtain ⟨count, ap, lp, offset⟩ := l
      cases count with
      | none => simp [LimitExpr.rightOk] at h
      | some n =>
        cases offset with
        | some o => simp [LimitExpr.rightOk] at h
        | none =>
          simp only [LimitExpr.end_, limitLang]
          exact .cat (.cat (.cat (.void Void.unset (.cat (.void Void.unset2 .spans)))))
    | none =>
      simp only [limitLang] at h ⊢
      cases ho : orderBy.getLast? with
      | some o =>
        simp only [ho] at h ⊢
        exact .cat (.cat (.void (Void.eps.cat Void.unset)
          (.clause (last_map ho) (fun h => .cat (.cat (.sepBy (last_map ho) h))) (orderBy_ends o h))))
      | none =>
        simp only [ho] at h ⊢
        rw [List.getLast?_eq_none_iff] at ho
        subst ho
        exact .cat (.void (Void.eps.cat (Void.eps.cat Void.unset)) (body_ends body h))

/-! ### Statements -/

theorem row_ends (r : RowValueExpr) : En d (some r.rparen) (r.lang fns q) := by
  rw [RowValueExpr.lang]; exact .cat (.cat .ends)

theorem assignment_ends {a : Assignment} (h : a.value.rightOk = true) : En d a.end_ (a.lang fns q) := by
  rw [Assignment.lang, Assignment.end_]; exact .cat (.cat (expr_ends _ h))

theorem source_starts : ∀ (s : InsertSource), (Piece.source s).leftOk = true → St s.pos (s.lang fns q)
  | .subQuery s, h => by rw [InsertSource.lang, InsertSource.pos]; exact query_starts s h
  | .constructor _ _, h => by simp [Piece.leftOk] at h

theorem source_ends : ∀ (s : InsertSource), s.rightOk = true → En true s.end_ (s.lang fns q)
  | .subQuery s, h => by rw [InsertSource.lang, InsertSource.end_]; exact query_ends s h
  | .constructor v rows, _ => by
    rw [InsertSource.lang, InsertSource.end_]
    cases hr : rows.getLast? with
    | none =>
      rw [List.getLast?_eq_none_iff] at hr
      subst hr
      exact .cat (.void Void.unset .never)
    | some r => exact .cat (.void Void.unset (.sepBy (last_map hr) (row_ends r)))

theorem constraintSpec_starts : ∀ (s : TableConstraintSpec), St (some s.pos) (s.lang fns q)
  | .unique true _ _ _ _ => by rw [TableConstraintSpec.lang, TableConstraintSpec.pos]; exact St.starts.cat
  | .unique false _ _ _ _ => by rw [TableConstraintSpec.lang, TableConstraintSpec.pos]; exact St.starts.cat
  | .referential _ _ _ => by rw [TableConstraintSpec.lang, TableConstraintSpec.pos]; exact St.starts.cat
  | .check _ _ _ => by rw [TableConstraintSpec.lang, TableConstraintSpec.pos]; exact St.starts.cat

theorem constraintSpec_ends : ∀ (s : TableConstraintSpec), En d (some s.end_) (s.lang fns q)
  | .unique true _ _ _ _ => by
    rw [TableConstraintSpec.lang, TableConstraintSpec.end_]; exact .cat (.cat (.void Void.unset .parensTo))
  | .unique false _ _ _ _ => by
    rw [TableConstraintSpec.lang, TableConstraintSpec.end_]; exact .cat (.cat (.void Void.unset .parensTo))
  | .referential _ _ _ => by
    rw [TableConstraintSpec.lang, TableConstraintSpec.end_, ReferenceKeyExpr.end_]
    exact .cat (.cat (.cat (.cat (.cat .parensTo))))
  | .check _ _ _ => by rw [TableConstraintSpec.lang, TableConstraintSpec.end_]; exact .cat .parensTo

theorem constraint_starts (c : TableConstraint) : St (some c.pos) (c.lang fns q) := by
  rw [TableConstraint.lang, TableConstraint.pos]
  cases c.name with
  | none => exact .void Void.unset (constraintSpec_starts _)
  | some n => exact St.starts.cat.cat

theorem constraint_ends (c : TableConstraint) : En d (some c.end_) (c.lang fns q) := by
  rw [TableConstraint.lang, TableConstraint.end_]; exact .cat (constraintSpec_ends _)

theorem columnSpec_starts : ∀ (s : ColumnSpec), St (some s.pos) (s.lang fns q)
  | .notNull _ _ => by rw [ColumnSpec.lang, ColumnSpec.pos]; exact St.starts.cat
  | .unique true _ _ _ => by rw [ColumnSpec.lang, ColumnSpec.pos]; exact St.starts.cat
  | .unique false _ _ _ => by rw [ColumnSpec.lang, ColumnSpec.pos]; exact St.starts.cat
  | .references _ _ _ _ => by rw [ColumnSpec.lang, ColumnSpec.pos]; exact St.starts.cat
  | .check _ _ _ => by rw [ColumnSpec.lang, ColumnSpec.pos]; exact St.starts.cat

theorem columnSpec_ends : ∀ (s : ColumnSpec), (Piece.columnSpec s).rightOk = true → En d (some s.end_) (s.lang fns q)
  | .notNull _ _, _ => by rw [ColumnSpec.lang, ColumnSpec.end_]; exact .cat .ends
  | .unique true _ _ _, _ => by rw [ColumnSpec.lang, ColumnSpec.end_]; exact .cat (.void Void.unset .ends)
  | .unique false _ _ _, h => by simp [Piece.rightOk] at h
  | .references _ _ _ _, _ => by rw [ColumnSpec.lang, ColumnSpec.end_]; exact .cat (.cat .parensTo)
  | .check _ _ _, _ => by rw [ColumnSpec.lang, ColumnSpec.end_]; exact .cat .parensTo

theorem columnConstraint_ends (c : ColumnConstraint) (h : (Piece.columnConstraint c).rightOk = true) :
    En d (some c.end_) (c.lang fns q) := by
  rw [ColumnConstraint.lang, ColumnConstraint.end_]
  refine .cat (.void Void.unset (columnSpec_ends _ ?_))
  obtain ⟨n, p, s⟩ := c
  cases s with
  | unique b _ _ _ => cases b <;> simp [Piece.rightOk] at h ⊢
  | _ => rfl

theorem column_starts (c : ColumnDef) : St (some c.pos) (c.lang fns q) := by
  rw [ColumnDef.lang, ColumnDef.pos]; exact St.word.cat

theorem element_starts : ∀ (e : TableElement), St (some e.pos) (e.lang fns q)
  | .constraint c => constraint_starts c
  | .column c => column_starts c

theorem option_starts : ∀ (o : TableOption), St (some o.pos) o.lang
  | .engine _ _ _ => by rw [TableOption.lang, TableOption.pos]; exact St.starts.cat
  | .charset true _ _ _ _ => by rw [TableOption.lang, TableOption.pos]; exact St.starts.cat
  | .charset false _ _ _ _ => by
    rw [TableOption.lang, TableOption.pos]; exact .void Void.unset St.starts.cat

theorem option_ends : ∀ (o : TableOption), En d (some o.end_) o.lang
  | .engine _ _ _ => by rw [TableOption.lang, TableOption.end_]; exact .cat (.cat .word)
  | .charset _ _ _ _ _ => by rw [TableOption.lang, TableOption.end_]; exact .cat (.cat (.cat .word))

theorem alterColumn_starts : ∀ (a : AlterColumnAction), St (some a.pos) (a.lang fns q)
  | .setDefault _ _ => by rw [AlterColumnAction.lang, AlterColumnAction.pos]; exact St.starts.cat
  | .dropDefault _ _ => by rw [AlterColumnAction.lang, AlterColumnAction.pos]; exact St.starts.cat
  | .pgAlterDataType _ _ => by rw [AlterColumnAction.lang, AlterColumnAction.pos]; exact St.starts.cat
  | .pgSetNotNull _ _ => by rw [AlterColumnAction.lang, AlterColumnAction.pos]; exact St.starts.cat
  | .pgDropNotNull _ _ => by rw [AlterColumnAction.lang, AlterColumnAction.pos]; exact St.starts.cat

theorem alterColumn_ends : ∀ (a : AlterColumnAction), a.rightOk = true → En d a.end_ (a.lang fns q)
  | .setDefault _ x, h => by rw [AlterColumnAction.lang, AlterColumnAction.end_]; exact .cat (.cat (expr_ends x h))
  | .dropDefault _ _, _ => by rw [AlterColumnAction.lang, AlterColumnAction.end_]; exact .cat .ends
  | .pgAlterDataType _ t, h => by rw [AlterColumnAction.lang, AlterColumnAction.end_]; exact .cat (dataType_ends t h)
  | .pgSetNotNull _ _, _ => by rw [AlterColumnAction.lang, AlterColumnAction.end_]; exact .cat (.cat .ends)
  | .pgDropNotNull _ _, _ => by rw [AlterColumnAction.lang, AlterColumnAction.end_]; exact .cat (.cat .ends)

theorem alter_starts : ∀ (a : AlterTableAction), St (some a.pos) (a.lang fns q)
  | .addColumn _ _ => by rw [AlterTableAction.lang, AlterTableAction.pos]; exact St.starts.cat
  | .alterColumn _ _ _ => by rw [AlterTableAction.lang, AlterTableAction.pos]; exact St.starts.cat
  | .removeColumn _ _ _ _ => by rw [AlterTableAction.lang, AlterTableAction.pos]; exact St.starts.cat
  | .addConstraint _ _ => by rw [AlterTableAction.lang, AlterTableAction.pos]; exact St.starts.cat
  | .dropConstraint _ _ _ _ => by rw [AlterTableAction.lang, AlterTableAction.pos]; exact St.starts.cat

theorem alter_ends : ∀ (a : AlterTableAction), a.rightOk = true → En d a.end_ (a.lang fns q)
  | .addColumn _ _, h => by simp [AlterTableAction.rightOk] at h
  | .alterColumn _ _ a, h => by
    rw [AlterTableAction.lang, AlterTableAction.end_]; exact .cat (.cat (.cat (alterColumn_ends a h)))
  | .removeColumn _ _ _ _, _ => by rw [AlterTableAction.lang, AlterTableAction.end_]; exact .cat (.cat (.flagTo .word))
  | .addConstraint _ c, _ => by rw [AlterTableAction.lang, AlterTableAction.end_]; exact .cat (constraint_ends c)
  | .dropConstraint _ _ _ _, _ => by rw [AlterTableAction.lang, AlterTableAction.end_]; exact .cat (.cat (.flagTo .word))

theorem stmt_starts : ∀ (s : Stmt), s.leftOk = true → St s.pos (s.lang fns q)
  | .query s, h => by rw [Stmt.lang, Stmt.pos]; exact query_starts s h
  | .insert _ _ _ _ _, _ => by rw [Stmt.lang, Stmt.pos]; exact St.starts.cat
  | .copy _ _ _ _, _ => by rw [Stmt.lang]; exact St.never
  | .update _ _ _ _, _ => by rw [Stmt.lang, Stmt.pos]; exact St.starts.cat
  | .delete _ _ _, _ => by rw [Stmt.lang, Stmt.pos]; exact St.starts.cat
  | .createView _ _ _ false, _ => by rw [Stmt.lang, Stmt.pos]; exact St.starts.cat
  | .createView _ _ _ true, _ => by rw [Stmt.lang]; exact St.never
  | .createTable _ _ _ _ _, _ => by rw [Stmt.lang, Stmt.pos]; exact St.starts.cat
  | .alterTable _ _ _, _ => by rw [Stmt.lang, Stmt.pos]; exact St.starts.cat
  | .dropTable _ _ _ _ _, _ => by rw [Stmt.lang, Stmt.pos]; exact St.starts.cat
  | .createIndex _ _ _ _ _ _ _ _, h => by simp [Stmt.leftOk] at h
  | .dropIndex _ _, _ => by rw [Stmt.lang, Stmt.pos]; exact St.starts.cat
  | .explain _ _, h => by simp [Stmt.leftOk] at h

theorem where_ends {x : Expr} (h : x.rightOk = true) : En d x.end_ (whereLang fns q (some x)) := by
  rw [whereLang, Expr.langO]
  exact En.cat (expr_ends x h)

theorem Void.where_ : Void (whereLang fns q none) := by
  rw [whereLang, Expr.langO]
  exact Void.eps

theorem stmt_ends : ∀ (s : Stmt), s.rightOk = true → En true s.end_ (s.lang fns q)
  | .query s, h => by rw [Stmt.rightOk] at h; rw [Stmt.lang, Stmt.end_]; exact query_ends s h
  | .insert p name is source assigns, h => by
    rw [Stmt.lang, Stmt.end_.eq_def]
    rw [Stmt.rightOk.eq_def] at h
    cases ha : assigns.getLast? with
    | some a =>
      simp only [ha] at h ⊢
      exact .cat (.cat (.cat (.cat (.cat (.clause (last_map ha) (fun h => .cat (.cat (.cat (.cat (.sepBy (last_map ha) h)))))
        (assignment_ends h))))))
    | none =>
      simp only [ha] at h ⊢
      rw [List.getLast?_eq_none_iff] at ha
      subst ha
      exact .cat (.cat (.cat (.cat (.void Void.eps (source_ends source h)))))
  | .copy _ _ _ _, _ => by rw [Stmt.lang]; exact .never
  | .update p name assigns sel, h => by
    rw [Stmt.lang, Stmt.end_.eq_def]
    rw [Stmt.rightOk.eq_def] at h
    cases sel with
    | some x => exact .cat (.cat (.cat (.cat (where_ends h))))
    | none =>
      cases ha : assigns.getLast? with
      | some a =>
        simp only [ha] at h ⊢
        exact .cat (.cat (.cat (.void Void.where_ (.sepBy (last_map ha) (assignment_ends h)))))
      | none => simp [ha] at h
  | .delete p name sel, h => by
    rw [Stmt.lang, Stmt.end_.eq_def]
    rw [Stmt.rightOk.eq_def] at h
    cases sel with
    | some x => exact .cat (.cat (.cat (where_ends h)))
    | none => exact .cat (.cat (.void Void.where_ .objectName))
  | .createView _ _ s false, h => by
    rw [Stmt.rightOk] at h; rw [Stmt.lang, Stmt.end_]; exact .cat (.cat (.cat (.cat (.cat (query_ends s h)))))
  | .createView _ _ _ true, _ => by rw [Stmt.lang]; exact .never
  | .createTable _ _ _ _ _, h => by simp [Stmt.rightOk] at h
  | .alterTable _ _ a, h => by
    rw [Stmt.rightOk] at h; rw [Stmt.lang, Stmt.end_]; exact .cat (.cat (.cat (alter_ends a h)))
  | .dropTable names cascade cp _ _, _ => by
    rw [Stmt.lang, Stmt.end_]
    cases cascade with
    | true => exact .cat (.cat (.cat (.cat .ends)))
    | false =>
      simp only [Bool.false_eq_true, if_false]
      refine .cat (.cat (.cat (.void Void.unset ?_)))
      cases hn : names.getLast? with
      | none =>
        rw [List.getLast?_eq_none_iff] at hn
        subst hn
        exact .never
      | some n => exact .sepBy (last_map hn) .objectName
  | .createIndex _ _ _ _ _ _ _ sel, h => by
    rw [Stmt.lang, Stmt.end_.eq_def]
    rw [Stmt.rightOk.eq_def] at h
    cases sel with
    | some x => exact .cat (.cat (.cat (.cat (.cat (.cat (.cat (.void Void.unset2 (where_ends h))))))))
    | none => simp at h
  | .dropIndex _ _, _ => by rw [Stmt.lang, Stmt.end_]; exact .cat (.cat .idents)
  | .explain s _, h => by
    rw [Stmt.rightOk] at h; rw [Stmt.lang, Stmt.end_]; exact .cat (.void Void.unset (stmt_ends s h))

/-! ### All nodes -/

theorem node_starts (n : Piece) (h : n.leftOk = true) : St n.pos (n.lang fns q) := by
  cases n with
  | ident i => exact St.word
  | expr e => exact expr_starts e h
  | dataType t => exact dataType_starts t h
  | window w => cases h
  | orderBy o => obtain ⟨x, p, asc⟩ := o; exact orderBy_starts h
  | query s => exact query_starts s h
  | cte c =>
    obtain ⟨a, s, rp⟩ := c
    simp only [Piece.lang, Piece.pos, CTE.pos]
    rw [CTE.lang]
    exact St.word.cat
  | body s => exact body_starts s h
  | select s => exact select_starts s
  | item i => exact item_starts i h
  | factor f => exact factor_starts f h
  | tableRef r => exact tableRef_starts r h
  | join s =>
    cases s with
    | namedColumns => cases h
    | condition x p => simp only [Piece.lang, Piece.pos, JoinSpec.pos]; rw [JoinSpec.lang]; exact St.starts.cat
  | assignment a => exact St.word.cat
  | row r => exact St.starts.cat
  | source s => exact source_starts s h
  | constraintSpec s => exact constraintSpec_starts s
  | constraint c => exact constraint_starts c
  | columnSpec s => exact columnSpec_starts s
  | columnConstraint c => cases h
  | column c => exact column_starts c
  | element e => exact element_starts e
  | option o => exact option_starts o
  | alterColumn a => exact alterColumn_starts a
  | alter a => exact alter_starts a
  | stmt s => exact stmt_starts s h

theorem node_ends (n : Piece) (h : n.rightOk = true) : En true n.end_ (n.lang fns q) := by
  cases n with
  | ident i => exact .word
  | expr e => exact expr_ends e h
  | dataType t => exact dataType_ends t h
  | window w => cases h
  | orderBy o => exact orderBy_ends o h
  | query s => exact query_ends s h
  | cte c => cases h
  | body s => exact body_ends s h
  | select s => exact select_ends s h
  | item i => exact item_ends i h
  | factor f => exact factor_ends f h
  | tableRef r => exact tableRef_ends r h
  | join s => exact join_ends s h
  | assignment a => exact assignment_ends h
  | row r => exact row_ends r
  | source s => exact source_ends s h
  | constraintSpec s => exact constraintSpec_ends s
  | constraint c => exact constraint_ends c
  | columnSpec s => exact columnSpec_ends s h
  | columnConstraint c => exact columnConstraint_ends c h
  | column c => cases h
  | element e =>
    cases e with
    | constraint c => exact constraint_ends c
    | column c => cases h
  | option o => exact option_ends o
  | alterColumn a => exact alterColumn_ends a h
  | alter a => exact alter_ends a h
  | stmt s => exact stmt_ends s h

end
end Verif
