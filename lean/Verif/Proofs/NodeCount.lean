import Verif.Spec.Grammar
import Verif.Spec.NodeCount
import Verif.Model.Embed
/-
A tree has at most 7/3 as many nodes as any sentence of the tree has tokens.
-/
set_option linter.unusedVariables false
set_option linter.unusedSimpArgs false
namespace Verif
open Spec

/-! ### Counting nodes -/

/-- The number of nodes in several trees. -/
def countList (ts : List Tree) : Nat := (Tree.nodesList ts).length

/-- The number of nodes in a list of fields. -/
def countFields (fs : List FieldVal) : Nat := (Tree.nodesFields fs).length

section
variable (k : Kind) (p e : Option Pos) (f : FName) (t : Tree) (ts : List Tree) (fs : List FieldVal)

@[simp] theorem count_leaf : (Tree.leaf k p e).count = 1 := by simp [Tree.count, Tree.leaf, Tree.nodes, Tree.nodesFields]
@[simp] theorem count_node : (Tree.node k p e fs).count = countFields fs + 1 := by
  simp [Tree.count, Tree.node, Tree.nodes, countFields]
@[simp] theorem count_mk (i : NodeRef) (b : Bool) : (Tree.mk k i b fs).count = countFields fs + 1 := by
  simp [Tree.count, Tree.nodes, countFields]
@[simp] theorem countFields_nil : countFields [] = 0 := rfl
@[simp] theorem countFields_none : countFields (.nil f :: fs) = countFields fs := by
  simp [countFields, Tree.nodesFields, Tree.nodesField]
@[simp] theorem countFields_one : countFields (.one f t :: fs) = t.count + countFields fs := by
  simp [countFields, Tree.nodesFields, Tree.nodesField, Tree.count]
@[simp] theorem countFields_list : countFields (.list f ts :: fs) = countList ts + countFields fs := by
  simp [countFields, Tree.nodesFields, Tree.nodesField, countList]
@[simp] theorem countFields_optNone : countFields (FieldVal.opt f none :: fs) = countFields fs := countFields_none f fs
@[simp] theorem countFields_optSome : countFields (FieldVal.opt f (some t) :: fs) = t.count + countFields fs :=
  countFields_one f t fs
@[simp] theorem countList_nil : countList [] = 0 := rfl
@[simp] theorem countList_cons : countList (t :: ts) = t.count + countList ts := by
  simp [countList, Tree.nodesList, Tree.count]
end

@[simp] theorem count_ident (i : Ident) : i.tree.count = 1 := count_leaf ..
theorem countList_leaves {α : Type} (g : α → Tree) (h : ∀ x, (g x).count = 1) (l : List α) :
    countList (l.map g) = l.length := by
  induction l with
  | nil => rfl
  | cons x l ih => simp only [List.map_cons, countList_cons, h, ih, List.length_cons]; omega
@[simp] theorem count_idents (is : List Ident) : countList (Ident.trees is) = is.length :=
  countList_leaves _ count_ident is
@[simp] theorem count_objectName (o : ObjectName) : o.tree.count = o.idents.length + 1 := by simp [ObjectName.tree]
@[simp] theorem count_operator (o : Operator) : o.tree.count = 1 := count_leaf ..
@[simp] theorem count_long (o : LongValue) : o.tree.count = 1 := count_leaf ..
@[simp] theorem count_unit (o : WindowFrameUnit) : o.tree.count = 1 := count_leaf ..
@[simp] theorem count_joinType (o : JoinType) : o.tree.count = 1 := count_leaf ..
@[simp] theorem count_bound (o : FrameBound) : o.tree.count = 1 := by cases o <;> exact count_leaf ..
@[simp] theorem count_setOp (o : SetOp) : o.tree.count = 1 := by cases o <;> exact count_leaf ..
@[simp] theorem count_autoIncrement (o : AutoIncrement) : o.tree.count = 1 := count_leaf ..

/-! ### Counting tokens -/

/-- The sentences of the language have enough tokens for `m` thirds of a node. -/
def Feeds (L : Lang) (m : Nat) : Prop := ∀ ts, L ts → m ≤ 7 * ts.length

/-- Each of the languages has enough tokens for one of the trees, `e - 2` thirds of a node left. -/
inductive FeedsL (e : Nat) : List Lang → List Tree → Prop
  | nil : FeedsL e [] []
  | cons {a as x xs} : Feeds a (3 * x.count + e - 2) → FeedsL e as xs → FeedsL e (a :: as) (x :: xs)

namespace Feeds
variable {a b : Lang} {m n : Nat} {p p' : Pos}

theorem mono (h : Feeds a m) (hn : n ≤ m) : Feeds a n := fun ts hts => Nat.le_trans hn (h ts hts)
theorem zero : Feeds a 0 := fun _ _ => Nat.zero_le _
theorem eps : Feeds eps 0 := zero
theorem unset : Feeds (Spec.unset p) 0 := zero
theorem unset2 : Feeds (Spec.unset2 p p') 0 := zero
theorem only {c : Prop} : Feeds (Spec.only c) 0 := zero
theorem opt : Feeds (Spec.opt a) 0 := zero
theorem lost {f : Bool} : Feeds (Spec.lost f a) 0 := zero
theorem never : Feeds never m := fun ts h => h.elim
theorem tok (h : ∀ ts, a ts → ∃ t, ts = [t]) : Feeds a 7 := fun ts hts => by
  obtain ⟨t, rfl⟩ := h ts hts
  exact Nat.le_refl _

theorem cat (ha : Feeds a m) (hb : Feeds b n) : Feeds (a ⬝ b) (m + n) := fun ts h => by
  obtain ⟨us, vs, rfl, h1, h2⟩ := h
  have := ha us h1
  have := hb vs h2
  rw [List.length_append]; omega

theorem alt (ha : Feeds a m) (hb : Feeds b n) : Feeds (a ⊹ b) (min m n) := fun ts h => by
  rcases h with h | h
  · have := ha ts h; omega
  · have := hb ts h; omega

theorem starts (ha : Feeds a m) : Feeds (p ▹ a) m := fun ts h => ha ts h.1
theorem ends (ha : Feeds a m) : Feeds (a ◃ p) m := fun ts h => ha ts h.1
theorem spans (ha : Feeds a m) : Feeds (Spec.spans p p' a) m := ha.ends.starts

theorem kwd {k : KW} : Feeds (Spec.kwd k) 7 := tok fun ts ⟨t, w, h, _⟩ => ⟨t, h⟩
theorem sym {k : Sym} : Feeds (Spec.sym k) 7 := tok fun ts ⟨t, w, h, _⟩ => ⟨t, h⟩
theorem word {bad : List KW} {i : Ident} : Feeds (Spec.word bad i) 7 := tok fun ts ⟨t, w, h, _⟩ => ⟨t, h⟩
theorem number {k : Nat} : Feeds (Spec.number k) 7 := tok fun ts ⟨t, w, h, _⟩ => ⟨t, h⟩
theorem numberZ {v : Int} : Feeds (Spec.numberZ v) 7 := fun ts ⟨n, _, h⟩ => number (k := n) ts h
theorem integer {v : Int} : Feeds (Spec.integer v) 7 := tok fun ts ⟨t, w, h, _⟩ => ⟨t, h⟩
theorem single {s : Str} : Feeds (fun ts => ∃ t, ts = [t] ∧ t.tok = .single s) 7 := tok fun ts ⟨t, h, _⟩ => ⟨t, h⟩
theorem national {s : Str} : Feeds (fun ts => ∃ t, ts = [t] ∧ t.tok = .national s) 7 := tok fun ts ⟨t, h, _⟩ => ⟨t, h⟩
theorem double {fns : FloatFns} {v : F64} :
    Feeds (fun ts => ∃ t s, ts = [t] ∧ t.tok = .number s ∧ '.' ∈ s ∧ fns.parse s = some v) 7 :=
  tok fun ts ⟨t, s, h, _⟩ => ⟨t, h⟩

end Feeds

/-! ### Lists -/

theorem Feeds.sepBy {e : Nat} {k : Sym} : ∀ {as : List Lang} {xs : List Tree}, FeedsL e as xs →
    Feeds (Spec.sepBy k as) (3 * countList xs + e - 2)
  | [], _, _ => Feeds.never
  | [a], _, .cons h .nil => by
    refine h.mono ?_
    simp
  | a :: b :: as, _, .cons h (.cons (xs := xs) (x := y) h' h'') => by
    have := Feeds.sepBy (k := k) (.cons h' h'')
    refine fun ts hts => ?_
    obtain ⟨us, vs, rfl, h1, vs, ws, rfl, h2, h3⟩ := hts
    have h1 := h us h1
    have h2 := Feeds.sym vs h2
    have h3 := this ws h3
    simp only [countList_cons, List.length_append] at h3 ⊢
    omega

theorem Feeds.idents {k : Sym} : ∀ {is : List Ident}, Feeds (Spec.idents k is) (14 * is.length - 7)
  | [] => Feeds.never
  | [i] => Feeds.word
  | i :: j :: is => by
    refine (Feeds.word.cat (Feeds.sym.cat (Feeds.idents (k := k) (is := j :: is)))).mono ?_
    simp only [List.length_cons]; omega

theorem Feeds.words {bad : List KW} {k : Sym} : ∀ {is : List Ident},
    Feeds (Spec.sepBy k (is.map (Spec.word bad))) (14 * is.length - 7)
  | [] => Feeds.never
  | [i] => Feeds.word
  | i :: j :: is => by
    refine (Feeds.word.cat (Feeds.sym.cat (Feeds.words (bad := bad) (k := k) (is := j :: is)))).mono ?_
    simp only [List.length_cons]; omega

theorem Feeds.nonempty {k : Sym} {is : List Ident} : Feeds (Spec.idents k is) (max 7 (14 * is.length - 7)) := by
  cases is with
  | nil => exact Feeds.never
  | cons i is => exact Feeds.idents.mono (by simp only [List.length_cons]; omega)

theorem Feeds.objectName {o : ObjectName} : Feeds (Spec.objectName o) (max 7 (14 * o.idents.length - 7)) := Feeds.nonempty

theorem Feeds.exprName : ∀ {is : List Ident}, Feeds (Spec.exprName is) (max 7 (14 * is.length - 7))
  | [] => Feeds.never
  | [i] => Feeds.word
  | _ :: _ :: _ => (Feeds.word.cat (Feeds.sym.cat Feeds.idents)).mono (by simp only [List.length_cons]; omega)

theorem Feeds.typeName : ∀ {is : List Ident}, Feeds (Spec.typeName is) (max 7 (14 * is.length - 7))
  | [] => Feeds.never
  | [i] => Feeds.word
  | _ :: _ :: _ => (Feeds.word.cat (Feeds.sym.cat Feeds.idents)).mono (by simp only [List.length_cons]; omega)

theorem FeedsL.map {α : Type} {e : Nat} {f : α → Lang} {g : α → Tree} (h : ∀ x, Feeds (f x) (3 * (g x).count + e - 2)) :
    ∀ l : List α, FeedsL e (l.map f) (l.map g)
  | [] => .nil
  | x :: l => .cons (h x) (FeedsL.map h l)

/-- Go through the combinators of a language, with the given facts about its parts. -/
macro "feeds" "[" ts:term,* "]" : tactic => `(tactic| (repeat' (with_reducible first
  | exact Feeds.kwd | exact Feeds.sym | exact Feeds.word | exact Feeds.number | exact Feeds.numberZ | exact Feeds.integer
  | exact Feeds.single | exact Feeds.national | exact Feeds.double
  | exact Feeds.objectName | exact Feeds.exprName | exact Feeds.typeName | exact Feeds.nonempty | exact Feeds.words
  $[| exact $ts]*
  | apply Feeds.spans | apply Feeds.starts | apply Feeds.ends | apply Feeds.sepBy
  | apply Feeds.cat | apply Feeds.alt | exact Feeds.never | exact Feeds.eps | exact Feeds.unset | exact Feeds.unset2
  | exact Feeds.only | exact Feeds.opt | exact Feeds.lost | exact Feeds.zero)))

/-- Count the nodes. -/
macro "nodecount" "[" ts:Lean.Parser.Tactic.simpLemma,* "]" : tactic => `(tactic| (
  (try simp [$ts,*]) <;> (try omega)))

/-- `feeds` gives a bound for the language, and `nodecount` compares it with the number of nodes. -/
macro "feeding" "[" ts:term,* "]" "[" ss:Lean.Parser.Tactic.simpLemma,* "]" : tactic => `(tactic| (
  apply Feeds.mono
  · feeds [$ts,*]
  · nodecount [$ss,*]))

theorem Feeds.parens {a : Lang} {m : Nat} (h : Feeds a m) : Feeds (Spec.parens a) (m + 14) := by
  unfold Spec.parens
  feeding [h] []
theorem Feeds.parensTo {a : Lang} {m : Nat} {p : Pos} (h : Feeds a m) : Feeds (Spec.parensTo p a) (m + 14) := by
  unfold Spec.parensTo
  feeding [h] []

theorem DataType.feeds (t : DataType) : Feeds t.lang (3 * t.tree.count - 2) := by
  unfold DataType.lang
  split <;> first | exact Feeds.never | feeding [] [DataType.tree]

/-! ### Parts of expressions and queries -/

theorem Feeds.binaryOp {op : Operator} : Feeds (Spec.binaryOp op) 7 := by
  unfold Spec.binaryOp
  split <;> first | exact Feeds.never | feeding [] []

theorem Feeds.unaryOp {p : Pos} {op : Operator} : Feeds (Spec.unaryOp p op) 7 := by
  unfold Spec.unaryOp
  split <;> first | exact Feeds.never | feeding [] []

theorem Feeds.bound {x : FrameBound} : Feeds (boundLang x) 14 := by
  cases x <;> (unfold boundLang; feeding [] [])

theorem Feeds.unit {u : WindowFrameUnit} : Feeds (unitLang u) 7 := by
  unfold unitLang
  split <;> feeding [] []

/-- The nodes of a frame. -/
def frameCount : Option WindowFrame → Nat
  | some f => 3 * f.tree.count
  | none => 0

theorem Feeds.frame {x : Option WindowFrame} : Feeds (frameLang x) (frameCount x) := by
  rcases x with _ | ⟨u, s, _ | e⟩
  · exact Feeds.zero
  · unfold frameLang; feeding [Feeds.unit, Feeds.bound] [frameCount, WindowFrame.tree]
  · unfold frameLang; feeding [Feeds.unit, Feeds.bound] [frameCount, WindowFrame.tree]

/-- The nodes of a limit. -/
def limitCount : Option LimitExpr → Nat
  | some l => 3 * l.tree.count
  | none => 0

theorem Feeds.limit {x : Option LimitExpr} : Feeds (limitLang x) (limitCount x) := by
  rcases x with _ | ⟨_ | n, ap, lp, _ | o⟩
  · exact Feeds.zero
  · unfold limitLang; feeding [] [limitCount, LimitExpr.tree]
  · exact Feeds.never
  · unfold limitLang; feeding [] [limitCount, LimitExpr.tree]
  · unfold limitLang; feeding [] [limitCount, LimitExpr.tree]

theorem Feeds.setOp {x : SetOp} : Feeds (setOpLang x) 7 := by
  cases x <;> (unfold setOpLang; feeding [] [])

theorem Feeds.alias {bad : List KW} {i : Ident} : Feeds (aliasLang bad i) 7 := by
  unfold aliasLang
  feeding [] []

/-- The nodes of the alias of a table. -/
def aliasCount : Option Ident → Nat
  | some i => 7
  | none => 0

theorem Feeds.tableAlias {q : Quirks} {i : Option Ident} : Feeds (tableAliasLang q i) (aliasCount i) := by
  cases i with
  | none => exact Feeds.zero
  | some a => exact Feeds.alias

theorem Feeds.subquery {w : Bool} {p : Pos} {a : Lang} {m : Nat} (h : Feeds a m) : Feeds (subqueryLang w p a) (m + 14) := by
  cases w <;> (simp only [subqueryLang, if_true, Bool.false_eq_true, if_false]; feeding [h] [])

theorem Feeds.clauseOr {e : Nat} {other : Lang} {wrap : Lang → Lang} {as : List Lang} {xs : List Tree} (k : Nat)
    (hw : ∀ a m, Feeds a m → Feeds (wrap a) (m + k)) (h : FeedsL e as xs) :
    Feeds (Spec.clauseOr other wrap as) (if xs.isEmpty then 0 else 3 * countList xs + e - 2 + k) := by
  cases h with
  | nil => exact Feeds.zero
  | cons h1 h2 => exact hw _ _ (Feeds.sepBy (.cons h1 h2))

theorem Feeds.clause {e : Nat} {wrap : Lang → Lang} {as : List Lang} {xs : List Tree} (k : Nat)
    (hw : ∀ a m, Feeds a m → Feeds (wrap a) (m + k)) (h : FeedsL e as xs) :
    Feeds (Spec.clause wrap as) (if xs.isEmpty then 0 else 3 * countList xs + e - 2 + k) :=
  Feeds.clauseOr k hw h

theorem Feeds.asIs (a : Lang) (m : Nat) (h : Feeds a m) : Feeds (id a) (m + 0) := h

/-- The nodes of an optional expression. -/
def optCount (k : Nat) : Option Expr → Nat
  | some x => 3 * x.tree.count + 4 + k
  | none => 0

theorem Feeds.whens : ∀ {cs rs : List Lang} {xs ys : List Tree}, FeedsL 6 cs xs → FeedsL 6 rs ys →
    Feeds (Spec.whens cs rs) (3 * countList xs + 3 * countList ys)
  | _, _, _, _, .nil, .nil => Feeds.zero
  | _, _, _, _, .nil, .cons _ _ => Feeds.never
  | _, _, _, _, .cons _ _, .nil => Feeds.never
  | _, _, _, _, .cons h h', .cons h1 h2 => by
    have h5 := Feeds.whens h' h2
    simp only [Spec.whens]
    feeding [h, h1, h5] []

/-! ### Expressions and queries -/

section
variable {fns : FloatFns} (q : Quirks)

mutual

theorem Expr.feeds : (x : Expr) → Feeds (x.lang fns q) (3 * x.tree.count + 4)
  | .ident i => by rw [Expr.lang]; feeding [] [Expr.tree]
  | .wildcard p => by rw [Expr.lang]; feeding [] [Expr.tree]
  | .qualifiedWildcard is => by rw [Expr.lang]; feeding [] [Expr.tree]
  | .compoundIdent is => by
    rw [Expr.lang]
    rintro ts ⟨us, vs, rfl, h1, rfl, h2⟩
    have := Feeds.exprName us h1
    simp only [Expr.tree, count_node, countFields_list, count_idents, countFields_nil, List.append_nil] at this ⊢
    omega
  | .isNull x => by rw [Expr.lang]; feeding [x.feeds] [Expr.tree]
  | .isNotNull x => by rw [Expr.lang]; feeding [x.feeds] [Expr.tree]
  | .inList x l neg rp => by
    rw [Expr.lang]
    cases neg <;> (simp only [flag, if_true, Bool.false_eq_true, if_false]; feeding [x.feeds, Feeds.parensTo (Feeds.sepBy (Expr.feedsL l))] [Expr.tree])
  | .inSubQuery x s neg rp => by
    rw [Expr.lang]
    cases neg <;> (simp only [flag, if_true, Bool.false_eq_true, if_false]; feeding [x.feeds, Feeds.subquery s.feeds] [Expr.tree])
  | .between x neg low high => by
    rw [Expr.lang]
    cases neg <;> (simp only [flag, if_true, Bool.false_eq_true, if_false]; feeding [x.feeds, low.feeds, high.feeds] [Expr.tree])
  | .binary l op r => by rw [Expr.lang]; feeding [l.feeds, Feeds.binaryOp, r.feeds] [Expr.tree]
  | .cast x ty c rp => by rw [Expr.lang]; feeding [x.feeds, ty.feeds] [Expr.tree]
  | .nested x lp rp => by rw [Expr.lang]; feeding [x.feeds] [Expr.tree]
  | .unary p op x => by rw [Expr.lang]; feeding [x.feeds, Feeds.unaryOp] [Expr.tree]
  | .function name args rp none orp => by
    rw [Expr.lang]
    apply Feeds.mono
    · feeds [Feeds.parensTo (Feeds.clause (wrap := id) 0 Feeds.asIs (Expr.feedsL args))]
    · cases args <;> nodecount [Expr.tree, Expr.trees, WindowSpec.treeOpt]
  | .function name args rp (some w) orp => by
    rw [Expr.lang]
    apply Feeds.mono
    · feeds [Feeds.parensTo (Feeds.clause (wrap := id) 0 Feeds.asIs (Expr.feedsL args)), w.feeds]
    · cases args <;> nodecount [Expr.tree, Expr.trees, WindowSpec.treeOpt]
  | .caseExpr c e operand conditions results elseResult => by
    rw [Expr.lang]
    apply Feeds.mono
    · feeds [Expr.feedsO operand (wrap := id) 0 Feeds.asIs, Feeds.whens (Expr.feedsL conditions) (Expr.feedsL results),
        Expr.feedsO elseResult 7 (fun a m h => by feeding [h] [])]
    · cases operand <;> cases elseResult <;> nodecount [Expr.tree, Expr.treeOpt, optCount]
  | .exists_ neg s n e rp => by
    rw [Expr.lang]
    cases neg <;> (simp only [flagFrom, if_true, Bool.false_eq_true, if_false]; feeding [Feeds.parensTo s.feeds] [Expr.tree])
  | .subQuery rp lp s => by rw [Expr.lang]; feeding [Feeds.subquery s.feeds] [Expr.tree]
  | .long v => by rw [Expr.lang]; feeding [] [Expr.tree]
  | .double f t v => by rw [Expr.lang]; feeding [] [Expr.tree]
  | .singleQuoted f t s => by rw [Expr.lang]; feeding [] [Expr.tree]
  | .national f t s => by rw [Expr.lang]; feeding [] [Expr.tree]
  | .boolean f t b => by rw [Expr.lang]; cases b <;> (simp only [if_true, Bool.false_eq_true, if_false]; feeding [] [Expr.tree])
  | .null f t => by rw [Expr.lang]; feeding [] [Expr.tree]
  | .timeValue _ _ _ _ => by rw [Expr.lang]; exact Feeds.never

theorem Expr.feedsL : (xs : List Expr) → FeedsL 6 (Expr.langs fns q xs) (Expr.trees xs)
  | [] => by rw [Expr.langs, Expr.trees]; exact .nil
  | x :: xs => by rw [Expr.langs, Expr.trees]; exact .cons x.feeds (Expr.feedsL xs)

theorem Expr.feedsO : (x : Option Expr) → ∀ {wrap : Lang → Lang} (k : Nat), (∀ a m, Feeds a m → Feeds (wrap a) (m + k)) →
    Feeds (optional wrap (Expr.langO fns q x)) (optCount k x)
  | none => fun k _ => Feeds.zero
  | some x => fun k h => by rw [Expr.langO]; exact h _ _ x.feeds

theorem WindowSpec.feeds : (x : WindowSpec) → Feeds (x.lang fns q) (3 * x.tree.count)
  | .mk partitionBy orderBy frame p o => by
    rw [WindowSpec.lang]
    apply Feeds.mono
    · feeds [Feeds.clauseOr 14 (fun a m h => by feeding [h] []) (Expr.feedsL partitionBy),
        Feeds.clauseOr 14 (fun a m h => by feeding [h] []) (OrderByExpr.feedsL orderBy), Feeds.frame]
    · cases partitionBy <;> cases orderBy <;> cases frame <;>
        nodecount [WindowSpec.tree, Expr.trees, OrderByExpr.trees, frameCount]

theorem OrderByExpr.feeds : (x : OrderByExpr) → Feeds (x.lang fns q) (3 * x.tree.count + 1)
  | .mk x p asc => by
    rw [OrderByExpr.lang]
    feeding [x.feeds] [OrderByExpr.tree]

theorem OrderByExpr.feedsL : (xs : List OrderByExpr) → FeedsL 3 (OrderByExpr.langs fns q xs) (OrderByExpr.trees xs)
  | [] => by rw [OrderByExpr.langs, OrderByExpr.trees]; exact .nil
  | x :: xs => by rw [OrderByExpr.langs, OrderByExpr.trees]; exact .cons x.feeds (OrderByExpr.feedsL xs)

theorem QueryStmt.feeds : (x : QueryStmt) → Feeds (x.lang fns q) (3 * x.tree.count + 2)
  | .mk w ctes body orderBy limit => by
    rw [QueryStmt.lang]
    apply Feeds.mono
    · feeds [Feeds.clause 7 (fun a m h => by feeding [h] []) (CTE.feedsL ctes), body.feeds,
        Feeds.clause 14 (fun a m h => by feeding [h] []) (OrderByExpr.feedsL orderBy), Feeds.limit]
    · cases ctes <;> cases orderBy <;> cases limit <;> nodecount [QueryStmt.tree, CTE.trees, OrderByExpr.trees, limitCount]

theorem CTE.feeds : (x : CTE) → Feeds (x.lang fns q) (3 * x.tree.count + 4)
  | .mk alias s rp => by rw [CTE.lang]; feeding [Feeds.parens s.feeds] [CTE.tree]

theorem CTE.feedsL : (xs : List CTE) → FeedsL 6 (CTE.langs fns q xs) (CTE.trees xs)
  | [] => by rw [CTE.langs, CTE.trees]; exact .nil
  | x :: xs => by rw [CTE.langs, CTE.trees]; exact .cons x.feeds (CTE.feedsL xs)

theorem SetExpr.feeds : (x : SetExpr) → Feeds (x.lang fns q) (3 * x.tree.count + 5)
  | .selectExpr _ => by rw [SetExpr.lang]; exact Feeds.never
  | .select s => by rw [SetExpr.lang, SetExpr.tree]; exact s.feeds
  | .query lp rp s => by rw [SetExpr.lang]; feeding [Feeds.parens s.feeds] [SetExpr.tree]
  | .setOp op all l r => by
    rw [SetExpr.lang]
    cases all <;> (simp only [flag, if_true, Bool.false_eq_true, if_false]; feeding [l.feeds, r.feeds, Feeds.setOp] [SetExpr.tree])

theorem SQLSelect.feeds : (x : SQLSelect) → Feeds (x.lang fns q) (3 * x.tree.count + 5)
  | .mk distinct projection from_ where_ groupBy having_ p => by
    rw [SQLSelect.lang]
    cases distinct <;> (
      simp only [flag, if_true, Bool.false_eq_true, if_false]
      apply Feeds.mono
      · feeds [SelectItem.feedsL projection, Feeds.clause 7 (fun a m h => by feeding [h] []) (TableRef.feedsL from_),
          Expr.feedsO where_ 7 (fun a m h => by feeding [h] []),
          Feeds.clause 14 (fun a m h => by feeding [h] []) (Expr.feedsL groupBy),
          Expr.feedsO having_ 7 (fun a m h => by feeding [h] [])]
      · cases from_ <;> cases where_ <;> cases groupBy <;> cases having_ <;>
          nodecount [SQLSelect.tree, TableRef.trees, Expr.trees, Expr.treeOpt, optCount])

theorem SelectItem.feeds : (x : SelectItem) → Feeds (x.lang fns q) (3 * x.tree.count + 1)
  | .unnamed x => by rw [SelectItem.lang]; feeding [x.feeds] [SelectItem.tree]
  | .alias x a => by rw [SelectItem.lang]; feeding [x.feeds, Feeds.alias] [SelectItem.tree]
  | .qualifiedWildcard p => by rw [SelectItem.lang]; feeding [] [SelectItem.tree]
  | .wildcard _ _ => by rw [SelectItem.lang]; exact Feeds.never

theorem SelectItem.feedsL : (xs : List SelectItem) → FeedsL 3 (SelectItem.langs fns q xs) (SelectItem.trees xs)
  | [] => by rw [SelectItem.langs, SelectItem.trees]; exact .nil
  | x :: xs => by rw [SelectItem.langs, SelectItem.trees]; exact .cons x.feeds (SelectItem.feedsL xs)

theorem TableFactor.feeds : (x : TableFactor) → Feeds (x.lang fns q) (3 * x.tree.count - 2)
  | .table name alias [] arp hints hrp => by
    rw [TableFactor.lang]
    apply Feeds.mono
    · feeds [Feeds.tableAlias, Feeds.clause 21 (fun a m h => by feeding [Feeds.parens h] []) (Expr.feedsL hints)]
    · cases alias <;> cases hints <;> nodecount [TableFactor.tree, Expr.trees, aliasCount]
  | .table name alias (x :: xs) arp hints hrp => by
    rw [TableFactor.lang]
    · apply Feeds.mono
      · feeds [Feeds.tableAlias, Expr.feedsL (x :: xs),
          Feeds.clause 21 (fun a m h => by feeding [Feeds.parens h] []) (Expr.feedsL hints)]
      · cases alias <;> cases hints <;> nodecount [TableFactor.tree, Expr.trees, aliasCount]
    · simp
  | .derived lateral p lp rp s alias => by
    rw [TableFactor.lang]
    cases lateral <;> (
      simp only [flag, if_true, Bool.false_eq_true, if_false]
      apply Feeds.mono
      · feeds [Feeds.parens s.feeds, Feeds.tableAlias]
      · cases alias <;> nodecount [TableFactor.tree, aliasCount])

theorem TableRef.feeds : (x : TableRef) → Feeds (x.lang fns q) (3 * x.tree.count - 2)
  | .factor f => by rw [TableRef.lang, TableRef.tree]; exact f.feeds
  | .cross r f => by rw [TableRef.lang]; feeding [r.feeds, f.feeds] [TableRef.tree]
  | .partitioned _ _ _ => by rw [TableRef.lang]; exact Feeds.never
  | .qualified l ty r spec => by rw [TableRef.lang]; feeding [l.feeds, r.feeds, spec.feeds] [TableRef.tree]
  | .natural l ty r => by rw [TableRef.lang]; feeding [l.feeds, r.feeds] [TableRef.tree]

theorem TableRef.feedsL : (xs : List TableRef) → FeedsL 0 (TableRef.langs fns q xs) (TableRef.trees xs)
  | [] => by rw [TableRef.langs, TableRef.trees]; exact .nil
  | x :: xs => by rw [TableRef.langs, TableRef.trees]; exact .cons x.feeds (TableRef.feedsL xs)

theorem JoinSpec.feeds : (x : JoinSpec) → Feeds (x.lang fns q) (3 * x.tree.count + 8)
  | .namedColumns is u rp => by rw [JoinSpec.lang]; feeding [Feeds.parens Feeds.nonempty] [JoinSpec.tree]
  | .condition x p => by rw [JoinSpec.lang]; feeding [x.feeds] [JoinSpec.tree]

end

/-! ### Statements -/

theorem Feeds.where_ (x : Option Expr) : Feeds (whereLang fns q x) (optCount 7 x) :=
  Expr.feedsO q x 7 (fun a m h => by feeding [h] [])

theorem Feeds.columns {is : List Ident} : Feeds (columnsLang is) (if is.isEmpty then 0 else 14 * is.length - 7 + 14) := by
  cases is with
  | nil => exact Feeds.zero
  | cons i is => exact Feeds.parens Feeds.words

theorem Assignment.feeds (a : Assignment) : Feeds (a.lang fns q) (3 * a.tree.count + 4) := by
  unfold Assignment.lang
  feeding [a.value.feeds q] [Assignment.tree]

theorem Expr.trees_map : ∀ xs : List Expr, xs.map Expr.tree = Expr.trees xs
  | [] => by rw [Expr.trees, List.map]
  | x :: xs => by rw [Expr.trees, List.map, Expr.trees_map xs]

theorem RowValueExpr.feeds (r : RowValueExpr) : Feeds (r.lang fns q) (3 * r.tree.count + 4) := by
  unfold RowValueExpr.lang
  feeding [Expr.feedsL q r.values] [RowValueExpr.tree, Expr.trees_map]

theorem InsertSource.feeds (s : InsertSource) : Feeds (s.lang fns q) (3 * s.tree.count - 1) := by
  cases s with
  | subQuery s => rw [InsertSource.lang]; feeding [s.feeds q] [InsertSource.tree]
  | constructor v rows => unfold InsertSource.lang; feeding [FeedsL.map (e := 6) (RowValueExpr.feeds q) rows] [InsertSource.tree]

theorem Feeds.referenced {is : List Ident} : Feeds (referencedLang q is) (14 * is.length - 7) := by
  cases is with
  | nil => exact Feeds.zero
  | cons i is => exact Feeds.idents

theorem TableConstraintSpec.feeds (x : TableConstraintSpec) : Feeds (x.lang fns q) (3 * x.tree.count + 4) := by
  cases x with
  | unique b p u rp is =>
    cases b <;> (unfold TableConstraintSpec.lang; feeding [Feeds.parensTo Feeds.nonempty] [TableConstraintSpec.tree])
  | referential p is key =>
    unfold TableConstraintSpec.lang
    feeding [Feeds.parensTo (Feeds.referenced q), Feeds.parens Feeds.nonempty] [TableConstraintSpec.tree, ReferenceKeyExpr.tree]
  | check p rp x => unfold TableConstraintSpec.lang; feeding [Feeds.parensTo (x.feeds q)] [TableConstraintSpec.tree]

theorem TableConstraint.feeds (x : TableConstraint) : Feeds (x.lang fns q) (3 * x.tree.count + 1) := by
  obtain ⟨c, name, spec⟩ := x
  unfold TableConstraint.lang
  cases name <;> (simp only [nameLang]; feeding [spec.feeds q] [TableConstraint.tree])

theorem ColumnSpec.feeds (x : ColumnSpec) : Feeds (x.lang fns q) (3 * x.tree.count + 4) := by
  cases x with
  | notNull n n' => unfold ColumnSpec.lang; feeding [] [ColumnSpec.tree]
  | unique b p k u => cases b <;> (unfold ColumnSpec.lang; feeding [] [ColumnSpec.tree])
  | references p rp name is => unfold ColumnSpec.lang; feeding [Feeds.parensTo Feeds.nonempty] [ColumnSpec.tree]
  | check x p rp => unfold ColumnSpec.lang; feeding [Feeds.parensTo (x.feeds q)] [ColumnSpec.tree]

theorem ColumnConstraint.feeds (x : ColumnConstraint) : Feeds (x.lang fns q) (3 * x.tree.count) := by
  obtain ⟨name, c, spec⟩ := x
  unfold ColumnConstraint.lang
  cases name <;> (simp only [columnNameLang]; feeding [spec.feeds q] [ColumnConstraint.tree])

/-- The nodes of the parts of a column definition that the items of a language give. -/
def defaultCount : Option Expr → Nat
  | some x => 3 * x.tree.count
  | none => 0

def constraintsCount (cs : List ColumnConstraint) : Nat := (cs.map fun x => 3 * x.tree.count).sum

def itemCount : ColumnItem → Nat
  | .default_ x => 3 * x.tree.count
  | .constraints cs => constraintsCount cs
  | .autoIncrement _ => 3

theorem itemCount_items (items : List ColumnItem) :
    defaultCount (items.filterMap ColumnItem.default?).getLast? +
      constraintsCount (((items.filterMap ColumnItem.constraints?).getLast?).getD []) +
      3 * (items.filterMap ColumnItem.autoIncrement?).length ≤ (items.map itemCount).sum := by
  induction items with
  | nil => simp [defaultCount, constraintsCount]
  | cons i items ih =>
    cases i with
    | default_ x =>
      simp only [List.filterMap_cons, ColumnItem.default?, ColumnItem.constraints?, ColumnItem.autoIncrement?,
        List.map_cons, List.sum_cons, itemCount]
      generalize items.filterMap ColumnItem.default? = l at ih ⊢
      cases l with
      | nil => simp only [List.getLast?_singleton, List.getLast?_nil, defaultCount] at ih ⊢; omega
      | cons y l => rw [List.getLast?_cons_cons]; omega
    | constraints cs =>
      simp only [List.filterMap_cons, ColumnItem.default?, ColumnItem.constraints?, ColumnItem.autoIncrement?,
        List.map_cons, List.sum_cons, itemCount]
      generalize items.filterMap ColumnItem.constraints? = l at ih ⊢
      cases l with
      | nil => simp only [List.getLast?_singleton, List.getLast?_nil, Option.getD_some, Option.getD_none] at ih ⊢; omega
      | cons y l => rw [List.getLast?_cons_cons]; omega
    | autoIncrement a =>
      simp only [List.filterMap_cons, ColumnItem.default?, ColumnItem.constraints?, ColumnItem.autoIncrement?,
        List.map_cons, List.sum_cons, itemCount, List.length_cons]
      omega

theorem Feeds.sum {α : Type} {f : α → Lang} {g : α → Nat} (h : ∀ x, Feeds (f x) (g x)) :
    ∀ l : List α, Feeds (Spec.concat (l.map f)) (l.map g).sum
  | [] => Feeds.zero
  | x :: l => ((h x).cat (Feeds.sum h l)).mono (by simp)

theorem ColumnItem.feeds (x : ColumnItem) : Feeds (x.lang fns q) (itemCount x) := by
  cases x with
  | default_ x => unfold ColumnItem.lang; feeding [x.feeds q] [itemCount]
  | constraints cs =>
    unfold ColumnItem.lang
    feeding [Feeds.sum (ColumnConstraint.feeds q) cs] [itemCount, constraintsCount]
  | autoIncrement a => unfold ColumnItem.lang; feeding [] [itemCount]

theorem count_sum {α : Type} (g : α → Tree) (l : List α) : 3 * countList (l.map g) = (l.map fun x => 3 * (g x).count).sum := by
  induction l with
  | nil => rfl
  | cons x l ih => simp only [List.map_cons, countList_cons, List.sum_cons]; omega

theorem ColumnDef.feeds (c : ColumnDef) : Feeds (c.lang fns q) (3 * c.tree.count - 1) := by
  unfold ColumnDef.lang
  have key : Feeds (fun ts => ∃ items, Spec.concat (items.map (ColumnItem.lang fns q)) ts ∧
      ColumnItems items c.default_ c.constraints c.decorations ∧
      (q.odd = true ∨ (ColumnItem.separated items && ColumnItem.single items) = true))
      (defaultCount c.default_ + constraintsCount c.constraints + 3 * c.decorations.length) := by
    rintro ts ⟨items, h1, h2, -⟩
    rw [h2.default_, h2.constraints, h2.decorations]
    exact Nat.le_trans (itemCount_items items) (Feeds.sum (ColumnItem.feeds q) items ts h1)
  apply Feeds.mono
  · feeds [c.dataType.feeds, key]
  · have h1 := count_sum ColumnConstraint.tree c.constraints
    have h2 := countList_leaves AutoIncrement.tree count_autoIncrement c.decorations
    cases hd : c.default_ <;> nodecount [ColumnDef.tree, hd, h2, defaultCount, constraintsCount]

theorem TableElement.feeds (x : TableElement) : Feeds (x.lang fns q) (3 * x.tree.count - 1) := by
  cases x with
  | constraint c => exact (c.feeds q).mono (by simp only [TableElement.tree]; omega)
  | column c => exact c.feeds q

theorem TableOption.feeds (x : TableOption) : Feeds x.lang (3 * x.tree.count) := by
  cases x with
  | engine p equal name => simp only [TableOption.lang]; feeding [] [TableOption.tree]
  | charset d p c equal name => simp only [TableOption.lang]; feeding [] [TableOption.tree]

theorem AlterColumnAction.feeds (x : AlterColumnAction) : Feeds (x.lang fns q) (3 * x.tree.count + 2) := by
  cases x <;> (unfold AlterColumnAction.lang; feeding [Expr.feeds q _, DataType.feeds _] [AlterColumnAction.tree])

theorem AlterTableAction.feeds (x : AlterTableAction) : Feeds (x.lang fns q) (3 * x.tree.count) := by
  cases x with
  | addColumn p c => unfold AlterTableAction.lang; feeding [c.feeds q] [AlterTableAction.tree]
  | alterColumn name p a => unfold AlterTableAction.lang; feeding [a.feeds q] [AlterTableAction.tree]
  | removeColumn name b cp p => unfold AlterTableAction.lang; feeding [] [AlterTableAction.tree]
  | addConstraint p c => unfold AlterTableAction.lang; feeding [c.feeds q] [AlterTableAction.tree]
  | dropConstraint name p b cp => unfold AlterTableAction.lang; feeding [] [AlterTableAction.tree]

theorem Feeds.name (o : ObjectName) : Feeds (Spec.objectName o) (3 * o.tree.count + 1) :=
  Feeds.objectName.mono (by nodecount [])

theorem Stmt.feeds : (s : Stmt) → Feeds (s.lang fns q) (3 * s.tree.count + 2)
  | .query s => s.feeds q
  | .insert p name is source assigns => by
    rw [Stmt.lang]
    apply Feeds.mono
    · feeds [Feeds.columns, source.feeds q,
        Feeds.clause 28 (fun a m h => by feeding [h] []) (FeedsL.map (e := 6) (Assignment.feeds q) assigns)]
    · cases is <;> cases assigns <;> nodecount [Stmt.tree]
  | .update p name assigns cond => by
    rw [Stmt.lang]
    apply Feeds.mono
    · feeds [Feeds.where_ q cond, FeedsL.map (e := 6) (Assignment.feeds q) assigns]
    · cases cond <;> nodecount [Stmt.tree, optCount]
  | .delete p name cond => by
    rw [Stmt.lang]
    apply Feeds.mono
    · feeds [Feeds.where_ q cond]
    · cases cond <;> nodecount [Stmt.tree, optCount]
  | .createView p name s false => by rw [Stmt.lang]; feeding [s.feeds q] [Stmt.tree]
  | .createView _ _ _ true => by rw [Stmt.lang]; exact Feeds.never
  | .createTable p name elements notExists options => by
    rw [Stmt.lang]
    apply Feeds.mono
    · feeds [Feeds.clause 14 (fun a m h => Feeds.parens h) (FeedsL.map (e := 1) (TableElement.feeds q) elements),
        Feeds.sum TableOption.feeds options]
    · have := count_sum TableOption.tree options
      cases elements <;> nodecount [Stmt.tree]
  | .alterTable p name action => by rw [Stmt.lang]; feeding [action.feeds q] [Stmt.tree]
  | .dropTable names cascade cp ifExists p => by
    rw [Stmt.lang]
    feeding [FeedsL.map (e := 3) Feeds.name names] [Stmt.tree]
  | .createIndex p name unique indexName methodName is rp cond => by
    rw [Stmt.lang]
    cases unique <;> cases indexName <;> cases methodName <;> (
      simp only [Option.map, Spec.optional, id, if_true, Bool.false_eq_true, if_false]
      apply Feeds.mono
      · feeds [Feeds.columns, Feeds.where_ q cond]
      · cases cond <;> cases is <;> nodecount [Stmt.tree, optCount])
  | .dropIndex p is => by rw [Stmt.lang]; feeding [] [Stmt.tree]
  | .explain s p => by rw [Stmt.lang]; feeding [s.feeds] [Stmt.tree]
  | .copy _ _ _ _ => by rw [Stmt.lang]; exact Feeds.never

/-- The statements of a script. -/
theorem Feeds.script (ss : List Stmt) : Feeds (scriptLang fns q ss) (3 * countList (ss.map Stmt.tree) + 9 * ss.length) := by
  have key : ∀ ss : List Stmt, Feeds (Spec.concat (ss.map fun s => s.lang fns q ⬝ Spec.sym .Semicolon))
      (3 * countList (ss.map Stmt.tree) + 9 * ss.length) := by
    intro ss
    induction ss with
    | nil => exact Feeds.zero
    | cons s ss ih =>
      simp only [List.map_cons, Spec.concat]
      feeding [s.feeds q, ih] []
  unfold scriptLang
  feeding [key ss] []

end

end Verif
