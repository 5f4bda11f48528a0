import Verif.Spec.Order
import Verif.Spec.Grammar
import Verif.Proofs.FineStmt
/-
The sentences for a tree have the positions of its nodes in the order in which `Walk` visits them.
-/
set_option maxRecDepth 100000
set_option linter.unusedSimpArgs false
namespace Verif
open Spec

/-! ### Positions in order -/

theorem Spec.InOrder.append {us vs : List Token} {ps qs : List Pos} (h1 : InOrder us ps) (h2 : InOrder vs qs) :
    InOrder (us ++ vs) (ps ++ qs) := by
  induction h1 with
  | nil ts =>
    induction ts with
    | nil => exact h2
    | cons t ts ih => exact .skip t ih
  | skip t _ ih => exact .skip t ih
  | here t _ ih => exact .here t ih

theorem visitedPos_append (l l' : List (Option Tree × Bool)) : visitedPos (l ++ l') = visitedPos l ++ visitedPos l' := by
  simp [visitedPos]

theorem visitedPos_none (b : Bool) (l : List (Option Tree × Bool)) : visitedPos ((none, b) :: l) = visitedPos l := by
  simp [visitedPos]

/-- The nodes that can be reached are visited in the order of the text. -/
def Tidy (t : Tree) : Prop := ∀ u, Reached t u → u.reordered = false

theorem Tidy.kid {t c : Tree} {ks : List (Option Tree)} (h : Tidy t) (hk : t.walkKids = some ks) (hc : some c ∈ ks) :
    Tidy c := fun u hu => h u (.child hk hc hu)

theorem Tidy.self {t : Tree} (h : Tidy t) : t.reordered = false := h t (.refl t)

/-- Every traversal of the nodes has its positions in the order of the tokens. -/
def Ord (ts : List Token) (ks : List (Option Tree)) : Prop :=
  ∀ l, Traversal Tree.walkKids ks l → InOrder ts (visitedPos l)

/-- The position is not set, or `Pos` panics, or the first token begins there. -/
def Begins (ts : List Token) (p : Option Pos) : Prop :=
  ∀ x, p = some x → x = Pos.zero ∨ ∃ t us, ts = t :: us ∧ t.from_ = x

theorem Ord.nil (ts : List Token) : Ord ts [] := by
  intro l h; cases h; exact .nil ts

theorem Ord.none (ts : List Token) : Ord ts [none] := by
  intro l h
  cases h with
  | nil h => cases h; exact .nil ts

theorem traversal_append {kids : Tree → Option (List (Option Tree))} {ks ks' : List (Option Tree)}
    {l : List (Option Tree × Bool)} (h : Traversal kids (ks ++ ks') l) :
    ∃ l1 l2, l = l1 ++ l2 ∧ Traversal kids ks l1 ∧ Traversal kids ks' l2 := by
  induction ks generalizing l with
  | nil => exact ⟨[], l, rfl, .done, h⟩
  | cons k ks ih =>
    cases h with
    | nil h =>
      obtain ⟨l1, l2, rfl, h1, h2⟩ := ih h
      exact ⟨_, l2, rfl, .nil h1, h2⟩
    | pruned h =>
      obtain ⟨l1, l2, rfl, h1, h2⟩ := ih h
      exact ⟨_, l2, rfl, .pruned h1, h2⟩
    | @visited t _ ks1 l1' l2' b hk hc h =>
      obtain ⟨l1, l2, rfl, h1, h2⟩ := ih h
      exact ⟨(some t, true) :: (l1' ++ (none, b) :: l1), l2, by simp, .visited hk hc h1, h2⟩

theorem Ord.append {us vs : List Token} {ks ks' : List (Option Tree)} (h1 : Ord us ks) (h2 : Ord vs ks') :
    Ord (us ++ vs) (ks ++ ks') := by
  intro l h
  obtain ⟨l1, l2, rfl, h3, h4⟩ := traversal_append h
  rw [visitedPos_append]
  exact (h1 l1 h3).append (h2 l2 h4)

theorem Ord.node {ts : List Token} {t : Tree} {ks : List (Option Tree)} (hk : t.walkKids = some ks)
    (hb : Begins ts t.pos?) (ho : Ord ts ks) : Ord ts [some t] := by
  have key : ∀ l b, InOrder ts (visitedPos l) → InOrder ts (visitedPos ((some t, b) :: l)) := by
    intro l b h
    cases hp : t.pos? with
    | none => simpa [visitedPos, hp] using h
    | some p =>
      by_cases hz : p = Pos.zero
      · simpa [visitedPos, hp, hz] using h
      · rcases hb p hp with h' | ⟨u, us, rfl, hu⟩
        · exact absurd h' hz
        · have : visitedPos ((some t, b) :: l) = u.from_ :: visitedPos l := by
            simp [visitedPos, hp, hu, hz]
          rw [this]
          exact .here u h
  intro l h
  cases h with
  | pruned h => cases h; exact key _ _ (.nil ts)
  | visited hk' hc h =>
    cases h
    rw [hk] at hk'
    cases hk'
    refine key _ _ ?_
    rw [visitedPos_append, visitedPos_none]
    simpa [visitedPos] using ho _ hc

/-! ### Sentences -/

/-- Every sentence has the positions of the nodes in order. -/
def OrdL (x : Lang) (ks : List (Option Tree)) : Prop := ∀ ts, x ts → Ord ts ks

/-- Every sentence begins at the position. -/
def BegL (x : Lang) (p : Option Pos) : Prop := ∀ ts, x ts → Begins ts p

/-- The position is not set. -/
def UnsetL (x : Lang) (p : Pos) : Prop := ∀ ts, x ts → p = Pos.zero

/-- Both for a node. -/
structure Placed (x : Lang) (t : Tree) : Prop where
  beg : BegL x t.pos?
  ord : OrdL x [some t]

variable {x y : Lang} {ks ks' : List (Option Tree)} {p p' : Pos} {o : Option Pos}

theorem placed_node {t : Tree} (hk : t.walkKids = some ks) (hb : BegL x t.pos?) (ho : OrdL x ks) : Placed x t :=
  ⟨hb, fun ts h => Ord.node hk (hb ts h) (ho ts h)⟩

theorem placed_leaf {t : Tree} (hk : t.walkKids = some []) (hb : BegL x t.pos?) : Placed x t :=
  placed_node hk hb fun ts _ => Ord.nil ts

namespace UnsetL
theorem unset : UnsetL (Spec.unset p) p := fun _ h => h.2
theorem left (h : UnsetL x p) : UnsetL (x ⬝ y) p := by rintro ts ⟨us, vs, -, hu, -⟩; exact h us hu
theorem right (h : UnsetL y p) : UnsetL (x ⬝ y) p := by rintro ts ⟨us, vs, -, -, hv⟩; exact h vs hv
theorem fst : UnsetL (Spec.unset2 p p') p := left unset
theorem snd : UnsetL (Spec.unset2 p p') p' := right unset
end UnsetL

namespace BegL
theorem never : BegL Spec.never o := fun _ h => h.elim
theorem zero : BegL x (some Pos.zero) := fun _ _ _ h => .inl (Option.some.inj h).symm
theorem panic : BegL x none := fun _ _ _ h => by cases h
theorem unset (h : UnsetL x p) : BegL x (some p) := fun ts ht y hy => .inl (by cases hy; exact h ts ht)
theorem startsAt : BegL (p ▹ x) (some p) := by
  rintro ts ⟨-, t, us, h1, h2⟩ y hy; cases hy; exact .inr ⟨t, us, h1, h2⟩
theorem spans : BegL (Spec.spans p p' x) (some p) := startsAt
theorem endsAt (h : BegL x o) : BegL (x ◃ p) o := fun ts ht => h ts ht.1
theorem cat (h : BegL x o) : BegL (x ⬝ y) o := by
  rintro ts ⟨us, vs, rfl, hu, -⟩ z hz
  rcases h us hu z hz with h | ⟨t, us', rfl, h⟩
  · exact .inl h
  · exact .inr ⟨t, us' ++ vs, rfl, h⟩
theorem alt (h1 : BegL x o) (h2 : BegL y o) : BegL (x ⊹ y) o := fun ts h => h.elim (h1 ts) (h2 ts)
theorem eps_cat (hx : x = Spec.eps) (h : BegL y o) : BegL (x ⬝ y) o := by
  subst hx
  rintro ts ⟨us, vs, rfl, rfl, hv⟩
  exact h vs hv
theorem unset_cat {q : Pos} (h : BegL y o) : BegL (Spec.unset q ⬝ y) o := by
  rintro ts ⟨us, vs, rfl, ⟨rfl, -⟩, hv⟩
  exact h vs hv
theorem word {bad : List KW} {i : Ident} : BegL (Spec.word bad i) (some i.from_) := by
  rintro ts ⟨t, w, rfl, -, -, h, -⟩ y hy; cases hy; exact .inr ⟨t, [], rfl, h⟩
theorem words {s : Sym} {bad : List KW} : ∀ {is : List Ident}, BegL (Spec.sepBy s (is.map (Spec.word bad))) (identsPos is)
  | [] => never
  | [_] => word
  | _ :: _ :: _ => word.cat
theorem exprName : ∀ {is : List Ident}, BegL (Spec.exprName is) (identsPos is)
  | [] => never
  | [_] => word
  | _ :: _ :: _ => word.cat
theorem typeName : ∀ {is : List Ident}, BegL (Spec.typeName is) (identsPos is)
  | [] => never
  | [_] => word
  | _ :: _ :: _ => word.cat
end BegL

namespace OrdL
theorem never : OrdL Spec.never ks := fun _ h => h.elim
theorem nil : OrdL x [] := fun ts _ => Ord.nil ts
theorem none : OrdL x [none] := fun ts _ => Ord.none ts
theorem eq (h : OrdL x ks) (e : ks = ks') : OrdL x ks' := e ▸ h
theorem cat (h1 : OrdL x ks) (h2 : OrdL y ks') : OrdL (x ⬝ y) (ks ++ ks') := by
  rintro ts ⟨us, vs, rfl, hu, hv⟩
  exact (h1 us hu).append (h2 vs hv)
/-- What comes before does not matter. -/
theorem skip (h : OrdL y ks) : OrdL (x ⬝ y) ks := (nil (x := x)).cat h
/-- What comes after does not matter. -/
theorem left (h : OrdL x ks) : OrdL (x ⬝ y) ks := (h.cat (nil (x := y))).eq (by simp)
theorem cons {k : Option Tree} (h1 : OrdL x [k]) (h2 : OrdL y ks') : OrdL (x ⬝ y) (k :: ks') := h1.cat h2
theorem alt (h1 : OrdL x ks) (h2 : OrdL y ks) : OrdL (x ⊹ y) ks := fun ts h => h.elim (h1 ts) (h2 ts)
theorem startsAt (h : OrdL x ks) : OrdL (p ▹ x) ks := fun ts h' => h ts h'.1
theorem endsAt (h : OrdL x ks) : OrdL (x ◃ p) ks := fun ts h' => h ts h'.1
theorem parens (h : OrdL x ks) : OrdL (Spec.parens x) ks := h.left.skip
theorem parensTo (h : OrdL x ks) : OrdL (Spec.parensTo p x) ks := h.left.skip
theorem subquery {w : Bool} (h : OrdL x ks) : OrdL (subqueryLang w p x) ks := h.left.skip.skip
end OrdL

/-- The sentences of a list and the nodes for them. -/
inductive AllPlaced : List Lang → List Tree → Prop
  | nil : AllPlaced [] []
  | cons {x : Lang} {t : Tree} {xs : List Lang} {ts : List Tree} : Placed x t → AllPlaced xs ts → AllPlaced (x :: xs) (t :: ts)

namespace AllPlaced
theorem sepBy {s : Sym} {xs : List Lang} {ts : List Tree} (h : AllPlaced xs ts) : OrdL (Spec.sepBy s xs) (ts.map some) := by
  induction h with
  | nil => exact OrdL.never
  | cons h1 h2 ih =>
    cases h2 with
    | nil => exact h1.ord
    | cons h3 h4 => exact h1.ord.cons ih.skip
theorem concat {xs : List Lang} {ts : List Tree} (h : AllPlaced xs ts) : OrdL (Spec.concat xs) (ts.map some) := by
  induction h with
  | nil => exact OrdL.nil
  | cons h1 _ ih => exact h1.ord.cons ih
theorem clauseOr {other : Lang} {wrap : Lang → Lang} {xs : List Lang} {ts : List Tree} (h : AllPlaced xs ts)
    (hw : ∀ x ks, OrdL x ks → OrdL (wrap x) ks) : OrdL (Spec.clauseOr other wrap xs) (ts.map some) := by
  cases h with
  | nil => exact OrdL.nil
  | cons h1 h2 => exact hw _ _ (sepBy (.cons h1 h2))
theorem clause {wrap : Lang → Lang} {xs : List Lang} {ts : List Tree} (h : AllPlaced xs ts)
    (hw : ∀ x ks, OrdL x ks → OrdL (wrap x) ks) : OrdL (Spec.clause wrap xs) (ts.map some) := clauseOr h hw
theorem map {β : Type} {f : β → Lang} {g : β → Tree} : ∀ (xs : List β), (∀ x ∈ xs, Placed (f x) (g x)) →
    AllPlaced (xs.map f) (xs.map g)
  | [], _ => .nil
  | x :: xs, h => .cons (h x List.mem_cons_self) (map xs fun y hy => h y (List.mem_cons_of_mem _ hy))
end AllPlaced

theorem placed_word {bad : List KW} {i : Ident} : Placed (Spec.word bad i) i.tree := placed_leaf rfl BegL.word

theorem placed_words {bad : List KW} (is : List Ident) : AllPlaced (is.map (Spec.word bad)) (Ident.trees is) :=
  AllPlaced.map is fun _ _ => placed_word

theorem ord_idents {s : Sym} (is : List Ident) : OrdL (Spec.idents s is) ((Ident.trees is).map some) := (placed_words is).sepBy

theorem ord_exprName : ∀ is : List Ident, OrdL (Spec.exprName is) ((Ident.trees is).map some)
  | [] => OrdL.never
  | [_] => placed_word.ord
  | _ :: _ :: _ => placed_word.ord.cons (ord_idents _).skip

theorem ord_typeName : ∀ is : List Ident, OrdL (Spec.typeName is) ((Ident.trees is).map some)
  | [] => OrdL.never
  | [_] => placed_word.ord
  | _ :: _ :: _ => placed_word.ord.cons (ord_idents _).skip

theorem objectName_kids (n : ObjectName) : n.tree.walkKids = some ((Ident.trees n.idents).map some ++ []) := by kernel_rfl

theorem placed_objectName (n : ObjectName) : Placed (Spec.objectName n) n.tree :=
  placed_node (objectName_kids n) BegL.words ((ord_idents n.idents).eq (by simp))

theorem placed_exprName (n : ObjectName) : Placed (Spec.exprName n.idents) n.tree :=
  placed_node (objectName_kids n) BegL.exprName ((ord_exprName n.idents).eq (by simp))

theorem ord_alias {bad : List KW} (i : Ident) : OrdL (aliasLang bad i) [some i.tree] :=
  OrdL.alt placed_word.ord.skip placed_word.ord

theorem ord_tableAlias {q : Quirks} : ∀ i : Option Ident,
    OrdL (tableAliasLang q i) (optKid Ident.tree i)
  | none => OrdL.nil
  | some i => ord_alias i

theorem ord_columns (is : List Ident) : OrdL (columnsLang is) ((Ident.trees is).map some) :=
  (placed_words is).clause fun _ _ h => h.parens

theorem placed_dataType : ∀ t : DataType, Placed t.lang t.tree
  | .char _ _ _ _ => placed_leaf rfl BegL.spans.cat
  | .varchar _ _ _ _ => placed_leaf rfl (BegL.cat (BegL.alt BegL.startsAt.cat BegL.startsAt.cat))
  | .uuid _ _ => placed_leaf rfl BegL.spans
  | .decimal (some _) _ _ _ _ _ => placed_leaf rfl BegL.startsAt.cat
  | .decimal none _ _ _ _ _ => placed_leaf rfl BegL.never
  | .float _ _ _ _ _ _ => placed_leaf rfl BegL.spans.cat
  | .smallInt _ _ _ _ => placed_leaf rfl BegL.spans.cat
  | .int _ _ _ _ => placed_leaf rfl BegL.spans.cat
  | .bigInt _ _ _ _ => placed_leaf rfl BegL.spans.cat
  | .real _ _ _ _ => placed_leaf rfl BegL.spans.cat
  | .double _ _ => placed_leaf rfl BegL.startsAt.cat
  | .boolean _ _ => placed_leaf rfl BegL.spans
  | .date _ _ => placed_leaf rfl (BegL.unset UnsetL.fst.right)
  | .time _ _ => placed_leaf rfl (BegL.unset UnsetL.fst.right.right)
  | .timestamp _ _ _ => placed_leaf rfl BegL.startsAt.cat
  | .regclass _ _ => placed_leaf rfl (BegL.unset UnsetL.fst.right)
  | .text _ _ => placed_leaf rfl (BegL.unset UnsetL.fst.right)
  | .bytea _ _ => placed_leaf rfl (BegL.unset UnsetL.fst.right)
  | .array ty rb => by
    refine placed_leaf rfl ?_
    cases ty
    case text => exact BegL.unset UnsetL.fst.left.right.right.right
    all_goals exact BegL.never
  | .custom _ => placed_leaf rfl BegL.typeName
  | .clob _ _ _ => placed_leaf rfl BegL.never
  | .binary _ _ _ => placed_leaf rfl BegL.never
  | .varbinary _ _ _ => placed_leaf rfl BegL.never
  | .blob _ _ _ => placed_leaf rfl BegL.never

theorem placed_binaryOp (op : Operator) : Placed (binaryOp op) op.tree := by
  refine placed_leaf rfl ?_
  unfold binaryOp
  split
  all_goals first
    | exact BegL.spans
    | exact BegL.spans.cat
    | exact BegL.never

theorem beg_unaryOp (p : Pos) (op : Operator) : BegL (unaryOp p op) (some p) := by
  unfold unaryOp
  split
  all_goals first
    | exact BegL.startsAt
    | exact BegL.startsAt.cat
    | exact BegL.never

theorem placed_unaryOp (p : Pos) (op : Operator) : Placed (unaryOp p op) op.tree := by
  refine placed_leaf rfl ?_
  unfold unaryOp
  split
  all_goals first
    | exact fun ts h => BegL.spans ts h.1
    | exact BegL.unset UnsetL.fst.right
    | exact BegL.never

theorem placed_bound : ∀ x : FrameBound, Placed (boundLang x) x.tree
  | .currentRow _ _ => placed_leaf rfl (BegL.unset UnsetL.fst.right.right)
  | .unboundedPreceding _ _ => placed_leaf rfl (BegL.unset UnsetL.fst.right.right)
  | .unboundedFollowing _ _ => placed_leaf rfl (BegL.unset UnsetL.fst.right.right)
  | .preceding _ _ _ => placed_leaf rfl (BegL.unset UnsetL.fst.right.right)
  | .following _ _ _ => placed_leaf rfl (BegL.unset UnsetL.fst.right.right)

theorem placed_unit (u : WindowFrameUnit) : Placed (unitLang u) u.tree :=
  placed_leaf rfl (BegL.unset UnsetL.fst.right)

theorem placed_frame : ∀ f : WindowFrame, Placed (frameLang (some f)) f.tree
  | ⟨u, s, none⟩ => placed_node (ks := [some u.tree, some s.tree]) (by kernel_rfl)
      (BegL.unset (UnsetL.left UnsetL.fst.right)) ((placed_unit u).ord.cons (placed_bound s).ord)
  | ⟨u, s, some e⟩ => placed_node (ks := [some u.tree, some s.tree, some e.tree]) (by kernel_rfl)
      (BegL.unset (UnsetL.left UnsetL.fst.right))
      ((placed_unit u).ord.cons (OrdL.skip ((placed_bound s).ord.cons (placed_bound e).ord.skip)))

theorem placed_long {f t : Pos} {v : LongValue} (h : v.from_ = f) : Placed (Spec.spans f t x) v.tree := by
  subst h
  exact placed_leaf rfl BegL.spans

theorem placed_limit : ∀ l : LimitExpr, Placed (limitLang (some l)) l.tree
  | ⟨none, _, _, none⟩ => placed_leaf (by kernel_rfl) (BegL.unset UnsetL.snd.right.right)
  | ⟨none, _, _, some _⟩ => ⟨BegL.never, OrdL.never⟩
  | ⟨some n, _, _, none⟩ => placed_node (ks := [some n.tree]) (by kernel_rfl) (BegL.unset UnsetL.snd.right.right)
      (placed_long rfl).ord.left.skip
  | ⟨some n, _, _, some o⟩ => placed_node (ks := [some n.tree, some o.tree]) (by kernel_rfl)
      (BegL.unset UnsetL.snd.right.right.right.right) (OrdL.skip ((placed_long rfl).ord.cons (placed_long rfl).ord.left))

theorem placed_joinType (nat : Bool) (ty : JoinType) : Placed (joinTypeLang nat ty) ty.tree := by
  refine placed_leaf rfl ?_
  unfold joinTypeLang
  split
  · split
    · exact BegL.spans
    · exact BegL.unset UnsetL.fst.right
  all_goals first
    | exact BegL.spans
    | exact BegL.spans.cat
    | exact BegL.unset UnsetL.fst
    | exact BegL.unset UnsetL.fst.right
    | exact BegL.unset UnsetL.fst.right.right

theorem Ord.unset {ts : List Token} {t : Tree} (hk : t.walkKids = some []) (hp : t.pos? = some Pos.zero) (h : Ord ts ks) :
    Ord ts (some t :: ks) :=
  Ord.append (us := []) (Ord.node hk (fun x hx => .inl (by rw [hp] at hx; cases hx; rfl)) (Ord.nil _)) h

variable {fns : FloatFns} {q : Quirks}

mutual

theorem placed_expr : ∀ e : Expr, Tidy e.tree → Placed (e.lang fns q) e.tree
  | .ident i, _ => by rw [Expr.lang]; exact placed_word
  | .wildcard p, _ => by rw [Expr.lang]; exact placed_leaf rfl BegL.startsAt
  | .qualifiedWildcard is, _ => by
    rw [Expr.lang]
    exact placed_node (ks := (Ident.trees is).map some ++ []) (by kernel_rfl) BegL.exprName.cat
      ((ord_exprName is).left.eq (by simp))
  | .compoundIdent is, _ => by
    rw [Expr.lang]
    exact placed_node (ks := (Ident.trees is).map some ++ []) (by kernel_rfl) BegL.exprName.cat
      ((ord_exprName is).left.eq (by simp))
  | .isNull x, h => by
    rw [Expr.lang]
    have hk : (Expr.isNull x).tree.walkKids = some [some x.tree] := by kernel_rfl
    have g := placed_expr x (h.kid hk (by mem))
    exact placed_node hk (by have := g.beg; rw [Expr.tree_pos] at this; exact this.cat) g.ord.left
  | .isNotNull x, h => by
    rw [Expr.lang]
    have hk : (Expr.isNotNull x).tree.walkKids = some [some x.tree] := by kernel_rfl
    have g := placed_expr x (h.kid hk (by mem))
    exact placed_node hk (by have := g.beg; rw [Expr.tree_pos] at this; exact this.cat) g.ord.left
  | .inList x l neg rp, h => by
    rw [Expr.lang]
    have hk : (Expr.inList x l neg rp).tree.walkKids = some (some x.tree :: ((Expr.trees l).map some ++ [])) := by
      kernel_rfl
    have g := placed_expr x (h.kid hk (by mem))
    have g2 := placed_exprs l fun t ht => h.kid hk (by simp [ht])
    exact placed_node hk (by have := g.beg; rw [Expr.tree_pos] at this; exact this.cat)
      ((g.ord.cons g2.sepBy.parensTo.skip.skip).eq (by simp))
  | .inSubQuery x s neg rp, h => by
    rw [Expr.lang]
    have hk : (Expr.inSubQuery x s neg rp).tree.walkKids = some [some x.tree, some s.tree] := by kernel_rfl
    have g := placed_expr x (h.kid hk (by mem))
    have g2 := placed_query s (h.kid hk (by mem))
    exact placed_node hk (by have := g.beg; rw [Expr.tree_pos] at this; exact this.cat)
      (g.ord.cons g2.ord.subquery.skip.skip)
  | .between x neg low high, h => by
    rw [Expr.lang]
    have hk : (Expr.between x neg low high).tree.walkKids = some [some x.tree, some low.tree, some high.tree] := by
      kernel_rfl
    have g := placed_expr x (h.kid hk (by mem))
    have g2 := placed_expr low (h.kid hk (by mem))
    have g3 := placed_expr high (h.kid hk (by mem))
    exact placed_node hk (by have := g.beg; rw [Expr.tree_pos] at this; exact this.cat)
      (g.ord.cons (OrdL.skip (OrdL.skip (g2.ord.cons g3.ord.left.skip))))
  | .binary l op r, h => by
    rw [Expr.lang]
    have hk : (Expr.binary l op r).tree.walkKids = some [some l.tree, some op.tree, some r.tree] := by kernel_rfl
    have g := placed_expr l (h.kid hk (by mem))
    have g2 := placed_expr r (h.kid hk (by mem))
    exact placed_node hk (by have := g.beg; rw [Expr.tree_pos] at this; exact this.cat)
      (g.ord.cons ((placed_binaryOp op).ord.cons g2.ord))
  | .cast x ty c rp, h => by
    rw [Expr.lang]
    have hk : (Expr.cast x ty c rp).tree.walkKids = some [some x.tree, some ty.tree] := by kernel_rfl
    have g := placed_expr x (h.kid hk (by mem))
    have g2 := placed_dataType ty
    exact placed_node hk (BegL.alt BegL.startsAt.cat (BegL.unset UnsetL.fst.left.right.right.right))
      (OrdL.alt (OrdL.skip (OrdL.skip (g.ord.cons g2.ord.left.skip))) (g.ord.cons g2.ord.left.skip))
  | .nested x lp rp, h => by
    rw [Expr.lang]
    have hk : (Expr.nested x lp rp).tree.walkKids = some [some x.tree] := by kernel_rfl
    exact placed_node hk BegL.startsAt.cat (placed_expr x (h.kid hk (by mem))).ord.left.skip
  | .unary p op x, h => by
    rw [Expr.lang]
    have hk : (Expr.unary p op x).tree.walkKids = some [some op.tree, some x.tree] := by kernel_rfl
    exact placed_node hk (beg_unaryOp p op).cat
      ((placed_unaryOp p op).ord.cons (placed_expr x (h.kid hk (by mem))).ord.left)
  | .function n args rp none orp, h => by
    rw [Expr.lang]
    have hk : (Expr.function n args rp none orp).tree.walkKids =
      some (some n.tree :: ((Expr.trees args).map some ++ [])) := by kernel_rfl
    have g := placed_exprs args fun t ht => h.kid hk (by simp [ht])
    exact placed_node hk BegL.exprName.cat
      (((placed_exprName n).ord.cons (g.clause fun _ _ h => h).parensTo.left).eq (by simp))
  | .function n args rp (some w) orp, h => by
    rw [Expr.lang]
    have hk : (Expr.function n args rp (some w) orp).tree.walkKids =
      some (some n.tree :: ((Expr.trees args).map some ++ [some w.tree])) := by kernel_rfl
    have g := placed_exprs args fun t ht => h.kid hk (by simp [ht])
    have g2 := ord_window w (h.kid hk (by simp))
    exact placed_node hk BegL.exprName.cat
      ((placed_exprName n).ord.cons ((g.clause fun _ _ h => h).parensTo.cat g2.left.skip))
  | .caseExpr p e none conds results els, h => by
    rw [Expr.lang]
    exact placed_node (ks := [none]) (by kernel_rfl) BegL.startsAt.cat OrdL.none
  | .caseExpr p e (some o) conds results els, h => by
    rw [Expr.lang, Expr.langO]
    have hk : (Expr.caseExpr p e (some o) conds results els).tree.walkKids = some [some o.tree] := by kernel_rfl
    exact placed_node hk BegL.startsAt.cat (OrdL.skip (placed_expr o (h.kid hk (by mem))).ord.left)
  | .exists_ neg s n e rp, h => by
    rw [Expr.lang]
    have hk : (Expr.exists_ neg s n e rp).tree.walkKids = some [some s.tree] := by kernel_rfl
    refine placed_node hk ?_ (placed_query s (h.kid hk (by mem))).ord.parensTo.skip.skip
    rw [Expr.tree_pos, Expr.pos]
    cases neg
    · exact BegL.unset_cat BegL.startsAt.cat
    · exact BegL.startsAt.cat
  | .subQuery rp lp s, h => by cases h.self
  | .long v, _ => by rw [Expr.lang]; exact placed_long rfl
  | .double _ _ _, _ => by rw [Expr.lang]; exact placed_leaf rfl BegL.spans
  | .singleQuoted _ _ _, _ => by rw [Expr.lang]; exact placed_leaf rfl BegL.spans
  | .national _ _ _, _ => by rw [Expr.lang]; exact placed_leaf rfl BegL.spans
  | .boolean _ _ _, _ => by rw [Expr.lang]; exact placed_leaf rfl BegL.spans
  | .null _ _, _ => by rw [Expr.lang]; exact placed_leaf rfl BegL.spans
  | .timeValue _ _ _ _, _ => by rw [Expr.lang]; exact ⟨BegL.never, OrdL.never⟩

theorem placed_exprs : ∀ es : List Expr, (∀ t ∈ Expr.trees es, Tidy t) → AllPlaced (Expr.langs fns q es) (Expr.trees es)
  | [], _ => by rw [Expr.langs, Expr.trees]; exact .nil
  | x :: xs, h => by
    simp only [Expr.trees, List.mem_cons, forall_eq_or_imp] at h
    rw [Expr.langs, Expr.trees]; exact .cons (placed_expr x h.1) (placed_exprs xs h.2)

theorem ord_exprO : ∀ (e : Option Expr) {wrap : Lang → Lang}, (∀ x, e = some x → Tidy x.tree) →
    (∀ x ks, OrdL x ks → OrdL (wrap x) ks) → OrdL (Spec.optional wrap (Expr.langO fns q e)) (optKid Expr.tree e)
  | none, _, _, _ => OrdL.nil
  | some x, _, h, hw => by rw [Expr.langO]; exact hw _ _ (placed_expr x (h x rfl)).ord

theorem ord_window : ∀ w : WindowSpec, Tidy w.tree → OrdL (w.lang fns q) [some w.tree]
  | .mk ps os fr p o, h => by
    rw [WindowSpec.lang]
    have hk : (WindowSpec.mk ps os fr p o).tree.walkKids = some ((Expr.trees ps).map some ++
        ((OrderByExpr.trees os).map some ++ (optKid WindowFrame.tree fr ++ []))) := by
      cases fr <;> kernel_rfl
    have g1 := placed_exprs ps fun t ht => h.kid hk (by simp [ht])
    have g2 := placed_orderBys os fun t ht => h.kid hk (by simp [ht])
    have g3 : OrdL (frameLang fr) (optKid WindowFrame.tree fr) := by
      cases fr with
      | none => exact OrdL.nil
      | some f => exact (placed_frame f).ord
    refine OrdL.skip (placed_node hk ?_ (OrdL.cat (g1.clauseOr fun _ _ h => h.skip.skip) (OrdL.cat
      (g2.clauseOr fun _ _ h => h.skip.skip) ((g3.left).eq (by simp))))).ord
    rw [WindowSpec.tree_pos, WindowSpec.pos]
    cases ps with
    | cons e es => exact BegL.startsAt.cat.cat
    | nil =>
      refine BegL.unset_cat ?_
      cases os with
      | cons e es => exact BegL.startsAt.cat.cat
      | nil =>
        refine BegL.unset_cat ?_
        cases fr with
        | none => exact BegL.panic
        | some f => exact (placed_frame f).beg.cat

theorem placed_orderBy : ∀ o : OrderByExpr, Tidy o.tree → Placed (o.lang fns q) o.tree
  | .mk x p asc, h => by
    rw [OrderByExpr.lang]
    have hk : (OrderByExpr.mk x p asc).tree.walkKids = some [some x.tree] := by kernel_rfl
    have g := placed_expr x (h.kid hk (by mem))
    exact placed_node hk (by have := g.beg; rw [Expr.tree_pos] at this; exact this.cat) g.ord.left

theorem placed_orderBys : ∀ es : List OrderByExpr, (∀ t ∈ OrderByExpr.trees es, Tidy t) →
    AllPlaced (OrderByExpr.langs fns q es) (OrderByExpr.trees es)
  | [], _ => by rw [OrderByExpr.langs, OrderByExpr.trees]; exact .nil
  | x :: xs, h => by
    simp only [OrderByExpr.trees, List.mem_cons, forall_eq_or_imp] at h
    rw [OrderByExpr.langs, OrderByExpr.trees]; exact .cons (placed_orderBy x h.1) (placed_orderBys xs h.2)

theorem placed_query : ∀ s : QueryStmt, Tidy s.tree → Placed (s.lang fns q) s.tree
  | .mk w ctes body os lim, h => by
    rw [QueryStmt.lang]
    have hk : (QueryStmt.mk w ctes body os lim).tree.walkKids = some ((CTE.trees ctes).map some ++
        (some body.tree :: ((OrderByExpr.trees os).map some ++
        (optKid LimitExpr.tree lim ++ [])))) := by
      cases lim <;> kernel_rfl
    have hc : ctes = [] := by
      cases ctes with
      | nil => rfl
      | cons c cs =>
        have := (h.kid (c := c.tree) hk (by simp [CTE.trees])).self
        cases c
        cases this
    subst hc
    have g1 := placed_body body (h.kid hk (by simp))
    have g2 := placed_orderBys os fun t ht => h.kid hk (by simp [ht])
    have g3 : OrdL (limitLang lim) (optKid LimitExpr.tree lim) := by
      cases lim with
      | none => exact OrdL.nil
      | some f => exact (placed_limit f).ord
    refine placed_node hk ?_ (OrdL.skip (g1.ord.cons (OrdL.cat (g2.clause fun _ _ h => h.skip.skip) (g3.left.eq (by simp)))))
    have := g1.beg
    rw [SetExpr.tree_pos] at this
    exact BegL.eps_cat rfl this.cat

theorem placed_body : ∀ s : SetExpr, Tidy s.tree → Placed (s.lang fns q) s.tree
  | .selectExpr s, _ => by rw [SetExpr.lang]; exact ⟨BegL.never, OrdL.never⟩
  | .select s, h => by rw [SetExpr.lang]; exact placed_select s h
  | .query lp rp s, h => by
    rw [SetExpr.lang]
    have hk : (SetExpr.query lp rp s).tree.walkKids = some [some s.tree] := by kernel_rfl
    exact placed_node hk (BegL.unset UnsetL.fst.right) (placed_query s (h.kid hk (by mem))).ord.parens.left
  | .setOp op all l r, h => by
    rw [SetExpr.lang]
    have hk : (SetExpr.setOp op all l r).tree.walkKids = some [some op.tree, some l.tree, some r.tree] := by kernel_rfl
    have g := placed_body l (h.kid hk (by mem))
    have g2 := placed_body r (h.kid hk (by mem))
    refine placed_node hk (by have := g.beg; rw [SetExpr.tree_pos] at this; exact this.cat) fun ts ht => ?_
    have hz : op.tree.walkKids = some [] ∧ op.tree.pos? = some Pos.zero := by
      obtain ⟨us, vs, -, -, us', vs', -, ho, -⟩ := ht
      cases op <;> refine ⟨rfl, ?_⟩ <;> exact congrArg some (UnsetL.fst.right _ ho)
    exact Ord.unset hz.1 hz.2 ((g.ord.cons g2.ord.skip.skip) ts ht)

theorem placed_select : ∀ s : SQLSelect, Tidy s.tree → Placed (s.lang fns q) s.tree
  | .mk d proj frm wh gb hav p, h => by
    rw [SQLSelect.lang]
    have hk : (SQLSelect.mk d proj frm wh gb hav p).tree.walkKids = some ((SelectItem.trees proj).map some ++
        ((TableRef.trees frm).map some ++ (optKid Expr.tree wh ++
        ((Expr.trees gb).map some ++ (optKid Expr.tree hav ++ []))))) := by
      cases wh <;> cases hav <;> kernel_rfl
    have g1 := placed_items proj fun t ht => h.kid hk (by simp [ht])
    have g2 := placed_tableRefs frm fun t ht => h.kid hk (by simp [ht])
    have g3 := ord_exprO wh (wrap := (Spec.kwd .WHERE ⬝ ·)) (fun e he => h.kid hk (by simp [he, optKid])) (fun _ _ h => h.skip)
    have g4 := placed_exprs gb fun t ht => h.kid hk (by simp [ht])
    have g5 := ord_exprO hav (wrap := (Spec.kwd .HAVING ⬝ ·)) (fun e he => h.kid hk (by simp [he, optKid])) (fun _ _ h => h.skip)
    exact placed_node hk BegL.startsAt.cat (OrdL.skip (OrdL.skip (OrdL.cat g1.sepBy (OrdL.cat
      (g2.clause fun _ _ h => h.skip) (OrdL.cat g3 (OrdL.cat (g4.clause fun _ _ h => h.skip.skip) (g5.eq (by simp))))))))

theorem placed_item : ∀ i : SelectItem, Tidy i.tree → Placed (i.lang fns q) i.tree
  | .unnamed e, h => by
    rw [SelectItem.lang]
    have hk : (SelectItem.unnamed e).tree.walkKids = some [some e.tree] := by kernel_rfl
    have g := placed_expr e (h.kid hk (by mem))
    exact placed_node hk (by have := g.beg; rw [Expr.tree_pos] at this; exact this) g.ord
  | .alias e a, h => by
    rw [SelectItem.lang]
    have hk : (SelectItem.alias e a).tree.walkKids = some [some e.tree, some a.tree] := by kernel_rfl
    have g := placed_expr e (h.kid hk (by mem))
    exact placed_node hk (by have := g.beg; rw [Expr.tree_pos] at this; exact this.cat) (g.ord.cons (ord_alias a))
  | .qualifiedWildcard n, _ => by
    rw [SelectItem.lang]
    exact placed_node (ks := [some n.tree]) (by kernel_rfl) BegL.exprName.cat (placed_exprName n).ord.left
  | .wildcard _ _, _ => by rw [SelectItem.lang]; exact ⟨BegL.never, OrdL.never⟩

theorem placed_items : ∀ es : List SelectItem, (∀ t ∈ SelectItem.trees es, Tidy t) →
    AllPlaced (SelectItem.langs fns q es) (SelectItem.trees es)
  | [], _ => by rw [SelectItem.langs, SelectItem.trees]; exact .nil
  | x :: xs, h => by
    simp only [SelectItem.trees, List.mem_cons, forall_eq_or_imp] at h
    rw [SelectItem.langs, SelectItem.trees]; exact .cons (placed_item x h.1) (placed_items xs h.2)

theorem placed_factor : ∀ f : TableFactor, Tidy f.tree → Placed (f.lang fns q) f.tree
  | .table n a [] arp hints hrp, h => by
    rw [TableFactor.lang]
    have hk : (TableFactor.table n a [] arp hints hrp).tree.walkKids = some (some n.tree ::
        (optKid Ident.tree a ++ ((Expr.trees hints).map some ++ []))) := by
      cases a <;> kernel_rfl
    have g := placed_exprs hints fun t ht => h.kid hk (by simp [ht])
    exact placed_node hk BegL.words.cat ((placed_objectName n).ord.cons (OrdL.skip (OrdL.cat (ord_tableAlias a)
      (((g.clause fun _ _ h => h.parens.skip).left).eq (by simp)))))
  | .table n a (e :: args) arp hints hrp, h => by
    rw [TableFactor.lang]
    · have ha : a = none := by
        cases a with
        | none => rfl
        | some i => cases h.self
      subst ha
      have hk : (TableFactor.table n none (e :: args) arp hints hrp).tree.walkKids = some (some n.tree ::
          ((Expr.trees (e :: args)).map some ++ ((Expr.trees hints).map some ++ []))) := by
        kernel_rfl
      have g1 := placed_exprs (e :: args) fun t ht => h.kid hk (by simp [ht])
      have g2 := placed_exprs hints fun t ht => h.kid hk (by simp [ht])
      exact placed_node hk BegL.words.cat ((placed_objectName n).ord.cons (OrdL.skip (OrdL.cat g1.sepBy
        (OrdL.skip (((g2.clause fun _ _ h => h.parens.skip).left).eq (by simp))))))
    · simp
  | .derived lateral p lp rp s a, h => by
    rw [TableFactor.lang]
    have hk : (TableFactor.derived lateral p lp rp s a).tree.walkKids = some (some s.tree ::
        (optKid Ident.tree a ++ [])) := by
      cases a <;> kernel_rfl
    have g := placed_query s (h.kid hk (by simp))
    refine placed_node hk ?_ (OrdL.skip (g.ord.parens.cons (((ord_tableAlias a).left).eq (by simp))))
    rw [TableFactor.tree_pos, TableFactor.pos]
    cases lateral
    · exact BegL.unset UnsetL.fst.right.right.right.right
    · exact BegL.unset UnsetL.unset.left.right.right.right

theorem placed_tableRef : ∀ r : TableRef, Tidy r.tree → Placed (r.lang fns q) r.tree
  | .factor f, h => by rw [TableRef.lang]; exact placed_factor f h
  | .cross r f, h => by cases h.self
  | .partitioned _ _ _, _ => by rw [TableRef.lang]; exact ⟨BegL.never, OrdL.never⟩
  | .qualified l t r s, h => by
    rw [TableRef.lang]
    have hk : (TableRef.qualified l t r s).tree.walkKids = some [some (.node .TableJoinElement l.pos l.end_ [.one .Ref l.tree]),
      some t.tree, some (.node .TableJoinElement r.pos r.end_ [.one .Ref r.tree]), some s.tree] := by kernel_rfl
    have hl : (Tree.node .TableJoinElement l.pos l.end_ [.one .Ref l.tree]).walkKids = some [some l.tree] := by kernel_rfl
    have hr : (Tree.node .TableJoinElement r.pos r.end_ [.one .Ref r.tree]).walkKids = some [some r.tree] := by kernel_rfl
    have g1 := placed_tableRef l ((h.kid hk (by mem)).kid hl (by mem))
    have g2 := placed_tableRef r ((h.kid hk (by mem)).kid hr (by mem))
    have b1 := g1.beg
    have b2 := g2.beg
    rw [TableRef.tree_pos] at b1 b2
    exact placed_node hk b1.cat ((placed_node hl b1 g1.ord).ord.cons ((placed_joinType false t).ord.cons
      (OrdL.skip ((placed_node hr b2 g2.ord).ord.cons (placed_join s (h.kid hk (by mem))).ord))))
  | .natural l t r, h => by
    rw [TableRef.lang]
    have hk : (TableRef.natural l t r).tree.walkKids = some [some (.node .TableJoinElement l.pos l.end_ [.one .Ref l.tree]),
      some t.tree, some (.node .TableJoinElement r.pos r.end_ [.one .Ref r.tree])] := by kernel_rfl
    have hl : (Tree.node .TableJoinElement l.pos l.end_ [.one .Ref l.tree]).walkKids = some [some l.tree] := by kernel_rfl
    have hr : (Tree.node .TableJoinElement r.pos r.end_ [.one .Ref r.tree]).walkKids = some [some r.tree] := by kernel_rfl
    have g1 := placed_tableRef l ((h.kid hk (by mem)).kid hl (by mem))
    have g2 := placed_tableRef r ((h.kid hk (by mem)).kid hr (by mem))
    have b1 := g1.beg
    have b2 := g2.beg
    rw [TableRef.tree_pos] at b1 b2
    exact placed_node hk b1.cat ((placed_node hl b1 g1.ord).ord.cons (OrdL.skip ((placed_joinType true t).ord.cons
      (OrdL.skip (placed_node hr b2 g2.ord).ord))))

theorem placed_tableRefs : ∀ es : List TableRef, (∀ t ∈ TableRef.trees es, Tidy t) →
    AllPlaced (TableRef.langs fns q es) (TableRef.trees es)
  | [], _ => by rw [TableRef.langs, TableRef.trees]; exact .nil
  | x :: xs, h => by
    simp only [TableRef.trees, List.mem_cons, forall_eq_or_imp] at h
    rw [TableRef.langs, TableRef.trees]; exact .cons (placed_tableRef x h.1) (placed_tableRefs xs h.2)

theorem placed_join : ∀ s : JoinSpec, Tidy s.tree → Placed (s.lang fns q) s.tree
  | .namedColumns is u rp, _ => by
    rw [JoinSpec.lang]
    exact placed_leaf rfl (BegL.unset UnsetL.fst.right.right)
  | .condition e p, h => by
    rw [JoinSpec.lang]
    have hk : (JoinSpec.condition e p).tree.walkKids = some [some e.tree] := by kernel_rfl
    exact placed_node hk BegL.startsAt.cat (placed_expr e (h.kid hk (by mem))).ord.skip

end

/-! ### Statements -/

theorem ord_where (e : Option Expr) (h : ∀ x, e = some x → Tidy x.tree) :
    OrdL (whereLang fns q e) (optKid Expr.tree e) := ord_exprO e h fun _ _ h => h.skip

theorem exprs_map (es : List Expr) : es.map Expr.tree = Expr.trees es := by
  induction es with
  | nil => rfl
  | cons e es ih => rw [List.map_cons, ih, Expr.trees]

theorem placed_row (r : RowValueExpr) (h : Tidy r.tree) : Placed (r.lang fns q) r.tree := by
  have hk : r.tree.walkKids = some ((r.values.map Expr.tree).map some ++ []) := by kernel_rfl
  have g := placed_exprs (fns := fns) (q := q) r.values fun t ht => h.kid hk (by simpa [exprs_map] using ht)
  exact placed_node hk BegL.startsAt.cat (g.sepBy.left.skip.eq (by rw [exprs_map, List.append_nil]))

theorem placed_source : ∀ s : InsertSource, Tidy s.tree → Placed (s.lang fns q) s.tree
  | .subQuery s, h => by
    have hk : (InsertSource.subQuery s).tree.walkKids = some [some s.tree] := by kernel_rfl
    have g := placed_query (fns := fns) (q := q) s (h.kid hk (by simp))
    exact placed_node hk (by have := g.beg; rw [QueryStmt.tree_pos] at this; exact this) g.ord
  | .constructor v rows, h => by
    have hk : (InsertSource.constructor v rows).tree.walkKids = some ((rows.map RowValueExpr.tree).map some ++ []) := by
      kernel_rfl
    have g := AllPlaced.map (f := RowValueExpr.lang fns q) (g := RowValueExpr.tree) rows fun r hr =>
      placed_row r (h.kid hk (by rw [List.append_nil, mem_mapKids]; exact ⟨r, hr, rfl⟩))
    exact placed_node hk (BegL.unset UnsetL.unset.right.right) (g.sepBy.left.skip.eq (by simp))

theorem placed_assignment (a : Assignment) (h : Tidy a.tree) : Placed (a.lang fns q) a.tree := by
  have hk : a.tree.walkKids = some [some a.id.tree, some a.value.tree] := by kernel_rfl
  exact placed_node hk BegL.word.cat (placed_word.ord.cons (placed_expr a.value (h.kid hk (by simp))).ord.skip)

theorem ord_referenced : ∀ is : List Ident, OrdL (referencedLang q is) ((Ident.trees is).map some)
  | [] => OrdL.nil
  | _ :: _ => ord_idents _

theorem ord_key (k : ReferenceKeyExpr) :
    Placed (Spec.word [] k.tableName ⬝ Spec.parensTo k.rparen (referencedLang q k.columns)) k.tree :=
  placed_node (ks := some k.tableName.tree :: ((Ident.trees k.columns).map some ++ [])) (by kernel_rfl) BegL.word.cat
    ((placed_word.ord.cons (ord_referenced k.columns).parensTo).eq (by simp))

theorem placed_constraintSpec : ∀ s : TableConstraintSpec, Tidy s.tree → Placed (s.lang fns q) s.tree
  | .unique true _ _ _ is, _ => placed_node (ks := (Ident.trees is).map some ++ []) (by kernel_rfl) BegL.startsAt.cat
      ((ord_idents is).parensTo.left.skip.skip.eq (by simp))
  | .unique false _ _ _ is, _ => placed_node (ks := (Ident.trees is).map some ++ []) (by kernel_rfl) BegL.startsAt.cat
      ((ord_idents is).parensTo.left.skip.skip.eq (by simp))
  | .referential _ is k, _ => placed_node (ks := (Ident.trees is).map some ++ [some k.tree]) (by kernel_rfl) BegL.startsAt.cat
      (OrdL.skip (OrdL.skip (OrdL.cat (ord_idents is).parens (ord_key k).ord.skip)))
  | .check p rp e, h => by
    have hk : (TableConstraintSpec.check p rp e).tree.walkKids = some [some e.tree] := by kernel_rfl
    exact placed_node hk BegL.startsAt.cat (placed_expr e (h.kid hk (by simp))).ord.parensTo.skip

theorem placed_constraint (c : TableConstraint) (h : Tidy c.tree) : Placed (c.lang fns q) c.tree := by
  have hk : c.tree.walkKids = some (optKid Ident.tree c.name ++ [some c.spec.tree]) := by
    obtain ⟨_, n, _⟩ := c; cases n <;> kernel_rfl
  have g := placed_constraintSpec (fns := fns) (q := q) c.spec (h.kid hk (by simp))
  obtain ⟨cp, n, sp⟩ := c
  cases n with
  | none =>
    refine placed_node hk ?_ g.ord.skip
    have := g.beg
    have e : sp.tree.pos? = some sp.pos := by cases sp <;> rfl
    simp only [e] at this
    exact BegL.unset_cat this
  | some n => exact placed_node hk BegL.startsAt.cat.cat (OrdL.cons placed_word.ord.skip g.ord)

theorem placed_columnSpec : ∀ s : ColumnSpec, Tidy s.tree → Placed (s.lang fns q) s.tree
  | .notNull _ _, _ => placed_leaf rfl BegL.startsAt.cat
  | .unique true _ _ _, _ => placed_leaf rfl BegL.startsAt.cat
  | .unique false _ _ _, _ => placed_leaf rfl BegL.startsAt.cat
  | .references _ _ n is, _ => placed_node (ks := some n.tree :: ((Ident.trees is).map some ++ [])) (by kernel_rfl)
      BegL.startsAt.cat ((OrdL.skip ((placed_objectName n).ord.cons (ord_idents is).parensTo)).eq (by simp))
  | .check e p rp, h => by
    have hk : (ColumnSpec.check e p rp).tree.walkKids = some [some e.tree] := by kernel_rfl
    exact placed_node hk BegL.startsAt.cat (placed_expr e (h.kid hk (by simp))).ord.parensTo.skip

theorem ord_columnConstraint (c : ColumnConstraint) (h : Tidy c.tree) : OrdL (c.lang fns q) [some c.tree] := by
  have hk : c.tree.walkKids = some (optKid Ident.tree c.name ++ [some c.spec.tree]) := by
    obtain ⟨n, _, _⟩ := c; cases n <;> kernel_rfl
  have g := placed_columnSpec (fns := fns) (q := q) c.spec (h.kid hk (by simp))
  obtain ⟨n, cp, sp⟩ := c
  cases n with
  | none => exact (placed_node hk (BegL.unset UnsetL.unset.right.right) g.ord.left.skip).ord
  | some n =>
    -- the node has the position of the name, which follows the keyword
    rintro ts ⟨us, vs, rfl, ⟨us1, us2, rfl, h1, h2⟩, h3⟩
    have : Placed (Spec.word [] n ⬝ (sp.lang fns q ⬝ Spec.unset cp)) (ColumnConstraint.mk (some n) cp sp).tree :=
      placed_node hk BegL.word.cat (placed_word.ord.cons g.ord.left)
    rw [List.append_assoc]
    exact (Ord.nil us1).append (this.ord _ ⟨us2, vs, rfl, h2, h3⟩)

theorem ord_concat_mem {β : Type} {f : β → Lang} {i : β} (hf : OrdL (f i) ks) : ∀ {is : List β}, i ∈ is →
    OrdL (Spec.concat (is.map f)) ks
  | j :: js, h => by
    rcases List.mem_cons.1 h with rfl | h
    · exact hf.left
    · exact (ord_concat_mem hf h).skip

theorem ord_constraints (cs : List ColumnConstraint) (h : ∀ c ∈ cs, Tidy c.tree) :
    OrdL (Spec.concat (cs.map (ColumnConstraint.lang fns q))) ((cs.map ColumnConstraint.tree).map some) := by
  induction cs with
  | nil => exact OrdL.nil
  | cons c cs ih =>
    exact (ord_columnConstraint c (h c List.mem_cons_self)).cons (ih fun d hd => h d (List.mem_cons_of_mem _ hd))

theorem placed_column (c : ColumnDef) (h : Tidy c.tree) : Placed (c.lang fns q) c.tree := by
  have hk : c.tree.walkKids = some (some c.name.tree :: some c.dataType.tree :: (optKid Expr.tree c.default_ ++
      ((c.constraints.map ColumnConstraint.tree).map some ++ []))) := by
    obtain ⟨_, _, d, _, _⟩ := c; cases d <;> kernel_rfl
  have hd : ∀ e, c.default_ = some e → Tidy e.tree := fun e he => h.kid hk (by simp [mem_optKid, he])
  have hc : ∀ x ∈ c.constraints, Tidy x.tree := fun x hx => h.kid hk (by
    simp only [List.mem_cons, List.mem_append, mem_mapKids]; exact .inr (.inr (.inr (.inl ⟨x, hx, rfl⟩))))
  refine placed_node hk BegL.word.cat (placed_word.ord.cons ((placed_dataType c.dataType).ord.cons ?_))
  rintro ts ⟨items, ht, hi, -⟩
  have hs := h.self
  cases e1 : c.default_ with
  | none =>
    rw [optKid, List.nil_append, List.append_nil]
    rw [hi.constraints]
    cases e2 : (items.filterMap ColumnItem.constraints?).getLast? with
    | none => exact Ord.nil ts
    | some cs =>
      obtain ⟨i, hm, he⟩ := List.mem_filterMap.1 (List.mem_of_getLast? e2)
      have h3 := hi.constraints
      rw [e2] at h3
      cases i with
      | constraints cs' =>
        cases he
        exact ord_concat_mem (f := ColumnItem.lang fns q) (i := .constraints cs)
          ((ord_constraints cs fun x hx => hc x (by rw [h3]; exact hx)).left) hm ts ht
      | default_ _ => cases he
      | autoIncrement _ => cases he
  | some e =>
    have e3 : c.constraints = [] := by
      obtain ⟨_, _, d, _, cs⟩ := c
      simp only at e1
      subst e1
      cases cs with
      | nil => rfl
      | cons _ _ => cases hs
    rw [e3, optKid]
    have h2 := hi.default_
    rw [e1] at h2
    obtain ⟨i, hm, he⟩ := List.mem_filterMap.1 (List.mem_of_getLast? h2.symm)
    cases i with
    | default_ e' =>
      cases he
      exact ord_concat_mem (f := ColumnItem.lang fns q) (i := .default_ e) (placed_expr e (hd e e1)).ord.skip hm ts ht
    | constraints _ => cases he
    | autoIncrement _ => cases he

theorem placed_element : ∀ e : TableElement, Tidy e.tree → Placed (e.lang fns q) e.tree
  | .constraint c, h => placed_constraint c h
  | .column c, h => placed_column c h

theorem placed_alterColumn : ∀ a : AlterColumnAction, Tidy a.tree → Placed (a.lang fns q) a.tree
  | .setDefault p e, h => by
    have hk : (AlterColumnAction.setDefault p e).tree.walkKids = some [some e.tree] := by kernel_rfl
    exact placed_node hk BegL.startsAt.cat (placed_expr e (h.kid hk (by simp))).ord.skip.skip
  | .dropDefault _ _, _ => placed_leaf rfl BegL.startsAt.cat
  | .pgAlterDataType p ty, _ => placed_node (ks := [some ty.tree]) (by kernel_rfl) BegL.startsAt.cat (placed_dataType ty).ord.skip
  | .pgSetNotNull _ _, _ => placed_leaf rfl BegL.startsAt.cat
  | .pgDropNotNull _ _, _ => placed_leaf rfl BegL.startsAt.cat

theorem placed_alter : ∀ a : AlterTableAction, Tidy a.tree → Placed (a.lang fns q) a.tree
  | .addColumn p c, h => by
    have hk : (AlterTableAction.addColumn p c).tree.walkKids = some [some c.tree] := by kernel_rfl
    exact placed_node hk BegL.startsAt.cat (placed_column c (h.kid hk (by simp))).ord.skip.skip
  | .alterColumn n p a, h => by
    have hk : (AlterTableAction.alterColumn n p a).tree.walkKids = some [some n.tree, some a.tree] := by kernel_rfl
    exact placed_node hk BegL.startsAt.cat
      (OrdL.skip (OrdL.skip (placed_word.ord.cons (placed_alterColumn a (h.kid hk (by simp))).ord)))
  | .removeColumn n _ _ _, _ => placed_node (ks := [some n.tree]) (by kernel_rfl) BegL.startsAt.cat placed_word.ord.left.skip.skip
  | .addConstraint p c, h => by
    have hk : (AlterTableAction.addConstraint p c).tree.walkKids = some [some c.tree] := by kernel_rfl
    exact placed_node hk BegL.startsAt.cat (placed_constraint c (h.kid hk (by simp))).ord.skip
  | .dropConstraint n _ _ _, _ => placed_node (ks := [some n.tree]) (by kernel_rfl) BegL.startsAt.cat placed_word.ord.left.skip.skip

theorem ord_using {bad : List KW} {k : KW} : ∀ i : Option Ident,
    OrdL (Spec.optional (Spec.kwd k ⬝ ·) (i.map (Spec.word bad))) (optKid Ident.tree i)
  | none => OrdL.nil
  | some _ => placed_word.ord.skip

theorem placed_stmt : ∀ s : Stmt, Tidy s.tree → Placed (s.lang fns q) s.tree
  | .query s, h => by rw [Stmt.lang]; exact placed_query s h
  | .insert p n cols s as, h => by
    rw [Stmt.lang]
    have hk : (Stmt.insert p n cols s as).tree.walkKids = some (some n.tree :: ((Ident.trees cols).map some ++
        (some s.tree :: ((as.map Assignment.tree).map some ++ [])))) := by kernel_rfl
    have g := AllPlaced.map (f := Assignment.lang fns q) (g := Assignment.tree) as fun a ha =>
      placed_assignment a (h.kid hk (by
        simp only [List.mem_cons, List.mem_append, mem_mapKids]; exact .inr (.inr (.inr (.inl ⟨a, ha, rfl⟩)))))
    exact placed_node hk BegL.startsAt.cat (OrdL.skip (OrdL.skip ((placed_objectName n).ord.cons (OrdL.cat (ord_columns cols)
      (OrdL.cons (placed_source s (h.kid hk (by simp))).ord
        ((g.clause fun _ _ h => h.skip.skip.skip.skip).eq (by simp)))))))
  | .copy _ _ _ _, _ => by rw [Stmt.lang]; exact ⟨BegL.never, OrdL.never⟩
  | .update p n as sel, h => by
    rw [Stmt.lang]
    have hk : (Stmt.update p n as sel).tree.walkKids = some (some n.tree ::
        ((as.map Assignment.tree).map some ++ [sel.map Expr.tree])) := by cases sel <;> kernel_rfl
    have g := AllPlaced.map (f := Assignment.lang fns q) (g := Assignment.tree) as fun a ha =>
      placed_assignment a (h.kid hk (by
        simp only [List.mem_cons, List.mem_append, mem_mapKids]; exact .inr (.inl ⟨a, ha, rfl⟩)))
    refine placed_node hk BegL.startsAt.cat (OrdL.skip ((placed_objectName n).ord.cons (OrdL.skip (OrdL.cat g.sepBy ?_))))
    cases sel with
    | none => exact OrdL.none
    | some e => exact ord_where (some e) fun x hx => by cases hx; exact h.kid hk (by simp)
  | .delete p n sel, h => by
    rw [Stmt.lang]
    have hk : (Stmt.delete p n sel).tree.walkKids = some (some n.tree :: optKid Expr.tree sel) := by
      cases sel <;> kernel_rfl
    exact placed_node hk BegL.startsAt.cat (OrdL.skip (OrdL.skip ((placed_objectName n).ord.cons (ord_where sel fun x hx =>
      h.kid hk (by simp [mem_optKid, hx])))))
  | .createView p n s false, h => by
    rw [Stmt.lang]
    have hk : (Stmt.createView p n s false).tree.walkKids = some [some n.tree, some s.tree] := by kernel_rfl
    exact placed_node hk BegL.startsAt.cat (OrdL.skip (OrdL.skip (OrdL.skip ((placed_objectName n).ord.cons
      (placed_query s (h.kid hk (by simp))).ord.skip))))
  | .createView _ _ _ true, _ => by rw [Stmt.lang]; exact ⟨BegL.never, OrdL.never⟩
  | .createTable p n es m os, h => by
    rw [Stmt.lang]
    have hk : (Stmt.createTable p n es m os).tree.walkKids = some (some n.tree ::
        ((es.map TableElement.tree).map some ++ [])) := by kernel_rfl
    have g := AllPlaced.map (f := TableElement.lang fns q) (g := TableElement.tree) es fun e he =>
      placed_element e (h.kid hk (by
        simp only [List.mem_cons, List.mem_append, mem_mapKids]; exact .inr (.inl ⟨e, he, rfl⟩)))
    exact placed_node hk BegL.startsAt.cat (OrdL.skip (OrdL.skip (OrdL.skip ((placed_objectName n).ord.cons
      ((g.clause fun _ _ h => h.parens).left.eq (by simp))))))
  | .alterTable p n a, h => by
    rw [Stmt.lang]
    have hk : (Stmt.alterTable p n a).tree.walkKids = some [some n.tree, some a.tree] := by kernel_rfl
    exact placed_node hk BegL.startsAt.cat (OrdL.skip (OrdL.skip ((placed_objectName n).ord.cons
      (placed_alter a (h.kid hk (by simp))).ord)))
  | .dropTable ns cas cp e d, _ => by
    rw [Stmt.lang]
    have g := AllPlaced.map (f := Spec.objectName) (g := ObjectName.tree) ns fun n _ => placed_objectName n
    exact placed_node (ks := (ns.map ObjectName.tree).map some ++ []) (by kernel_rfl) BegL.startsAt.cat
      (OrdL.skip (OrdL.skip (OrdL.skip (g.sepBy.left.eq (by simp)))))
  | .createIndex p n u i m cs rp s, h => by
    rw [Stmt.lang]
    have hi : i = none := by
      cases i with
      | none => rfl
      | some i => cases h.self
    subst hi
    have hk : (Stmt.createIndex p n u none m cs rp s).tree.walkKids = some (some n.tree ::
        (optKid Ident.tree m ++ ((Ident.trees cs).map some ++ (optKid Expr.tree s ++ [])))) := by
      cases m <;> cases s <;> kernel_rfl
    exact placed_node hk (BegL.unset UnsetL.fst.right.right.right.right.right.right.right.right)
      (OrdL.skip (OrdL.skip (OrdL.skip (OrdL.skip ((placed_objectName n).ord.cons (OrdL.cat (ord_using m)
        (OrdL.cat (ord_columns cs) ((ord_where s fun x hx => h.kid hk (by simp [mem_optKid, hx])).left.eq (by simp)))))))))
  | .dropIndex p is, _ => by
    rw [Stmt.lang]
    exact placed_node (ks := (Ident.trees is).map some ++ []) (by kernel_rfl) BegL.startsAt.cat
      ((ord_idents is).skip.skip.eq (by simp))
  | .explain s p, h => by
    rw [Stmt.lang]
    have hk : (Stmt.explain s p).tree.walkKids = some [some s.tree] := by kernel_rfl
    exact placed_node hk (BegL.unset UnsetL.unset.right.right) (placed_stmt s (h.kid hk (by simp))).ord.left.skip

theorem ord_script (ss : List Stmt) (h : ∀ s ∈ ss, Tidy s.tree) :
    OrdL (scriptLang fns q ss) ((ss.map Stmt.tree).map some) := by
  refine OrdL.skip ?_
  induction ss with
  | nil => exact OrdL.nil
  | cons s ss ih =>
    exact (placed_stmt s (h s List.mem_cons_self)).ord.left.cons (ih fun d hd => h d (List.mem_cons_of_mem _ hd))

end Verif
