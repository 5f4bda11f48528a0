import Verif.Spec.Precedence
/-
Trees that respect the operator levels exist for every operator sequence and are well-formed.
-/
namespace Verif

/-- Put one more operator and operand at the right end of a tree. -/
def attach : Expr → Operator → Expr → Expr
  | .binary l o r, op, y =>
    if op.type.level ≤ o.type.level then .binary (.binary l o r) op y else .binary l o (attach r op y)
  | x, op, y => .binary x op y

theorem TreeOf.not_binary {x : Expr} (h : x.operand = true) {l r : Expr} {o : Operator} : x ≠ .binary l o r := by
  rintro rfl; simp [Expr.operand, Expr.isPrefix] at h

theorem attach_operand {x : Expr} (h : x.operand = true) (op : Operator) (y : Expr) : attach x op y = .binary x op y := by
  cases x <;> first | rfl | simp [Expr.operand, Expr.isPrefix] at h

theorem topLevel_operand {x : Expr} (h : x.operand = true) (p : Nat → Prop) : x.topLevel p := by
  cases x <;> first | trivial | simp [Expr.operand, Expr.isPrefix] at h

theorem respects_operand {x : Expr} (h : x.operand = true) : x.Respects := by
  cases x <;> first | trivial | simp [Expr.operand, Expr.isPrefix] at h

theorem TreeOf.attach {e x : Expr} {xs : List (Operator × Expr)} (h : TreeOf e x xs) (op : Operator) {y : Expr}
    (hy : y.operand = true) : TreeOf (attach e op y) x (xs ++ [(op, y)]) := by
  induction h with
  | leaf hx =>
    rw [attach_operand hx]
    exact .node (xs := []) (.leaf hx) (.leaf hy)
  | @node l r x z xs ys o hl hr ihl ihr =>
    unfold Verif.attach
    split
    · exact .node (.node hl hr) (.leaf hy)
    · rw [List.append_assoc, List.cons_append]
      exact .node hl ihr

theorem attach_topLevel {e x : Expr} {xs : List (Operator × Expr)} (h : TreeOf e x xs) {op : Operator} {y : Expr}
    {p : Nat → Prop} (h1 : e.topLevel p) (h2 : p op.type.level) : (attach e op y).topLevel p := by
  cases h with
  | leaf hx => rw [attach_operand hx]; exact h2
  | node hl hr =>
    unfold attach
    split
    · exact h2
    · exact h1

theorem attach_respects {e x : Expr} {xs : List (Operator × Expr)} (h : TreeOf e x xs) (he : e.Respects)
    {op : Operator} {y : Expr} (hy : y.operand = true) : (attach e op y).Respects := by
  induction h with
  | leaf hx =>
    rw [attach_operand hx]
    exact ⟨respects_operand hx, respects_operand hy, topLevel_operand hx _, topLevel_operand hy _⟩
  | @node l r x z xs ys o hl hr ihl ihr =>
    obtain ⟨h1, h2, h3, h4⟩ := he
    unfold attach
    split
    · rename_i hle
      exact ⟨⟨h1, h2, h3, h4⟩, respects_operand hy, hle, topLevel_operand hy _⟩
    · exact ⟨h1, ihr h2, h3, attach_topLevel hr h4 (by omega)⟩

/-- Every operator sequence has a tree that respects the levels. -/
theorem exists_respects {x : Expr} (hx : x.operand = true) (xs : List (Operator × Expr))
    (hxs : ∀ a ∈ xs, a.2.operand = true) : ∃ e, TreeOf e x xs ∧ e.Respects := by
  suffices h : ∀ (ys : List (Operator × Expr)) e zs, TreeOf e x zs → e.Respects → (∀ a ∈ ys, a.2.operand = true) →
      ∃ e', TreeOf e' x (zs ++ ys) ∧ e'.Respects from
    h xs x [] (.leaf hx) (respects_operand hx) hxs
  intro ys
  induction ys with
  | nil => intro e zs h1 h2 _; exact ⟨e, by simpa using h1, h2⟩
  | cons a ys ih =>
    obtain ⟨op, y⟩ := a
    intro e zs h1 h2 h3
    obtain ⟨e', h4, h5⟩ := ih (attach e op y) (zs ++ [(op, y)]) (h1.attach op (h3 (op, y) (by simp)))
      (attach_respects h1 h2 (h3 (op, y) (by simp))) (fun a ha => h3 a (by simp [ha]))
    exact ⟨e', by simpa using h4, h5⟩

theorem topLevel_mono {e : Expr} {p q : Nat → Prop} (h : ∀ n, p n → q n) (he : e.topLevel p) : e.topLevel q := by
  cases e <;> first | trivial | exact h _ he

/-- All operators of a tree that respects the levels bind at least as strongly as the one at the top. -/
theorem TreeOf.above {e x : Expr} {xs : List (Operator × Expr)} (h : TreeOf e x xs) (he : e.Respects) (q : Nat)
    (hq : e.topLevel (q < ·)) : ∀ a ∈ xs, q < a.1.type.level := by
  induction h with
  | leaf _ => simp
  | @node l r x z xs ys o hl hr ihl ihr =>
    obtain ⟨h1, h2, h3, h4⟩ := he
    have hq : q < o.type.level := hq
    intro a ha
    simp only [List.mem_append, List.mem_cons] at ha
    rcases ha with ha | rfl | ha
    · exact ihl h1 (topLevel_mono (fun n hn => Nat.lt_of_lt_of_le hq hn) h3) a ha
    · exact hq
    · exact ihr h2 (topLevel_mono (fun n hn => Nat.lt_trans hq hn) h4) a ha

def attachAll (e : Expr) (xs : List (Operator × Expr)) : Expr := xs.foldl (fun e a => attach e a.1 a.2) e

theorem attachAll_right (l : Expr) (o : Operator) : ∀ (r : Expr) (ys : List (Operator × Expr)),
    (∀ a ∈ ys, o.type.level < a.1.type.level) → attachAll (.binary l o r) ys = .binary l o (attachAll r ys)
  | r, [], _ => rfl
  | r, (op, y) :: ys, h => by
    have h1 := h (op, y) (by simp)
    have := attachAll_right l o (attach r op y) ys fun a ha => h a (by simp [ha])
    simp only [attachAll, List.foldl_cons, attach] at this ⊢
    rw [if_neg (by simpa using h1)]
    exact this

/-- There is only one tree that respects the levels. -/
theorem TreeOf.eq_attachAll {e x : Expr} {xs : List (Operator × Expr)} (h : TreeOf e x xs) (he : e.Respects) :
    e = attachAll x xs := by
  induction h with
  | leaf _ => rfl
  | @node l r x z xs ys o hl hr ihl ihr =>
    obtain ⟨h1, h2, h3, h4⟩ := he
    have e1 : Verif.attach l o z = .binary l o z := by
      cases hl with
      | leaf hx => exact attach_operand hx o z
      | node _ _ =>
        simp only [Verif.attach]
        rw [if_pos (by simpa only [Expr.topLevel] using h3)]
    have e2 := attachAll_right l o z ys (hr.above h2 _ h4)
    rw [← ihr h2] at e2
    rw [attachAll, List.foldl_append, List.foldl_cons, ← attachAll, ← attachAll, ← ihl h1]
    simp only [e1, e2]

theorem level_lt (o : OpType) : o.level < 100 := by cases o <;> decide

theorem TreeOf.levels {e x : Expr} {xs : List (Operator × Expr)} (h : TreeOf e x xs) (he : e.Respects) :
    (∀ q, q ≤ 100 → e.topLevel (q ≤ ·) → q ≤ e.rp) ∧ (∀ q, q < 100 → e.topLevel (q < ·) → q < e.lp) := by
  induction h with
  | @leaf x hx =>
    have : x.rp = 100 ∧ x.lp = 100 := by
      cases x <;> first | exact ⟨rfl, rfl⟩ | simp [Expr.operand, Expr.isPrefix] at hx
    rw [this.1, this.2]
    exact ⟨fun q hq _ => hq, fun q hq _ => hq⟩
  | @node l r x z xs ys o hl hr ihl ihr =>
    obtain ⟨h1, h2, h3, h4⟩ := he
    have a1 := (ihl h1).2
    have a2 := (ihr h2).1
    have hlo := level_lt o.type
    have hl' : o.type.level ≤ l.lp := by
      have : o.type.level - 1 < l.lp ∨ o.type.level = 0 := by
        by_cases h0 : o.type.level = 0
        · exact .inr h0
        · refine .inl (a1 _ (by omega) ?_)
          cases l <;> first | trivial | (simp only [Expr.topLevel] at h3 ⊢; omega)
      omega
    have hr' : o.type.level < r.rp := by
      refine a2 _ (by omega) ?_
      cases r <;> first | trivial | (simp only [Expr.topLevel] at h4 ⊢; omega)
    constructor
    · intro q _ hq
      simp only [Expr.topLevel] at hq
      simp only [Expr.rp]
      omega
    · intro q _ hq
      simp only [Expr.topLevel] at hq
      simp only [Expr.lp]
      omega

/-- A tree that respects the levels, with well-formed operands, is well-formed. -/
theorem TreeOf.wf {d : Dialect} {fns : FloatFns} {e x : Expr} {xs : List (Operator × Expr)} (h : TreeOf e x xs)
    (he : e.Respects) (hx : x.wf d fns = true) (hxs : ∀ a ∈ xs, 0 < a.1.type.level ∧ a.2.wf d fns = true) :
    e.wf d fns = true := by
  induction h with
  | leaf _ => exact hx
  | @node l r x z xs ys o hl hr ihl ihr =>
    obtain ⟨h1, h2, h3, h4⟩ := he
    have ho := hxs (o, z) (by simp)
    simp only [Expr.wf, Bool.and_eq_true, decide_eq_true_eq]
    have hlo := level_lt o.type
    refine ⟨⟨⟨⟨ihl h1 hx fun a ha => hxs a (by simp [ha]), ihr h2 ho.2 fun a ha => hxs a (by simp [ha])⟩, ho.1⟩,
      (hl.levels h1).1 _ (by omega) h3⟩, (hr.levels h2).2 _ (by omega) h4⟩

end Verif
