import Verif.Proofs.Alphabet
/-
Counting brackets, for C73.
-/
namespace Verif
open Spec

/-- How often a bracket is open. -/
def depth (b : Bracket) (s : List Bracket) : Nat := s.countP (· == b)

theorem opened_cons (b : Bracket) (t : Token) (ts : List Token) :
    opened b (t :: ts) = opened b ts + if opens t.tok == some b then 1 else 0 := List.countP_cons
theorem closed_cons (b : Bracket) (t : Token) (ts : List Token) :
    closed b (t :: ts) = closed b ts + if closes t.tok == some b then 1 else 0 := List.countP_cons
theorem depth_cons (b x : Bracket) (s : List Bracket) : depth b (x :: s) = depth b s + if x == b then 1 else 0 :=
  List.countP_cons

theorem closes_of_opens {t : Tok} {b : Bracket} (h : opens t = some b) : closes t = none := by
  unfold opens at h
  split at h <;> first | rfl | cases h
theorem opens_of_closes {t : Tok} {b : Bracket} (h : closes t = some b) : opens t = none := by
  unfold closes at h
  split at h <;> first | rfl | cases h

/-- No prefix closes more than is open. -/
theorem Spec.Nested.prefix_le {st : Bool} {s s' : List Bracket} {ts : List Token} (h : Nested st s ts s') (b : Bracket) :
    ∀ us vs, ts = us ++ vs → closed b us ≤ opened b us + depth b s := by
  induction h with
  | nil =>
    intro us vs h
    cases (List.append_eq_nil_iff.1 h.symm).1
    simp [closed]
  | other h1 h2 _ ih =>
    intro us vs h
    cases us with
    | nil => simp [closed]
    | cons u us =>
      cases h
      have := ih us vs rfl
      clear ih
      simp only [closed_cons, opened_cons, h1, h2]
      simpa using this
  | @opening _ _ _ _ x h1 _ ih =>
    intro us vs h
    cases us with
    | nil => simp [closed]
    | cons u us =>
      cases h
      have := ih us vs rfl
      clear ih
      simp only [depth_cons] at this
      simp only [closed_cons, opened_cons, h1, closes_of_opens h1]
      cases x <;> cases b <;> simp_all <;> omega
  | @closing _ _ _ _ x h1 _ ih =>
    intro us vs h
    cases us with
    | nil => simp [closed]
    | cons u us =>
      cases h
      have := ih us vs rfl
      clear ih
      simp only [closed_cons, opened_cons, h1, opens_of_closes h1, depth_cons]
      cases x <;> cases b <;> simp_all <;> omega
  | ignored h0 h1 h2 _ ih =>
    intro us vs h
    match us, h with
    | [], _ => simp [closed]
    | [u], h => cases h; simp [opened_cons, h1, closes, closed]
    | u :: u' :: us, h =>
      cases h
      have := ih us vs rfl
      clear ih
      simp only [closed_cons, opened_cons, h1, h2, closes, opens]
      cases b <;> simp_all <;> omega

/-- Square brackets balance. -/
theorem Spec.Nested.square {st : Bool} {s s' : List Bracket} {ts : List Token} (h : Nested st s ts s') :
    opened .square ts + depth .square s = closed .square ts + depth .square s' := by
  induction h with
  | nil => simp [opened, closed]
  | other h1 h2 _ ih => simpa [opened_cons, closed_cons, h1, h2] using ih
  | @opening _ _ _ _ x h1 _ ih =>
    simp only [depth_cons, opened_cons, closed_cons, h1, closes_of_opens h1] at ih ⊢
    cases x <;> simp_all <;> omega
  | @closing _ _ _ _ x h1 _ ih =>
    simp only [depth_cons, opened_cons, closed_cons, h1, opens_of_closes h1] at ih ⊢
    cases x <;> simp_all <;> omega
  | ignored h0 h1 h2 _ ih => simpa [opened_cons, closed_cons, h1, h2, opens, closes] using ih

/-- At least as many parentheses are opened as closed; if the numbers agree, none is ignored. -/
theorem Spec.Nested.paren {st : Bool} {s s' : List Bracket} {ts : List Token} (h : Nested st s ts s') :
    closed .paren ts + depth .paren s' ≤ opened .paren ts + depth .paren s ∧
      (opened .paren ts + depth .paren s = closed .paren ts + depth .paren s' → Nested false s ts s') := by
  induction h with
  | nil => exact ⟨by simp [opened, closed], fun _ => .nil⟩
  | other h1 h2 _ ih =>
    simp only [opened_cons, closed_cons, h1, h2]
    exact ⟨by simpa using ih.1, fun h => .other h1 h2 (ih.2 (by simpa using h))⟩
  | @opening _ _ _ _ x h1 _ ih =>
    simp only [depth_cons, opened_cons, closed_cons, h1, closes_of_opens h1] at ih ⊢
    cases x
    · exact ⟨by have := ih.1; simp_all; omega, fun h => .opening h1 (ih.2 (by simp at h ⊢; omega))⟩
    · exact ⟨by have := ih.1; simp_all, fun h => .opening h1 (ih.2 (by simp at h ⊢; omega))⟩
  | @closing _ _ _ _ x h1 _ ih =>
    simp only [depth_cons, opened_cons, closed_cons, h1, opens_of_closes h1] at ih ⊢
    cases x
    · exact ⟨by have := ih.1; simp_all; omega, fun h => .closing h1 (ih.2 (by simp at h ⊢; omega))⟩
    · exact ⟨by have := ih.1; simp_all, fun h => .closing h1 (ih.2 (by simp at h ⊢; omega))⟩
  | ignored h0 h1 h2 _ ih =>
    simp only [opened_cons, closed_cons, h1, h2, opens, closes]
    refine ⟨by have := ih.1; simp; omega, fun h => ?_⟩
    have := ih.1
    simp at h
    omega

/-- Read the brackets one by one; `none` if one does not fit. -/
def nestRun : List Bracket → List Token → Option (List Bracket)
  | s, [] => some s
  | s, t :: ts => match opens t.tok, closes t.tok with
    | some b, _ => nestRun (b :: s) ts
    | none, some b => (match s with
      | x :: s => if x = b then nestRun s ts else none
      | [] => none)
    | none, none => nestRun s ts

theorem nestRun_of {s s' : List Bracket} {ts : List Token} (h : Nested false s ts s') : nestRun s ts = some s' := by
  induction h with
  | nil => rfl
  | other h1 h2 _ ih => simp [nestRun, h1, h2, ih]
  | opening h1 _ ih => simp [nestRun, h1, ih]
  | closing h1 _ ih => simp [nestRun, h1, opens_of_closes h1, ih]
  | ignored h0 => cases h0

theorem nested_of_run : ∀ {ts : List Token} {s s' : List Bracket}, nestRun s ts = some s' → Nested false s ts s'
  | [], s, s', h => by cases h; exact .nil
  | t :: ts, s, s', h => by
    unfold nestRun at h
    split at h
    · rename_i h1; exact .opening h1 (nested_of_run h)
    · rename_i h1 h2
      split at h
      · split at h
        · rename_i hx; subst hx; exact .closing h2 (nested_of_run h)
        · cases h
      · cases h
    · rename_i h1 h2; exact .other h1 h2 (nested_of_run h)

/-- Whether a text is balanced can be computed. -/
instance (ts : List Token) : Decidable (Balanced ts) :=
  decidable_of_iff (nestRun [] ts = some []) ⟨nested_of_run, nestRun_of⟩

end Verif
