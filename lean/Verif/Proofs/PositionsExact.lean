import Verif.Proofs.Positions
import Verif.Spec.PositionExact
/-
The position of the end of each token, exactly.
-/
set_option linter.unusedSimpArgs false
namespace Verif
open Spec

theorem takeComment_walk (cs : List Char) (closing : Bool) (acc : List Char) (line col : Nat) :
    ∀ {str s'}, takeComment cs closing acc line col = .ok (str, s') →
    ∃ used, cs = used ++ s'.rest ∧ s'.pos = walkPos used ⟨line, col⟩ ∧
      (used.getLast? = some '/') := by
  fun_induction takeComment cs closing acc line col with
  | case1 => simp
  | case2 =>
    rename_i col cs closing acc line acc' ih
    intro str s' h
    obtain ⟨used, h1, h2, h3⟩ := ih h
    exact ⟨'\r' :: '\n' :: used, by simp [h1], by simp [h2, walkPos], by
      cases used <;> simp_all⟩
  | case3 n cs closing acc line col hne line' col' hpos hc =>
    intro str s' h
    simp at h
    obtain ⟨rfl, rfl⟩ := h
    obtain ⟨rfl, rfl⟩ := hc
    simp at hpos
    exact ⟨['/'], by simp, by simp [hpos, TState.pos, walkPos], rfl⟩
  | case4 =>
    rename_i cs closing acc line col line' col' hne hpos hc acc' ih
    intro str s' h
    obtain ⟨used, h1, h2, h3⟩ := ih h
    simp at hpos
    exact ⟨'*' :: used, by simp [h1], by simp [h2, hpos, walkPos], by cases used <;> simp_all⟩
  | case5 =>
    rename_i n cs closing acc line col hne line' col' hpos hc acc' hn ih
    intro str s' h
    obtain ⟨used, h1, h2, h3⟩ := ih h
    refine ⟨n :: used, by simp [h1], ?_, by cases used <;> simp_all⟩
    rw [h2]
    have hw : walkPos (n :: used) ⟨line, col⟩ =
        walkPos used (if n = '\r' ∨ n = '\n' then ⟨line + 1, 1⟩ else ⟨line, col + 1⟩) := by
      cases used with
      | nil => cases h3
      | cons u used =>
        rw [walkPos]
        intro s h5 hs
        simp only [List.cons.injEq] at hs
        obtain ⟨h6, h7⟩ := hs
        subst h6 h7
        exact hne _ h5 (by rw [h1]; rfl)
    rw [hw]
    split at hpos <;> simp at hpos <;> obtain ⟨rfl, rfl⟩ := hpos <;> simp_all

theorem NextRel.end_eq {d : Dialect} {s s' : TState} {t : Tok} (h : NextRel d s t s') {p : Str}
    (hp : s.rest = p ++ s'.rest) : s'.pos = tokenEnd t p s.pos := by
  cases h with
  | space cs l c =>
    have : p = [' '] := List.append_cancel_right hp.symm
    subst this; simp [TState.pos, tokenEnd, walkPos]
  | tab cs l c =>
    have : p = ['\t'] := List.append_cancel_right hp.symm
    subst this; simp [TState.pos, tokenEnd]
  | lf cs l c =>
    have : p = ['\n'] := List.append_cancel_right hp.symm
    subst this; simp [TState.pos, tokenEnd, walkPos]
  | cr cs l c h =>
    have : p = ['\r'] := List.append_cancel_right hp.symm
    subst this; simp [TState.pos, tokenEnd, walkPos]
  | crlf cs l c =>
    have : p = ['\r', '\n'] := List.append_cancel_right hp.symm
    subst this; simp [TState.pos, tokenEnd, walkPos]
  | national s r l c h => simp [TState.pos, tokenEnd]; omega
  | single s r l c h => simp [TState.pos, tokenEnd]; omega
  | word x w r l c h1 h2 h3 h4 h5 h6 h7 =>
    have : p = x :: w := List.append_cancel_right (bs := r) (by simpa using hp.symm)
    subst this
    simp [TState.pos, tokenEnd]
  | delim q w r l c h1 h2 h3 h4 h5 h6 h7 =>
    have : p = q :: (w ++ [matchingEndQuote q]) := List.append_cancel_right (bs := r) (by simpa using hp.symm)
    subst this
    simp [TState.pos, tokenEnd]; omega
  | number x w r l c h1 h2 h3 h4 h5 h6 =>
    have : p = x :: w := List.append_cancel_right (bs := r) (by simpa using hp.symm)
    subst this
    simp [TState.pos, tokenEnd]
  | line w r l c h1 h2 =>
    have : p = '-' :: '-' :: w := List.append_cancel_right (bs := r) (by simpa using hp.symm)
    subst this
    simp [TState.pos, tokenEnd, List.cons_prefix_cons]
  | block cs str s' l c h =>
    obtain ⟨used, e1, e2, -⟩ := takeComment_walk _ _ _ _ _ h
    have : p = '/' :: '*' :: used := List.append_cancel_right (bs := s'.rest) (by simpa [e1] using hp.symm)
    subst this
    simp [tokenEnd, List.cons_prefix_cons, walkPos, e2]
    rfl
  | sym k text r l c h h2 =>
    have : p = text := List.append_cancel_right hp.symm
    subst this
    simp [TState.pos, tokenEnd]
  | char x r l c h1 h2 h3 h4 h5 =>
    have : p = [x] := List.append_cancel_right (bs := r) (by simpa using hp.symm)
    subst this
    simp [TState.pos, tokenEnd]

/-- The line breaks that the tokenizer counts in a token. -/
def counted (t : Tok) (p : Str) : Nat :=
  match t with
  | .whitespace _ => p.count '\n'
  | .comment _ => p.count '\n'
  | _ => 0

theorem NextRel.line_exact {d : Dialect} {s s' : TState} {t : Tok} (h : NextRel d s t s') {p : Str}
    (hp : s.rest = p ++ s'.rest) (hcr : CrLf s.rest) : s'.line = s.line + counted t p := by
  have key := fun hb => h.line_eq hp hcr hb
  cases h with
  | space | tab | lf | cr | crlf | line | block => exact key trivial
  | national | single | word | delim | number | sym | char => rfl

theorem Scans.exact {d : Dialect} {s s' : TState} {ts : List Token} (h : Scans d s ts s') :
    ∃ tps : List (Token × Str), ts = tps.map (·.1) ∧ s.rest = tps.flatMap (·.2) ++ s'.rest ∧
      (∀ x ∈ tps, Spells d x.1.tok x.2) ∧
      (∀ a x b, tps = a ++ x :: b → x.1.from_ = a.foldl (fun p y => tokenEnd y.1.tok y.2 p) s.pos ∧
        x.1.to_ = tokenEnd x.1.tok x.2 x.1.from_) ∧
      (CrLf s.rest → ∀ a x b, tps = a ++ x :: b →
        x.1.from_.line = s.line + (a.map fun y => counted y.1.tok y.2).sum) := by
  induction h with
  | refl s => exact ⟨[], rfl, by simp, by simp, by simp, by simp⟩
  | @step s t s1 ts s2 h1 h2 ih =>
    obtain ⟨tps, i1, i2, i3, i4, i5⟩ := ih
    obtain ⟨p, e1, e2⟩ := h1.spells
    refine ⟨(⟨t, s.pos, s1.pos⟩, p) :: tps, by simp [i1], by simp [e1, i2], ?_, ?_, ?_⟩
    · intro x hx
      simp at hx
      rcases hx with rfl | hx
      · exact e2
      · exact i3 x hx
    · intro a x b hab
      cases a with
      | nil => simp at hab; rw [← hab.1]; exact ⟨rfl, h1.end_eq e1⟩
      | cons y a =>
        simp at hab
        obtain ⟨rfl, hab⟩ := hab
        obtain ⟨j1, j2⟩ := i4 a x b hab
        refine ⟨?_, j2⟩
        rw [j1, List.foldl_cons, h1.end_eq e1]
    · intro hcr a x b hab
      cases a with
      | nil => simp at hab; rw [← hab.1]; simp [TState.pos]
      | cons y a =>
        simp at hab
        obtain ⟨rfl, hab⟩ := hab
        rw [i5 (by rw [e1] at hcr; exact CrLf.suffix hcr) a x b hab, h1.line_exact e1 hcr]
        simp; omega

theorem counted_le (t : Tok) (p : Str) : counted t p ≤ p.count '\n' := by
  unfold counted; split <;> omega

theorem counted_eq_iff (t : Tok) (p : Str) : counted t p = p.count '\n' ↔ IsTrivia t ∨ '\n' ∉ p := by
  unfold counted IsTrivia
  split <;> simp [eq_comm, List.count_eq_zero]

theorem counted_sum_iff (a : List (Token × Str)) :
    (a.map fun y => counted y.1.tok y.2).sum = (a.flatMap (·.2)).count '\n' ↔
      ∀ y ∈ a, IsTrivia y.1.tok ∨ '\n' ∉ y.2 := by
  have hle : ∀ a : List (Token × Str),
      (a.map fun y => counted y.1.tok y.2).sum ≤ (a.flatMap (·.2)).count '\n' := by
    intro a
    induction a with
    | nil => simp
    | cons y a ih =>
      have := counted_le y.1.tok y.2
      simp [List.count_append]; omega
  induction a with
  | nil => simp
  | cons y a ih =>
    have h1 := counted_le y.1.tok y.2
    have h2 := hle a
    have h3 := counted_eq_iff y.1.tok y.2
    simp only [List.map_cons, List.sum_cons, List.flatMap_cons, List.count_append, List.mem_cons, forall_eq_or_imp,
      ← ih, ← h3]
    omega

end Verif
