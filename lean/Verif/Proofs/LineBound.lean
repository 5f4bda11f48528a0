/-
No token ends on a line beyond the length of the input.
-/
import Verif.Proofs.Positions

namespace Verif

theorem takeComment_bound (cs : List Char) (closing : Bool) (acc : List Char) (line col : Nat) :
    ∀ {str s'}, takeComment cs closing acc line col = .ok (str, s') →
      s'.line + s'.rest.length ≤ line + cs.length := by
  fun_induction takeComment cs closing acc line col with
  | case1 => simp
  | case2 =>
    rename_i ih
    intro str s' h
    have := ih h
    simp only [List.length_cons]; omega
  | case3 n cs closing acc line col hne line' col' hpos hc =>
    intro str s' h
    simp at h
    obtain ⟨rfl, rfl⟩ := h
    split at hpos <;> simp at hpos <;> simp only [List.length_cons] <;> omega
  | case4 =>
    rename_i hpos _ _ ih
    intro str s' h
    have := ih h
    split at hpos <;> simp at hpos <;> simp only [List.length_cons] <;> omega
  | case5 =>
    rename_i hpos _ _ _ ih
    intro str s' h
    have := ih h
    split at hpos <;> simp at hpos <;> simp only [List.length_cons] <;> omega

theorem NextRel.bound {d : Dialect} {s s' : TState} {t : Tok} (h : NextRel d s t s') :
    s'.line + s'.rest.length ≤ s.line + s.rest.length := by
  cases h with
  | block cs str s' l c h =>
    have := takeComment_bound _ _ _ _ _ h
    simp only [List.length_cons]; omega
  | _ => simp <;> omega

theorem Scans.bound {d : Dialect} {s s' : TState} {ts : List Token} (h : Scans d s ts s') :
    s'.line + s'.rest.length ≤ s.line + s.rest.length ∧ ∀ t ∈ ts, t.to_.line ≤ s.line + s.rest.length := by
  induction h with
  | refl => simp
  | step hn _ ih =>
    have := hn.bound
    refine ⟨by omega, ?_⟩
    intro t ht
    rcases List.mem_cons.1 ht with rfl | ht
    · simp only [TState.pos]; omega
    · have := ih.2 t ht; omega

theorem tokenize_line_bound {d : Dialect} {keep : Bool} {fuel : Nat} {src : Str} {toks : List Token}
    (ht : tokenize d keep fuel src = .ok toks) : ∀ t ∈ toks, t.to_.line ≤ 1 + src.length := by
  obtain ⟨all, s', h, -, rfl⟩ := tokenize_ok_inv ht
  intro t ht
  refine h.bound.2 t ?_
  unfold filterTok at ht
  split at ht
  · exact ht
  · exact (List.mem_filter.1 ht).1

end Verif
