import Verif.Model.Token
import Verif.Model.Kw
/-
Facts about the keyword tables.
-/
namespace Verif

theorem keywords_upper : ∀ k ∈ keywords, upper k = k ∧ upper (lower k) = k := by
  decide +kernel

theorem keywordCache_some {w : Str} {x : SQLWord} (h : keywordCache w = some x) :
    x = ⟨w, none, upper w⟩ := by
  unfold keywordCache at h
  obtain ⟨k, hk, hx⟩ := List.exists_of_findSome?_eq_some h
  obtain ⟨h1, h2⟩ := keywords_upper k hk
  split at hx
  · rename_i hw; subst hw; simp at hx; rw [← hx, h1]
  · split at hx
    · rename_i hw; subst hw; simp at hx; rw [← hx, h2]
    · simp at hx

/-- The cache is transparent: `MakeKeyword` is what it would be without the cache. -/
theorem makeKeyword_eq (w : Str) (q : Option Char) : makeKeyword w q = ⟨w, q, upper w⟩ := by
  unfold makeKeyword
  split
  · rename_i x h
    split at h
    · rename_i hq; subst hq; exact keywordCache_some h
    · simp at h
  · dsimp only
    split
    · rename_i h; rw [h.1]
    · rfl

theorem KW.str_inj : ∀ a b : KW, a.str = b.str → a = b := by
  intro a b h
  have key : ∀ a ∈ KW.all, ∀ b ∈ KW.all, a.str = b.str → a = b := by decide +kernel
  have hall : ∀ k : KW, k ∈ KW.all := by intro k; cases k <;> decide
  exact key a (hall a) b (hall b) h

theorem KW.mem_all (k : KW) : k ∈ KW.all := by cases k <;> decide

@[simp] theorem kwOf_str (k : KW) : kwOf k.str = some k := by
  have h : ∃ x ∈ KW.all, (x.str == k.str) = true := ⟨k, KW.mem_all k, by simp⟩
  obtain ⟨x, hx⟩ := Option.isSome_iff_exists.mp (List.find?_isSome.mpr h)
  rw [kwOf, hx]
  have := List.find?_some hx
  simp at this
  rw [KW.str_inj _ _ this]

theorem kwOf_eq_some {s : Str} {k : KW} : kwOf s = some k ↔ s = k.str := by
  constructor
  · intro h
    have := List.find?_some h
    simp at this
    exact this.symm
  · rintro rfl; simp

end Verif
