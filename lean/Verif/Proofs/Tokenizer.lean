import Verif.Model.Tokenizer
import Verif.Spec.Spelling
import Verif.Proofs.Keyword
/-
Lemmas about the loops of the tokenizer and an inversion of `next`.
-/
namespace Verif
open Spec

/-! ### byte lengths -/

theorem Char.utf8Size_pos' (c : Char) : 0 < c.utf8Size := Char.utf8Size_pos c

/-! ### the scanning loops -/

theorem takeWord_spec (d : Dialect) (cs : List Char) :
    cs = (takeWord d cs).1 ++ (takeWord d cs).2 ∧ (∀ x ∈ (takeWord d cs).1, d.isIdentPart x = true) ∧
    (∀ x, (takeWord d cs).2.head? = some x → d.isIdentPart x = false) := by
  induction cs with
  | nil => simp [takeWord]
  | cons c cs ih =>
    obtain ⟨h1, h2, h3⟩ := ih
    unfold takeWord
    split
    · rename_i h
      refine ⟨by simpa using h1, ?_, by simpa using h3⟩
      intro x hx
      simp at hx
      rcases hx with rfl | hx
      · exact h
      · exact h2 x hx
    · rename_i h; clear h1 h2 h3; simp_all

theorem takeWord_append (d : Dialect) {w rest : List Char} (hw : ∀ x ∈ w, d.isIdentPart x = true)
    (hr : ∀ x, rest.head? = some x → d.isIdentPart x = false) :
    takeWord d (w ++ rest) = (w, rest) := by
  induction w with
  | nil =>
    cases rest with
    | nil => rfl
    | cons r rs => simp at hr; simp [takeWord, hr]
  | cons c w ih =>
    simp at hw
    simp [takeWord, hw.1, ih hw.2]

theorem takeNumber_spec (cs : List Char) :
    cs = (takeNumber cs).1 ++ (takeNumber cs).2 ∧
    (∀ x ∈ (takeNumber cs).1, isDigit x = true ∨ x = '.') ∧
    (∀ x, (takeNumber cs).2.head? = some x → isDigit x = false ∧ x ≠ '.') := by
  induction cs with
  | nil => simp [takeNumber]
  | cons c cs ih =>
    obtain ⟨h1, h2, h3⟩ := ih
    unfold takeNumber
    split
    · rename_i h
      refine ⟨by simpa using h1, ?_, by simpa using h3⟩
      intro x hx
      simp at hx
      rcases hx with rfl | hx
      · simpa using h
      · exact h2 x hx
    · rename_i h; clear h1 h2 h3; simp_all

theorem takeNumber_append {w rest : List Char} (hw : ∀ x ∈ w, isDigit x = true ∨ x = '.')
    (hr : ∀ x, rest.head? = some x → isDigit x = false ∧ x ≠ '.') :
    takeNumber (w ++ rest) = (w, rest) := by
  induction w with
  | nil =>
    cases rest with
    | nil => rfl
    | cons r rs => simp at hr; simp [takeNumber, hr]
  | cons c w ih =>
    simp at hw
    simp [takeNumber, hw.1, ih hw.2]

theorem takeLine_spec (cs : List Char) :
    cs = (takeLine cs).1 ++ (takeLine cs).2 ∧ '\n' ∉ (takeLine cs).1 ∧
    (∀ x, (takeLine cs).2.head? = some x → x = '\n') := by
  induction cs with
  | nil => simp [takeLine]
  | cons c cs ih =>
    obtain ⟨h1, h2, h3⟩ := ih
    unfold takeLine
    split
    · clear h1 h2 h3; simp_all
    · rename_i h
      refine ⟨by simpa using h1, ?_, by simpa using h3⟩
      simp [Ne.symm h, h2]

theorem takeLine_append {w rest : List Char} (hw : '\n' ∉ w)
    (hr : ∀ x, rest.head? = some x → x = '\n') :
    takeLine (w ++ rest) = (w, rest) := by
  induction w with
  | nil =>
    cases rest with
    | nil => rfl
    | cons r rs => simp at hr; simp [takeLine, hr]
  | cons c w ih =>
    simp at hw
    simp [takeLine, Ne.symm hw.1, ih hw.2]

theorem takeString_spec (cs : List Char) : ∀ {str r}, takeString cs = some (str, r) →
    cs = escape str ++ '\'' :: r ∧ r.head? ≠ some '\'' := by
  fun_induction takeString cs with
  | case1 => simp
  | case2 cs str' r' h ih =>
    intro str r hs
    simp at hs
    obtain ⟨rfl, rfl⟩ := hs
    obtain ⟨h1, h2⟩ := ih h
    refine ⟨?_, h2⟩
    simp [escape, ← h1]
  | case3 => simp
  | case4 cs hne =>
    intro str r hs
    simp at hs
    obtain ⟨rfl, rfl⟩ := hs
    refine ⟨by simp [escape], ?_⟩
    intro hc
    cases cs with
    | nil => simp at hc
    | cons x xs => simp at hc; subst hc; exact hne xs rfl rfl
  | case5 c cs hne hc str' r' h ih =>
    intro str r hs
    simp at hs
    obtain ⟨rfl, rfl⟩ := hs
    obtain ⟨h1, h2⟩ := ih h
    refine ⟨?_, h2⟩
    simp [escape, hc, ← h1]
  | case6 => simp

theorem takeString_escape (s r : List Char) (hr : r.head? ≠ some '\'') :
    takeString (escape s ++ '\'' :: r) = some (s, r) := by
  induction s with
  | nil =>
    cases r with
    | nil => simp [escape, takeString]
    | cons x xs =>
      simp at hr
      unfold takeString
      simp only [escape, List.nil_append]
      split
      · simp_all
      · simp_all
      · rename_i h; simp at h; obtain ⟨rfl, rfl⟩ := h; simp
  | cons c s ih =>
    unfold escape
    split
    · rename_i h; subst h; simp [takeString, ih]
    · rename_i h
      rw [List.cons_append, takeString]
      · simp [h, ih]
      · intro cs h1; exact absurd h1 h

theorem takeString_none_iff (cs : List Char) :
    takeString cs = none ↔ ¬ ∃ s r, cs = escape s ++ '\'' :: r ∧ r.head? ≠ some '\'' := by
  constructor
  · rintro h ⟨s, r, rfl, hr⟩
    rw [takeString_escape s r hr] at h
    cases h
  · intro h
    match hs : takeString cs with
    | none => rfl
    | some (s, r) => exact absurd ⟨s, r, takeString_spec cs hs⟩ h

theorem takeDelim_spec (e : Char) (fuel : Nat) (cs : List Char) : ∀ {w r},
    takeDelim e fuel cs = some (w, r) → cs = w ++ e :: r ∧ e ∉ w := by
  fun_induction takeDelim e fuel cs with
  | case1 => simp
  | case2 fuel ih => intro w r h; have := ih h; simp at this
  | case3 => intro w r h; simp at h; obtain ⟨rfl, rfl⟩ := h; simp
  | case4 fuel c cs hc w' r' h ih =>
    intro w r hs
    simp at hs
    obtain ⟨rfl, rfl⟩ := hs
    obtain ⟨h1, h2⟩ := ih h
    exact ⟨by simp [← h1], by simp [h2, Ne.symm hc]⟩
  | case5 => simp

theorem takeDelim_append {e : Char} {w r : List Char} (hw : e ∉ w) {fuel : Nat} (hf : w.length < fuel) :
    takeDelim e fuel (w ++ e :: r) = some (w, r) := by
  induction w generalizing fuel with
  | nil => cases fuel with
    | zero => simp at hf
    | succ f => simp [takeDelim]
  | cons c w ih =>
    cases fuel with
    | zero => simp at hf
    | succ f =>
      simp at hw hf
      simp [takeDelim, Ne.symm hw.1, ih hw.2 hf]

theorem takeDelim_none {e : Char} {cs : List Char} (h : e ∉ cs) (fuel : Nat) :
    takeDelim e fuel cs = none := by
  match hs : takeDelim e fuel cs with
  | none => rfl
  | some (w, r) =>
    have := (takeDelim_spec e fuel cs hs).1
    rw [this] at h
    simp at h

theorem takeDelim_some_of_mem {e : Char} {cs : List Char} (h : e ∈ cs) {fuel : Nat}
    (hf : cs.length ≤ fuel) : ∃ p, takeDelim e fuel cs = some p := by
  induction cs generalizing fuel with
  | nil => simp at h
  | cons c cs ih =>
    cases fuel with
    | zero => simp at hf
    | succ f =>
      unfold takeDelim
      split
      · exact ⟨_, rfl⟩
      · rename_i hc
        simp at hf h
        obtain ⟨p, hp⟩ := ih (h.resolve_left (Ne.symm hc)) hf
        exact ⟨_, by rw [hp]⟩


/-! ### block comments -/

theorem noClose_nil : NoClose [] := by simp [NoClose]

theorem noClose_cons {c : Char} {b : Str} :
    NoClose (c :: b) ↔ ¬ (c = '*' ∧ b.head? = some '/') ∧ NoClose b := by
  unfold NoClose
  rw [List.infix_cons_iff]
  constructor
  · intro h
    refine ⟨?_, fun hb => h (.inr hb)⟩
    rintro ⟨rfl, hb⟩
    cases b with
    | nil => simp at hb
    | cons x xs => simp at hb; subst hb; exact h (.inl (by simp))
  · rintro ⟨h1, h2⟩ (h | h)
    · obtain ⟨t, ht⟩ := h
      cases b with
      | nil => simp at ht
      | cons x xs => simp at ht; exact h1 ⟨ht.1.symm, by simp [← ht.2.1]⟩
    · exact h2 h

theorem noClose_unique {a b ra rb : Str} (ha : NoClose a) (hb : NoClose b)
    (h : a ++ '*' :: '/' :: ra = b ++ '*' :: '/' :: rb) : a = b ∧ ra = rb := by
  induction a generalizing b with
  | nil =>
    match b with
    | [] => simpa using h
    | [x] => simp at h
    | x :: y :: b =>
      simp at h
      rw [noClose_cons] at hb
      exact absurd ⟨h.1.symm, by simp [← h.2.1]⟩ hb.1
  | cons c a ih =>
    match b with
    | [] =>
      match a with
      | [] => simp at h
      | y :: a =>
        simp at h
        rw [noClose_cons] at ha
        exact absurd ⟨h.1, by simp [h.2.1]⟩ ha.1
    | x :: b =>
      simp at h
      obtain ⟨rfl, h⟩ := h
      have := ih (noClose_cons.1 ha).2 (noClose_cons.1 hb).2 h
      simpa using this

/-- A star that may start the end of the comment. -/
def pendingStar (closing : Bool) : Str := if closing then ['*'] else []

theorem takeComment_ok (cs : List Char) (closing : Bool) (acc : List Char) (line col : Nat) :
    ∀ {str s'}, takeComment cs closing acc line col = .ok (str, s') →
    ∃ body, pendingStar closing ++ cs = body ++ '*' :: '/' :: s'.rest ∧ NoClose body := by
  fun_induction takeComment cs closing acc line col with
  | case1 => simp
  | case2 =>
    rename_i col cs closing acc line acc' ih
    intro str s' h
    obtain ⟨body, h1, h2⟩ := ih h
    simp [pendingStar] at h1
    refine ⟨pendingStar closing ++ '\r' :: '\n' :: body, by simp [h1], ?_⟩
    cases closing <;> simp [pendingStar, noClose_cons, h2]
  | case3 n cs closing acc line col hne line' col' hpos hc =>
    intro str s' h
    simp at h
    obtain ⟨rfl, rfl⟩ := h
    obtain ⟨rfl, rfl⟩ := hc
    exact ⟨[], by simp [pendingStar], noClose_nil⟩
  | case4 =>
    rename_i cs closing acc line col line' col' hne hpos hc acc' ih
    intro str s' h
    obtain ⟨body, h1, h2⟩ := ih h
    simp only [pendingStar, if_true, List.cons_append, List.nil_append] at h1
    refine ⟨pendingStar closing ++ body, by simp [h1], ?_⟩
    cases closing with
    | false => simpa [pendingStar] using h2
    | true =>
      simp only [pendingStar, if_true, List.cons_append, List.nil_append, noClose_cons]
      refine ⟨?_, h2⟩
      rintro ⟨_, hb⟩
      cases body with
      | nil => simp at hb
      | cons x xs => simp at h1 hb; rw [hb] at h1; simp at h1
  | case5 =>
    rename_i n cs closing acc line col hne line' col' hpos hc acc' hn ih
    intro str s' h
    obtain ⟨body, h1, h2⟩ := ih h
    simp [pendingStar] at h1
    refine ⟨pendingStar closing ++ n :: body, by simp [h1], ?_⟩
    cases closing with
    | false => simp [pendingStar, noClose_cons, h2, hn]
    | true =>
      simp at hc
      simp [pendingStar, noClose_cons, h2, hn, hc]

theorem takeComment_error (cs : List Char) (closing : Bool) (acc : List Char) (line col : Nat) :
    ∀ {s'}, takeComment cs closing acc line col = .error s' →
    NoClose (pendingStar closing ++ cs) := by
  fun_induction takeComment cs closing acc line col with
  | case1 closing =>
    intros; cases closing <;> simp [pendingStar, noClose_cons, noClose_nil]
  | case2 =>
    rename_i col cs closing acc line acc' ih
    intro s' h
    have h2 := ih h
    simp [pendingStar] at h2
    cases closing <;> simp [pendingStar, noClose_cons, h2]
  | case3 n cs closing acc line col hne line' col' hpos hc =>
    intro s' h
    simp at h
  | case4 =>
    rename_i cs closing acc line col line' col' hne hpos hc acc' ih
    intro s' h
    have h2 := ih h
    simp only [pendingStar, if_true, List.cons_append, List.nil_append] at h2
    cases closing with
    | false => simpa [pendingStar] using h2
    | true =>
      simp only [pendingStar, if_true, List.cons_append, List.nil_append]
      rw [noClose_cons]
      exact ⟨by simp, h2⟩
  | case5 =>
    rename_i n cs closing acc line col hne line' col' hpos hc acc' hn ih
    intro s' h
    have h2 := ih h
    simp [pendingStar] at h2
    cases closing with
    | false => simp [pendingStar, noClose_cons, h2, hn]
    | true =>
      simp at hc
      simp [pendingStar, noClose_cons, h2, hn, hc]

theorem takeComment_spec {cs acc : List Char} {line col : Nat} {str s'}
    (h : takeComment cs false acc line col = .ok (str, s')) :
    ∃ body, cs = body ++ '*' :: '/' :: s'.rest ∧ NoClose body := by
  simpa [pendingStar] using takeComment_ok cs false acc line col h

theorem takeComment_append {body rest acc : List Char} {line col : Nat} (hb : NoClose body) :
    ∃ str s', takeComment (body ++ '*' :: '/' :: rest) false acc line col = .ok (str, s') ∧
      s'.rest = rest := by
  match h : takeComment (body ++ '*' :: '/' :: rest) false acc line col with
  | .error s' =>
    have := takeComment_error _ _ _ _ _ h
    exact absurd ⟨body, rest, by simp [pendingStar]⟩ this
  | .ok (str, s') =>
    obtain ⟨b', h1, h2⟩ := takeComment_spec h
    exact ⟨str, s', rfl, ((noClose_unique hb h2 h1).2).symm⟩

theorem takeComment_error_iff (cs acc : List Char) (line col : Nat) :
    (∃ s', takeComment cs false acc line col = .error s') ↔ NoClose cs := by
  constructor
  · rintro ⟨s', h⟩; simpa [pendingStar] using takeComment_error _ _ _ _ _ h
  · intro hn
    match h : takeComment cs false acc line col with
    | .error s' => exact ⟨s', rfl⟩
    | .ok (str, s') =>
      obtain ⟨b, hb, _⟩ := takeComment_spec h
      exact absurd ⟨b, s'.rest, by simp [hb]⟩ hn

end Verif
