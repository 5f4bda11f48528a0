/-
C08: the text of a block comment, exactly.
-/
import Verif.Props.Tokenizer
import Verif.Spec.CommentText
set_option maxRecDepth 100000

namespace Verif
open Spec

theorem unStar_cons {c : Char} (h : c ≠ '*') (cs : Str) : unStar (c :: cs) = c :: unStar cs := by
  rw [unStar.eq_def]; simp [h]

theorem unStar_star (cs : Str) : unStar ('*' :: '*' :: cs) = '*' :: unStar ('*' :: cs) := by
  rw [unStar]; simp

theorem unStar_other {c : Char} (h : c ≠ '*') (cs : Str) : unStar ('*' :: c :: cs) = c :: c :: unStar cs := by
  rw [unStar]; simp [h]

theorem unLf_cons {c : Char} {cs : Str} (h : ∀ ds, c = '\r' → cs = '\n' :: ds → False) :
    unLf (c :: cs) = c :: unLf cs := by
  rw [unLf]; simpa using h

/-- The loop of `tokenizeMultilineComment`; `closing` says that there is a star in front of the text. -/
theorem takeComment_exact (body rest : Str) (closing : Bool) (acc : Str) (line col : Nat)
    (h : NoClose (if closing then '*' :: body else body)) :
    takeComment (body ++ '*' :: '/' :: rest) closing acc line col =
      .ok (acc.reverse ++ unStar (if closing then '*' :: unLf body else unLf body),
        let q := (unLf body).foldl breakAdvance ⟨line, col⟩
        ⟨rest, q.line, q.col + 2⟩) := by
  induction hn : body.length using Nat.strongRecOn generalizing body closing acc line col with
  | _ n ih =>
    match body, hn with
    | [], _ =>
      cases closing <;> simp [takeComment, unLf, unStar]
    | c :: cs, hn =>
      by_cases hc : c = '\r' ∧ ∃ ds, cs = '\n' :: ds
      · obtain ⟨rfl, ds, rfl⟩ := hc
        have hcl : NoClose ds := by
          cases closing <;> simp [noClose_cons] at h <;> exact h
        have := ih ds.length (by subst hn; simp; omega) ds false
          ('\r' :: if closing then '\r' :: acc else acc) (line + 1) 1 (by simpa using hcl) rfl
        rw [List.cons_append, List.cons_append, takeComment, this]
        cases closing
        · simp [unLf, unStar_cons, breakAdvance]
        · simp only [unLf, if_true, Bool.false_eq_true, if_false]
          rw [unStar_other (by decide)]
          simp [breakAdvance]
      · have hcl : NoClose cs := by
          cases closing <;> simp [noClose_cons] at h
          · exact h.2
          · exact h.2.2
        have hlf : unLf (c :: cs) = c :: unLf cs :=
          unLf_cons fun ds h1 h2 => hc ⟨h1, ds, h2⟩
        have hadv : (if c = '\r' ∨ c = '\n' then (line + 1, 1) else (line, col + 1)) =
            ((breakAdvance ⟨line, col⟩ c).line, (breakAdvance ⟨line, col⟩ c).col) := by
          unfold breakAdvance; split <;> rfl
        have hsl : ¬ (closing = true ∧ c = '/') := by
          rintro ⟨rfl, rfl⟩
          simp [noClose_cons] at h
        have hnx : ∀ ds, c = '\r' → cs ++ '*' :: '/' :: rest = '\n' :: ds → False := by
          intro ds h1 h2
          cases cs with
          | nil => simp at h2
          | cons x xs => simp at h2; exact hc ⟨h1, xs, by rw [h2.1]⟩
        rw [List.cons_append, takeComment]
        · rw [hadv]
          simp only [hsl, if_false, hlf]
          by_cases hs : c = '*'
          · subst hs
            have := ih cs.length (by subst hn; simp) cs true (if closing then '*' :: acc else acc)
              (breakAdvance ⟨line, col⟩ '*').line (breakAdvance ⟨line, col⟩ '*').col
              (by cases closing
                  · simpa using h
                  · simp only [if_true] at h ⊢; exact (noClose_cons.1 h).2) rfl
            simp only [if_true, this]
            cases closing
            · simp
            · simp [unStar_star]
          · have := ih cs.length (by subst hn; simp) cs false (c :: if closing then c :: acc else acc)
              (breakAdvance ⟨line, col⟩ c).line (breakAdvance ⟨line, col⟩ c).col (by simpa using hcl) rfl
            simp only [hs, if_false, this]
            cases closing
            · simp [unStar_cons hs]
            · simp [unStar_other hs]
        · intro ds h1 h2; exact hnx ds h1 h2

/-- C08, exactly: for every body without `*/`, anywhere in a source text, the comment is one token whose text is the
body with every CR LF replaced by CR, and of every run of stars that is not at the end of the body one star lost and
the character behind the run doubled; tokenizing goes on behind the comment. -/
theorem C08_comment_text_exact {d : Dialect} (hd : Sane d) (keep : Bool) {body : Str} (hb : NoClose body) (rest : Str)
    (p : Pos) {fuel : Nat} (hf : body.length + rest.length + 4 ≤ fuel) :
    let q := (unLf body).foldl breakAdvance ⟨p.line, p.col + 2⟩
    let p' : Pos := ⟨q.line, q.col + 2⟩
    tokenizeFrom d keep (fuel + 1) ⟨'/' :: '*' :: (body ++ '*' :: '/' :: rest), p.line, p.col⟩ =
      (tokenizeFrom d keep fuel ⟨rest, p'.line, p'.col⟩).prepend
        (if keep then [⟨.comment (unStar (unLf body)), p, p'⟩] else []) := by
  intro q p'
  have hs := takeComment_exact body rest false [] p.line (p.col + 2) (by simpa using hb)
  simp only [Bool.false_eq_true, if_false, List.reverse_nil, List.nil_append] at hs
  have hrel : NextRel d ⟨'/' :: '*' :: (body ++ '*' :: '/' :: rest), p.line, p.col⟩
      (.comment (unStar (unLf body))) ⟨rest, p'.line, p'.col⟩ := NextRel.block _ _ _ _ _ hs
  rw [tokenizeFrom, scan, hrel.next hd (by simp; omega)]
  cases keep <;> simp [Tok.insignificant] <;>
    cases tokenizeFrom d _ fuel ⟨rest, p'.line, p'.col⟩ <;> rfl

theorem unLf_length (s : Str) : (unLf s).length ≤ s.length := by
  fun_induction unLf s <;> simp_all <;> omega

theorem unStar_length (s : Str) : (unStar s).length = s.length := by
  fun_induction unStar s <;> simp_all

theorem unLf_eq_iff (s : Str) : unLf s = s ↔ ¬ ['\r', '\n'] <:+: s := by
  fun_induction unLf s with
  | case1 cs ih =>
    have := unLf_length cs
    constructor
    · intro h
      have := congrArg List.length h
      simp at this; omega
    · intro h
      exact absurd ⟨[], cs, rfl⟩ h
  | case2 c cs hx ih =>
    rw [List.cons_inj_right, ih, List.infix_cons_iff]
    constructor
    · rintro h (h1 | h1)
      · obtain ⟨t, ht⟩ := h1
        simp at ht
        exact hx t ht.1.symm ht.2.symm
      · exact h h1
    · intro h h1; exact h (.inr h1)
  | case3 => simp

theorem unStar_eq_iff (s : Str) : unStar s = s ↔ ∃ a k, s = a ++ List.replicate k '*' ∧ '*' ∉ a := by
  fun_induction unStar s with
  | case1 => exact ⟨fun _ => ⟨[], 0, rfl, by simp⟩, fun _ => rfl⟩
  | case2 c cs hc ih =>
    rw [List.cons_inj_right, ih]
    constructor
    · rintro ⟨a, k, rfl, ha⟩
      exact ⟨c :: a, k, rfl, by simp [ha, Ne.symm hc]⟩
    · rintro ⟨a, k, h, ha⟩
      cases a with
      | nil =>
        cases k with
        | zero => simp at h
        | succ k => simp [List.replicate_succ] at h; exact absurd h.1 hc
      | cons x a =>
        simp at h ha
        exact ⟨a, k, h.2, ha.2⟩
  | case3 c hc =>
    have hc : c = '*' := by simpa using hc
    subst hc
    exact ⟨fun _ => ⟨[], 1, rfl, by simp⟩, fun _ => rfl⟩
  | case4 c hc ds ih =>
    have hc : c = '*' := by simpa using hc
    subst hc
    rw [List.cons_inj_right, ih]
    constructor
    · rintro ⟨a, k, h, ha⟩
      cases a with
      | nil => exact ⟨[], k + 1, by rw [h]; rfl, by simp⟩
      | cons x a => simp at h ha; exact absurd h.1 ha.1
    · rintro ⟨a, k, h, ha⟩
      cases a with
      | nil =>
        cases k with
        | zero => simp at h
        | succ k => exact ⟨[], k, by simpa [List.replicate_succ] using h, by simp⟩
      | cons x a => simp at h ha; exact absurd h.1 ha.1
  | case5 c hc d ds hd ih =>
    have hc : c = '*' := by simpa using hc
    subst hc
    constructor
    · intro h; simp at h; exact absurd h.1 hd
    · rintro ⟨a, k, h, ha⟩
      cases a with
      | nil =>
        match k with
        | 0 => simp at h
        | 1 => simp at h
        | k + 2 => simp [List.replicate_succ] at h; exact absurd h.1 hd
      | cons x a => simp at h ha; exact absurd h.1 ha.1

/-- C08: the text of a comment is preserved exactly if all stars of the body are at its end, and there is no CR LF
in it. -/
theorem C08_preserved_iff {d : Dialect} (hd : Sane d) {body : Str} (hb : NoClose body) :
    (∃ fuel p, tokenize d true fuel ('/' :: '*' :: (body ++ ['*', '/'])) = .ok [⟨.comment body, ⟨1, 1⟩, p⟩]) ↔
      PlainBody body := by
  have h := C08_comment_text_exact hd true hb [] ⟨1, 1⟩ (fuel := body.length + 4) (by simp)
  simp only [if_true] at h
  rw [tokenizeFrom_eof (s := ⟨[], _, _⟩) true (by omega) rfl] at h
  replace h : tokenize d true (body.length + 4 + 1) ('/' :: '*' :: (body ++ ['*', '/'])) =
    .ok [⟨.comment (unStar (unLf body)), ⟨1, 1⟩, _⟩] := h
  have key : unStar (unLf body) = body ↔ PlainBody body := by
    unfold PlainBody
    rw [← unLf_eq_iff]
    constructor
    · intro hu
      have h1 := unStar_length (unLf body)
      have h2 : unLf body = body := by
        have hl : (unLf body).length = body.length := by rw [← h1, hu]
        clear h h1 hu hb
        fun_induction unLf body with
        | case1 cs ih => have := unLf_length cs; simp at hl; omega
        | case2 c cs hx ih => rw [ih (by simpa using hl)]
        | case3 => rfl
      exact ⟨h2, (unStar_eq_iff body).1 (by rw [h2] at hu; exact hu)⟩
    · rintro ⟨h1, h2⟩
      rw [h1]; exact (unStar_eq_iff body).2 h2
  rw [← key]
  constructor
  · rintro ⟨fuel, p, hp⟩
    have h2 := C05_fuel_irrelevant (fuel := fuel) (fuel' := body.length + 4 + 1) (by rw [hp]; simp) (by rw [h]; simp)
    rw [hp, h] at h2
    simp at h2
    exact h2.1.symm
  · intro hu
    rw [hu] at h
    exact ⟨_, _, h⟩

/-- Both kinds of body exist. -/
example : NoClose (str% "a**b\r\n*\r\nc**") ∧
    unStar (unLf (str% "a**b\r\n*\r\nc**")) = str% "a*bb\r\r\rc**" ∧ ¬ PlainBody (str% "a**b\r\n*\r\nc**") := by
  refine ⟨by simp [noClose_cons, noClose_nil], by decide +kernel, ?_⟩
  rintro ⟨h, -⟩
  exact h ⟨str% "a**b", str% "*\r\nc**", rfl⟩

example : PlainBody (str% "a\rb\n**") := by
  refine ⟨?_, str% "a\rb\n", 2, rfl, by decide⟩
  rw [← unLf_eq_iff]; decide +kernel

end Verif
