/-
Exactly when `NewCommentMap` panics: the loop over the nodes, seen from the nodes that it asks for a position.
-/
import Verif.Proofs.CommentMap
import Verif.Proofs.CommentPlace

namespace Verif

/-- The groups have positions, and the last of them ends last, at `last`. -/
inductive Ends (last : Pos) : List CommentGroup → Prop
  | one {c : CommentGroup} {p : Pos} : c.pos? = some p → c.end? = some last → Ends last [c]
  | more {c : CommentGroup} {cs : List CommentGroup} {p e : Pos} : c.pos? = some p → c.end? = some e → ¬ last.lt e →
      Ends last cs → Ends last (c :: cs)

/-- `End` is defined for the nodes on the stack. -/
def StackOk (endOf : Tree → Option Pos) (s : CMState) : Prop := ∀ t ∈ s.stack, (endOf t).isSome

theorem popGroup_ok {endOf : Tree → Option Pos} {pos : Pos} {s : CMState} (h : StackOk endOf s) :
    ∃ s', popGroup endOf pos s = some s' ∧ StackOk endOf s' := by
  obtain ⟨r, hr⟩ := popNodes_total (endOf := endOf) (pos := pos) (st := s.stack) (top := none) h
  have hm := popNodes_mem (nodes := s.stack) (fun t ht => ht) (by simp) hr
  obtain ⟨top, st⟩ := r
  simp only [popGroup, hr]
  cases top with
  | none => exact ⟨_, rfl, fun t ht => h t (hm.2 t ht)⟩
  | some t =>
    obtain ⟨e, he⟩ := Option.isSome_iff_exists.1 (h t (hm.1 t rfl))
    exact ⟨{ s with stack := st, pg := some t, pgend := e }, by simp [he], fun t ht => h t (hm.2 t ht)⟩

theorem assocNode_some {pg p q : Option Tree} {a b c d e : Pos} (h : p.isSome ∨ q.isSome) :
    ∃ n, assocNode pg a p b q c d e = some n := by
  simp only [assocNode]
  split
  · rename_i hc; exact Option.isSome_iff_exists.1 hc.1
  · split
    · rename_i hc; exact Option.isSome_iff_exists.1 hc.1
    · rename_i hc
      cases q with
      | some q => exact ⟨q, rfl⟩
      | none =>
        refine absurd ?_ hc
        simp_all

/-- The inner loop returns if the node does not begin before the end of the last group, and otherwise leaves it. -/
theorem inner_last {endOf : Tree → Option Pos} {q p : Option Tree} {qpos pend last : Pos} (hpq : p.isSome ∨ q.isSome)
    {cs : List CommentGroup} (hcs : Ends last cs) : ∀ s : CMState, StackOk endOf s →
    (qpos.lt last → ∃ rest s', cmInner endOf q qpos p pend cs s = .next rest s' ∧ Ends last rest ∧ StackOk endOf s') ∧
    (¬ qpos.lt last → ∃ m, cmInner endOf q qpos p pend cs s = .ret m) := by
  induction hcs with
  | @one c rp hp he =>
    intro s hs
    constructor
    · intro hl
      refine ⟨[c], s, ?_, .one hp he, hs⟩
      simp only [cmInner, hp, he, (comparePos_lt_iff _ _).2 hl, ne_eq, not_true_eq_false, if_false]
    · intro hl
      obtain ⟨s', h1, h2⟩ := popGroup_ok (pos := rp) hs
      obtain ⟨n, hn⟩ := assocNode_some (pg := s'.pg) (a := s'.pgend) (b := pend) (c := qpos) (d := rp) (e := last) hpq
      exact ⟨s'.map.addComment n.id c, by simp only [cmInner, hp, he, ne_eq, mt (comparePos_lt_iff _ _).1 hl, not_false_eq_true, if_true, h1, hn]⟩
  | @more c cs rp e hp he hle hcs ih =>
    intro s hs
    by_cases hq : qpos.lt e
    · have hl : qpos.lt last := by unfold Pos.lt at *; omega
      refine ⟨fun _ => ⟨c :: cs, s, ?_, .more hp he hle hcs, hs⟩, fun h => absurd hl h⟩
      simp only [cmInner, hp, he, (comparePos_lt_iff _ _).2 hq, ne_eq, not_true_eq_false, if_false]
    · obtain ⟨s', h1, h2⟩ := popGroup_ok (pos := rp) hs
      obtain ⟨n, hn⟩ := assocNode_some (pg := s'.pg) (a := s'.pgend) (b := pend) (c := qpos) (d := rp) (e := e) hpq
      simp only [cmInner, hp, he, ne_eq, mt (comparePos_lt_iff _ _).1 hq, not_false_eq_true, if_true, h1, hn]
      exact ih _ h2

theorem pushNode_ok {posOf endOf : Tree → Option Pos} {t : Tree} {s : CMState} {p e : Pos} (h : StackOk endOf s)
    (hp : posOf t = some p) (he : endOf t = some e) : ∃ s', pushNode posOf endOf t s = some s' ∧ StackOk endOf s' := by
  simp only [pushNode]
  split
  · obtain ⟨r, hr⟩ := popNodes_total (endOf := endOf) (pos := p) (st := s.stack) (top := none) h
    have hm := popNodes_mem (nodes := s.stack) (fun t ht => ht) (by simp) hr
    refine ⟨_, by rw [hp, Option.bind_some, hr, Option.map_some], fun u hu => ?_⟩
    rcases List.mem_cons.1 hu with rfl | hu
    · rw [he]; rfl
    · exact h u (hm.2 u hu)
  · exact ⟨_, rfl, h⟩

theorem outer_panics {posOf endOf : Tree → Option Pos} {last : Pos} (hinf : ¬ infinityPos.lt last) :
    ∀ (qs : List Tree) (cs : List CommentGroup) (s : CMState) (p : Option Tree) (pend : Pos),
    (p.isSome ∨ qs ≠ []) → Ends last cs → StackOk endOf s →
    (cmOuter posOf endOf (qs.map some ++ [none]) cs s p pend = .panic ↔
      ∃ pre t post, qs = pre ++ t :: post ∧ (∀ u ∈ pre, ∃ p, posOf u = some p ∧ p.lt last ∧ (endOf u).isSome) ∧
        (posOf t = none ∨ endOf t = none ∧ ∃ p, posOf t = some p ∧ p.lt last)) := by
  intro qs
  induction qs with
  | nil =>
    intro cs s p pend hp hcs hs
    have hp' : p.isSome := by rcases hp with h | h; exact h; exact absurd rfl h
    obtain ⟨m, hm⟩ := (inner_last (qpos := infinityPos) (pend := pend) (q := none) (.inl hp') hcs s hs).2 hinf
    simp only [List.map_nil, List.nil_append, cmOuter, nodePos, hm]
    simp
  | cons q qs ih =>
    intro cs s p pend hp hcs hs
    simp only [List.map_cons, List.cons_append, cmOuter, nodePos]
    cases hpos : posOf q with
    | none => simp only [true_iff]; exact ⟨[], q, qs, rfl, by simp, .inl hpos⟩
    | some qpos =>
      obtain ⟨h1, h2⟩ := inner_last (qpos := qpos) (pend := pend) (p := p) (q := some q) (.inr rfl) hcs s hs
      by_cases hl : qpos.lt last
      · obtain ⟨rest, s', h1, h3, h4⟩ := h1 hl
        simp only [h1]
        cases he : endOf q with
        | none =>
          simp only [true_iff]
          exact ⟨[], q, qs, rfl, by simp, .inr ⟨he, qpos, hpos, hl⟩⟩
        | some e =>
          obtain ⟨s2, h5, h6⟩ := pushNode_ok h4 hpos he
          simp only [h5]
          rw [ih rest s2 (some q) e (.inl rfl) h3 h6]
          constructor
          · rintro ⟨pre, t, post, rfl, ha, hb⟩
            refine ⟨q :: pre, t, post, rfl, fun u hu => ?_, hb⟩
            rcases List.mem_cons.1 hu with rfl | hu
            · exact ⟨qpos, hpos, hl, by rw [he]; rfl⟩
            · exact ha u hu
          · rintro ⟨pre, t, post, hq, ha, hb⟩
            cases pre with
            | nil =>
              cases hq
              rcases hb with hb | ⟨hb, -⟩
              · rw [hb] at hpos; cases hpos
              · rw [hb] at he; cases he
            | cons u pre =>
              cases hq
              exact ⟨pre, t, post, rfl, fun v hv => ha v (List.mem_cons_of_mem _ hv), hb⟩
      · obtain ⟨m, hm⟩ := h2 hl
        simp only [hm, reduceCtorEq, false_iff]
        rintro ⟨pre, t, post, hq, ha, hb⟩
        cases pre with
        | nil =>
          cases hq
          rcases hb with hb | ⟨-, p', hb, hl'⟩
          · rw [hb] at hpos; cases hpos
          · rw [hb] at hpos; cases hpos; exact hl hl'
        | cons u pre =>
          cases hq
          obtain ⟨p', hb, hl', -⟩ := ha _ List.mem_cons_self
          rw [hb] at hpos; cases hpos; exact hl hl'

/-- The first of several such nodes is one whose predecessors have an `End`. -/
theorem panicNode_first {posOf endOf : Tree → Option Pos} {last : Pos} : ∀ {nodes : List Tree},
    PanicNode posOf endOf last nodes ↔ ∃ pre t post, nodes = pre ++ t :: post ∧
      (∀ u ∈ pre, ∃ p, posOf u = some p ∧ p.lt last ∧ (endOf u).isSome) ∧
        (posOf t = none ∨ endOf t = none ∧ ∃ p, posOf t = some p ∧ p.lt last)
  | [] => by
    constructor
    · rintro ⟨pre, t, post, h, -⟩; simp at h
    · rintro ⟨pre, t, post, h, -⟩; simp at h
  | n :: nodes => by
    constructor
    · rintro ⟨pre, t, post, h, ha, hb⟩
      cases pre with
      | nil => exact ⟨[], t, post, h, by simp, hb⟩
      | cons u pre =>
        cases h
        obtain ⟨p, hp, hl⟩ := ha n List.mem_cons_self
        cases he : endOf n with
        | none => exact ⟨[], n, _, rfl, by simp, .inr ⟨he, p, hp, hl⟩⟩
        | some e =>
          obtain ⟨pre', t', post', h', ha', hb'⟩ := panicNode_first.1
            ⟨pre, t, post, rfl, fun v hv => ha v (List.mem_cons_of_mem _ hv), hb⟩
          refine ⟨n :: pre', t', post', congrArg (n :: ·) h', fun v hv => ?_, hb'⟩
          rcases List.mem_cons.1 hv with rfl | hv
          · exact ⟨p, hp, hl, by rw [he]; rfl⟩
          · exact ha' v hv
    · rintro ⟨pre, t, post, h, ha, hb⟩
      exact ⟨pre, t, post, h, fun u hu => by obtain ⟨p, h1, h2, -⟩ := ha u hu; exact ⟨p, h1, h2⟩, hb⟩

end Verif
