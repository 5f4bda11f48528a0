import Verif.Spec.CommentPlace
import Verif.Proofs.CommentMap
set_option linter.unusedSimpArgs false
/-
Lemmas about the place of comments in `NewCommentMap`.
-/
namespace Verif

theorem comparePos_gt_iff (p q : Pos) : comparePos p q = 1 ↔ q.lt p := by
  unfold comparePos Pos.lt; repeat' split
  all_goals simp <;> omega

theorem isGroup_iff (t : Tree) : pushedKinds.contains t.kind = true ↔ t.isGroup := by
  simp only [Tree.isGroup, pushedKinds, List.contains_iff_mem]

theorem popNodes_split {endOf : Tree → Option Pos} {pos : Pos} : ∀ {st : List Tree} {top : Option Tree}
    {r : Option Tree × List Tree}, popNodes endOf pos st top = some r →
    ∃ gone, st = gone ++ r.2 ∧ (∀ t ∈ gone, ∃ e, endOf t = some e ∧ ¬ pos.lt e) ∧
      (∀ t, r.2.head? = some t → ∃ e, endOf t = some e ∧ pos.lt e) ∧
      r.1 = if gone = [] then top else gone.getLast? := by
  intro st
  induction st with
  | nil =>
    intro top r h
    simp only [popNodes, Option.some.injEq] at h
    subst h
    exact ⟨[], rfl, by simp, by simp, by simp⟩
  | cons t ts ih =>
    intro top r h
    simp only [popNodes] at h
    cases he : endOf t with
    | none => rw [he] at h; simp at h
    | some e =>
      simp only [he] at h
      by_cases hc : comparePos e pos = 1
      · simp only [hc, ne_eq, not_true_eq_false, if_false, Option.some.injEq] at h
        subst h
        exact ⟨[], rfl, by simp, fun u hu => by simp at hu; subst hu; exact ⟨e, he, (comparePos_gt_iff _ _).1 hc⟩, by simp⟩
      · simp only [hc, ne_eq, not_false_eq_true, if_true] at h
        obtain ⟨gone, h1, h2, h3, h4⟩ := ih h
        refine ⟨t :: gone, by rw [h1]; rfl, ?_, h3, ?_⟩
        · intro u hu
          rcases List.mem_cons.1 hu with rfl | hu
          · exact ⟨e, he, fun hl => hc ((comparePos_gt_iff _ _).2 hl)⟩
          · exact h2 u hu
        · rw [h4]
          cases gone with
          | nil => simp
          | cons x xs => simp [List.getLast?_cons_cons]

/-- A node of the stack that has not ended stays, with everything below. -/
theorem popNodes_keep {endOf : Tree → Option Pos} {pos : Pos} {l : List Tree} {u : Tree} {below : List Tree} {e : Pos}
    (he : endOf u = some e) (hl : pos.lt e) {r : Option Tree × List Tree}
    (h : popNodes endOf pos (l ++ u :: below) none = some r) : ∃ l', r.2 = l' ++ u :: below ∧ ∀ t ∈ l', t ∈ l := by
  obtain ⟨gone, h1, h2, -, -⟩ := popNodes_split h
  rcases List.append_eq_append_iff.1 h1 with ⟨m, hm1, hm2⟩ | ⟨m, hm1, hm2⟩
  · -- gone = l ++ m
    cases m with
    | nil => exact ⟨[], by simpa using hm2.symm, by simp⟩
    | cons x m =>
      simp at hm2
      obtain ⟨rfl, -⟩ := hm2
      obtain ⟨e', he', hn⟩ := h2 u (by rw [hm1]; simp)
      rw [he] at he'
      cases he'
      exact absurd hl hn
  · -- l = gone ++ m
    exact ⟨m, hm2, fun t ht => by rw [hm1]; simp [ht]⟩

/-- If all nodes on the stack have ended, the lowest one is the result. -/
theorem popNodes_all {endOf : Tree → Option Pos} {pos : Pos} {st : List Tree}
    (hst : ∀ t ∈ st, ∀ e, endOf t = some e → ¬ pos.lt e) {top : Option Tree} {r : Option Tree × List Tree}
    (h : popNodes endOf pos st top = some r) : r.2 = [] ∧ r.1 = if st = [] then top else st.getLast? := by
  obtain ⟨gone, h1, h2, h3, h4⟩ := popNodes_split h
  have hr : r.2 = [] := by
    cases hr : r.2 with
    | nil => rfl
    | cons t ts =>
      obtain ⟨e, he, hl⟩ := h3 t (by rw [hr]; rfl)
      exact absurd hl (hst t (by rw [h1, hr]; simp) e he)
  rw [hr, List.append_nil] at h1
  exact ⟨hr, by rw [h4, h1]⟩

/-- What is known about the state while the comments `cs` remain and the nodes `prev` have been seen. -/
structure PlaceInv (endOf : Tree → Option Pos) (prev : List Tree) (cs : List CommentGroup) (s : CMState) : Prop where
  pg : ∀ t, s.pg = some t → t ∈ prev ∧ t.isGroup ∧ endOf t = some s.pgend ∧
    ∀ c ∈ cs, ∀ p, c.pos? = some p → ¬ p.lt s.pgend
  stack : ∀ t ∈ s.stack, t ∈ prev ∧ t.isGroup

/-- The lowest node of the stack is the last statement that is in no other one. -/
def LowInv (posOf endOf : Tree → Option Pos) (prev : List Tree) (s : CMState) : Prop :=
  ∀ front u behind, prev = front ++ u :: behind → TopLevel posOf endOf front u behind →
    ∃ l, s.stack = l ++ [u] ∧ ∀ t ∈ l, t ∈ behind ∧ t.isGroup

/-- The same while comments in front of `qpos` are attached. -/
def LowInv' (posOf endOf : Tree → Option Pos) (prev : List Tree) (qpos : Pos) (s : CMState) : Prop :=
  ∀ front u behind, prev = front ++ u :: behind → TopLevel posOf endOf front u behind →
    (∃ l, s.stack = l ++ [u] ∧ ∀ t ∈ l, t ∈ behind ∧ t.isGroup) ∨
    (s.stack = [] ∧ s.pg = some u ∧ ∀ e, endOf u = some e → ¬ qpos.lt e)

theorem popGroup_place {posOf endOf : Tree → Option Pos} {prev : List Tree} {c : CommentGroup}
    {cs : List CommentGroup} {rpos rend qpos : Pos} {s s' : CMState} (hc : InOrder (c :: cs))
    (hp : c.pos? = some rpos) (he : c.end? = some rend) (hq : ¬ qpos.lt rend)
    (hi : PlaceInv endOf prev (c :: cs) s) (hl : LowInv' posOf endOf prev qpos s)
    (h : popGroup endOf rpos s = some s') :
    PlaceInv endOf prev (c :: cs) s' ∧ LowInv' posOf endOf prev qpos s' ∧ s'.map = s.map ∧
    ∀ front u behind e, prev = front ++ u :: behind → TopLevel posOf endOf front u behind → endOf u = some e →
      ¬ rpos.lt e → s'.pg = some u := by
  have hord : rpos.lt rend := by
    obtain ⟨p, e, h1, h2, h3⟩ := hc.1 c (List.mem_cons_self ..)
    rw [hp] at h1; rw [he] at h2; cases h1; cases h2; exact h3
  have hge : ∀ {x : Pos}, ¬ rpos.lt x → ∀ d ∈ c :: cs, ∀ p, d.pos? = some p → ¬ p.lt x := by
    intro x hx d hd p hdp
    rcases List.mem_cons.1 hd with rfl | hd
    · rw [hp] at hdp; cases hdp; exact hx
    · have h1 := (List.pairwise_cons.1 hc.2).1 d hd rend p he hdp
      unfold Pos.lt at *; omega
  simp only [popGroup] at h
  cases hr : popNodes endOf rpos s.stack none with
  | none => rw [hr] at h; simp at h
  | some r =>
    obtain ⟨top, st⟩ := r
    obtain ⟨gone, g1, g2, g3, g4⟩ := popNodes_split hr
    simp only at g1 g3 g4
    have hst : ∀ t ∈ st, t ∈ prev ∧ t.isGroup := fun t ht => hi.stack t (by rw [g1]; simp [ht])
    -- what happens to the lowest node
    have hlow : ∀ front u behind e, prev = front ++ u :: behind → TopLevel posOf endOf front u behind →
        endOf u = some e →
        (rpos.lt e ∧ ∃ l, st = l ++ [u] ∧ ∀ t ∈ l, t ∈ behind ∧ t.isGroup) ∨
        (¬ rpos.lt e ∧ st = [] ∧ (top = some u ∨ top = none ∧ s.pg = some u)) := by
      intro front u behind e hsp htl heu
      rcases hl front u behind hsp htl with ⟨l, l1, l2⟩ | ⟨l1, l2, l3⟩
      · rw [l1] at hr
        by_cases hlt : rpos.lt e
        · obtain ⟨l', k1, k2⟩ := popNodes_keep heu hlt hr
          exact .inl ⟨hlt, l', k1, fun t ht => l2 t (k2 t ht)⟩
        · have := popNodes_all (by
            intro t ht e' he'
            rcases List.mem_append.1 ht with ht | ht
            · have := htl.ends t (l2 t ht).1 (l2 t ht).2 e' e he' heu
              unfold Pos.lt at *; omega
            · simp at ht; subst ht; rw [heu] at he'; cases he'; exact hlt) hr
          exact .inr ⟨hlt, this.1, .inl (by have h2 := this.2; simpa using h2)⟩
      · rw [l1] at hr
        simp only [popNodes, Option.some.injEq, Prod.mk.injEq] at hr
        have := l3 e heu
        refine .inr ⟨?_, hr.2.symm, .inr ⟨hr.1.symm, l2⟩⟩
        have h3 := (hi.pg u l2).2.2
        rw [heu] at h3
        have h4 := h3.2 c (List.mem_cons_self ..) rpos hp
        have h5 := h3.1
        cases h5
        exact h4
    rw [hr] at h
    cases top with
    | none =>
      simp only [Option.some.injEq] at h
      subst h
      refine ⟨⟨hi.pg, hst⟩, ?_, rfl, ?_⟩
      · intro front u behind hsp htl
        rcases hl front u behind hsp htl with ⟨l, l1, l2⟩ | ⟨l1, l2, l3⟩
        · have hgone : gone = [] := by
            cases gone with
            | nil => rfl
            | cons x xs => simp [List.getLast?_eq_some_getLast] at g4
          rw [hgone] at g1
          exact .inl ⟨l, by rw [← l1, g1]; rfl, l2⟩
        · have hst : st = [] := by rw [l1] at g1; simp at g1; exact g1.2
          exact .inr ⟨hst, l2, l3⟩
      · intro front u behind e hsp htl heu hnl
        rcases hlow front u behind e hsp htl heu with ⟨h1, -⟩ | ⟨-, -, h2 | ⟨-, h2⟩⟩
        · exact absurd h1 hnl
        · cases h2
        · exact h2
    | some t =>
      simp only [Option.map_eq_some_iff] at h
      obtain ⟨e, he', h⟩ := h
      subst h
      have htg : t ∈ gone := by
        by_cases hg : gone = []
        · simp [hg] at g4
        · simp only [hg, if_false] at g4
          exact List.mem_of_getLast? g4.symm
      obtain ⟨e2, he2, hn2⟩ := g2 t htg
      rw [he'] at he2
      cases he2
      have ht := hi.stack t (by rw [g1]; simp [htg])
      refine ⟨⟨?_, hst⟩, ?_, rfl, ?_⟩
      · intro u hu
        simp only [Option.some.injEq] at hu
        subst hu
        exact ⟨ht.1, ht.2, he', hge hn2⟩
      · intro front u behind hsp htl
        cases heu : endOf u with
        | none =>
          -- the lowest node has no end: it is still there
          rcases hl front u behind hsp htl with ⟨l, l1, l2⟩ | ⟨l1, l2, l3⟩
          · have hnot : u ∉ gone := by
              intro hu
              obtain ⟨e3, he3, -⟩ := g2 u hu
              rw [heu] at he3; cases he3
            rw [l1] at g1
            rcases List.append_eq_append_iff.1 g1 with ⟨m, hm1, hm2⟩ | ⟨m, hm1, hm2⟩
            · cases m with
              | nil => exact .inl ⟨[], by simpa using hm2.symm, by simp⟩
              | cons x m =>
                simp at hm2
                exact absurd (by rw [hm1, hm2.1]; simp) hnot
            · exact .inl ⟨m, hm2, fun t ht => l2 t (by rw [hm1]; simp [ht])⟩
          · have := (hi.pg u l2).2.2.1
            rw [heu] at this; cases this
        | some e3 =>
          rcases hlow front u behind e3 hsp htl heu with ⟨-, h1⟩ | ⟨h1, h2, h3 | ⟨h3, -⟩⟩
          · exact .inl h1
          · refine .inr ⟨h2, h3, fun e4 he4 => ?_⟩
            cases he4
            unfold Pos.lt at *; omega
          · cases h3
      · intro front u behind e3 hsp htl heu hnl
        rcases hlow front u behind e3 hsp htl heu with ⟨h1, -⟩ | ⟨-, -, h2 | ⟨h2, -⟩⟩
        · exact absurd h1 hnl
        · exact h2
        · cases h2

theorem Attached.snoc {posOf endOf : Tree → Option Pos} {nodes : List Tree} {cs : List CommentGroup} {m : CommentMap}
    (h : Attached posOf endOf nodes cs m) {t : Tree} {c : CommentGroup} (ht : Belongs posOf endOf nodes c t) :
    Attached posOf endOf nodes (cs ++ [c]) (m.addComment t.id c) := by
  obtain ⟨ns, h1, h2, h3⟩ := h
  refine ⟨ns ++ [t], by simp [h1], ?_, ?_⟩
  · intro x hx
    rw [List.zip_append h1.symm] at hx
    rcases List.mem_append.1 hx with hx | hx
    · exact h2 x hx
    · simp at hx; subst hx; exact ht
  · intro n
    rw [List.map_append, List.map_singleton, attached_snoc n t.id c _ cs (by simp [h1]), CommentMap.addComment]
    by_cases hn : n = t.id
    · subst hn; simp [h3]
    · rw [if_neg hn, if_neg (fun h => hn h.symm), h3]; simp

theorem InOrder.tail {c : CommentGroup} {cs : List CommentGroup} (h : InOrder (c :: cs)) : InOrder cs :=
  ⟨fun d hd => h.1 d (List.mem_cons_of_mem _ hd), (List.pairwise_cons.1 h.2).2⟩

theorem PlaceInv.tail {endOf : Tree → Option Pos} {prev : List Tree} {c : CommentGroup} {cs : List CommentGroup}
    {s : CMState} (h : PlaceInv endOf prev (c :: cs) s) (m : CommentMap) :
    PlaceInv endOf prev cs { s with map := m } :=
  ⟨fun t ht => let x := h.pg t ht; ⟨x.1, x.2.1, x.2.2.1, fun d hd => x.2.2.2 d (List.mem_cons_of_mem _ hd)⟩, h.stack⟩

theorem inner_place {posOf endOf : Tree → Option Pos} {nodes prev next : List Tree} {qpos pend : Pos}
    (hn : nodes = prev ++ next) (hq : nodePos posOf next.head? = some qpos)
    (hpe : ∀ t, prev.getLast? = some t → endOf t = some pend) :
    ∀ (cs done : List CommentGroup) (s : CMState), InOrder cs →
    (∀ c ∈ cs, ∀ e, c.end? = some e → e.line + 1 < 2 ^ 30) →
    (∀ c ∈ cs, ∀ e, c.end? = some e → ∀ t ∈ prev, ∀ p, posOf t = some p → p.lt e) →
    PlaceInv endOf prev cs s → LowInv' posOf endOf prev qpos s → Attached posOf endOf nodes done s.map →
    match cmInner endOf next.head? qpos prev.getLast? pend cs s with
    | .ret m => Attached posOf endOf nodes (done ++ cs) m
    | .next rest s' => ∃ used, cs = used ++ rest ∧ InOrder rest ∧ PlaceInv endOf prev rest s' ∧
        LowInv' posOf endOf prev qpos s' ∧ Attached posOf endOf nodes (done ++ used) s'.map ∧
        ∀ c ∈ rest, ∀ e, c.end? = some e → qpos.lt e
    | .panic => True := by
  intro cs
  induction cs with
  | nil => intro done s _ _ _ _ _ h; simpa [cmInner] using h
  | cons c cs ih =>
    intro done s hord hinf hprev hi hl hat
    simp only [cmInner]
    cases hcp : c.pos? with
    | none => trivial
    | some rpos =>
      cases hce : c.end? with
      | none => trivial
      | some rend =>
        simp only
        by_cases hcmp : comparePos qpos rend ≠ -1
        · rw [if_pos hcmp]
          cases hpg : popGroup endOf rpos s with
          | none => trivial
          | some s1 =>
            have hcmp' : ¬ qpos.lt rend := fun h => hcmp ((comparePos_lt_iff _ _).2 h)
            obtain ⟨i1, i2, i3, i4⟩ := popGroup_place hord hcp hce hcmp' hi hl hpg
            simp only
            cases ha : assocNode s1.pg s1.pgend prev.getLast? pend next.head? qpos rpos rend with
            | none => trivial
            | some n =>
              have hfol : ∀ e : Pos, FollowsOn e rpos rend (next.head?.bind posOf) ↔
                  (e.line = rpos.line ∨ e.line + 1 = rpos.line ∧ rend.line + 1 < qpos.line) := by
                intro e
                have hb : rend.line + 1 < qpos.line ↔ ∀ p, next.head?.bind posOf = some p → rend.line + 1 < p.line := by
                  cases hh : next.head? with
                  | none =>
                    rw [hh] at hq
                    simp only [nodePos, Option.some.injEq] at hq
                    subst hq
                    have := hinf c (List.mem_cons_self ..) rend hce
                    simpa [infinityPos] using this
                  | some t =>
                    rw [hh] at hq
                    simp only [nodePos] at hq
                    simp [hq]
                rw [FollowsOn, hb]
              have hbel : Belongs posOf endOf nodes c n := by
                refine ⟨prev, next, rpos, rend, hcp, hce,
                  ⟨hn, hprev c (List.mem_cons_self ..) rend hce, ?_⟩, ?_, ?_⟩
                · intro t ht p hp
                  rw [ht] at hq
                  simp only [nodePos] at hq
                  rw [hq] at hp; cases hp; exact hcmp'
                · simp only [hfol]
                  simp only [assocNode] at ha
                  split at ha
                  · rename_i hc1
                    obtain ⟨x1, x2, x3, x4⟩ := i1.pg n ha
                    exact .inl ⟨x1, x2, _, x3, x4 c (List.mem_cons_self ..) rpos hcp, hc1.2⟩
                  · split at ha
                    · rename_i hc2
                      refine .inr (.inl ⟨ha, _, hpe n ha, ?_⟩)
                      rcases hc2.2 with h | h | h
                      · exact .inl (.inl h)
                      · exact .inl (.inr h)
                      · exact .inr (by cases next with
                          | nil => rfl
                          | cons => simp at h)
                    · rename_i hc2
                      refine .inr (.inr ⟨ha, fun t e ht he hf => hc2 ⟨by rw [ht]; rfl, ?_⟩⟩)
                      have := hpe t ht
                      rw [he] at this
                      cases this
                      rcases hf with h | h
                      · exact .inl h
                      · exact .inr (.inl h)
                · intro front u behind e hsp htl heu hnl hf
                  have hpu := i4 front u behind e hsp htl heu hnl
                  have hpe2 := (i1.pg u hpu).2.2.1
                  rw [heu] at hpe2
                  simp only [Option.some.injEq] at hpe2
                  simp only [assocNode] at ha
                  rw [if_pos ⟨by rw [hpu]; rfl, by rw [← hpe2]; exact (hfol e).1 hf⟩, hpu] at ha
                  cases ha; rfl
              have := ih (done ++ [c]) { s1 with map := s1.map.addComment n.id c } hord.tail
                (fun d hd => hinf d (List.mem_cons_of_mem _ hd)) (fun d hd => hprev d (List.mem_cons_of_mem _ hd))
                (i1.tail _) i2 (by simp only [i3]; exact hat.snoc hbel)
              revert this
              simp only
              generalize cmInner endOf next.head? qpos prev.getLast? pend cs _ = o
              intro this
              cases o with
              | panic => trivial
              | ret m => simpa using this
              | next rest s' =>
                obtain ⟨used, hu, hx⟩ := this
                exact ⟨c :: used, by rw [hu]; rfl, by simpa using hx⟩
        · rw [if_neg hcmp]
          have hlt : qpos.lt rend := by
            by_cases h : qpos.lt rend
            · exact h
            · exact absurd (fun h' => h ((comparePos_lt_iff _ _).1 h')) hcmp
          refine ⟨[], rfl, hord, hi, hl, by simpa using hat, ?_⟩
          intro d hd e hde
          rcases List.mem_cons.1 hd with rfl | hd
          · rw [hce] at hde; cases hde; exact hlt
          · obtain ⟨p, e', hdp, hde', hpe'⟩ := hord.1 d (List.mem_cons_of_mem _ hd)
            rw [hde] at hde'; cases hde'
            have := (List.pairwise_cons.1 hord.2).1 d hd rend p hce hdp
            unfold Pos.lt at *; omega

theorem pushNode_place {posOf endOf : Tree → Option Pos} {prev : List Tree} {t : Tree} {cs : List CommentGroup}
    {qpos : Pos} {s s' : CMState} (hq : posOf t = some qpos) (hi : PlaceInv endOf prev cs s)
    (hl : LowInv' posOf endOf prev qpos s) (h : pushNode posOf endOf t s = some s') {te : Pos} (hte : endOf t = some te)
    (hends : ∀ u ∈ prev, ∃ e, endOf u = some e) :
    PlaceInv endOf (prev ++ [t]) cs s' ∧ LowInv posOf endOf (prev ++ [t]) s' ∧ s'.map = s.map := by
  have hpg : ∀ {st : List Tree}, (∀ u ∈ st, u ∈ prev ++ [t] ∧ u.isGroup) →
      PlaceInv endOf (prev ++ [t]) cs { s with stack := st } := by
    intro st hst
    refine ⟨fun u hu => ?_, hst⟩
    obtain ⟨h1, h2⟩ := hi.pg u hu
    exact ⟨by simp [h1], h2⟩
  -- a node that `t` belongs to is still on the stack
  have hlow : ∀ front u behind e, prev = front ++ u :: behind → TopLevel posOf endOf front u (behind ++ [t]) →
      endOf u = some e → qpos.lt e ∧ ∃ l, s.stack = l ++ [u] ∧ ∀ x ∈ l, x ∈ behind ∧ x.isGroup := by
    intro front u behind e hsp htl heu
    have hlt := htl.starts t (by simp) qpos e hq heu
    refine ⟨hlt, ?_⟩
    have htl' : TopLevel posOf endOf front u behind :=
      ⟨htl.group, htl.front, fun x hx => htl.starts x (by simp [hx]), fun x hx => htl.ends x (by simp [hx])⟩
    rcases hl front u behind hsp htl' with h1 | ⟨-, -, h3⟩
    · exact h1
    · exact absurd hlt (h3 e heu)
  simp only [pushNode] at h
  split at h
  · rename_i hk
    have hgr := (isGroup_iff t).1 hk
    simp only [hq, Option.bind_some, Option.map_eq_some_iff] at h
    obtain ⟨r, hr, rfl⟩ := h
    obtain ⟨gone, g1, g2, -, -⟩ := popNodes_split hr
    refine ⟨hpg ?_, ?_, rfl⟩
    · intro u hu
      rcases List.mem_cons.1 hu with rfl | hu
      · exact ⟨by simp, hgr⟩
      · obtain ⟨h1, h2⟩ := hi.stack u (by rw [g1]; simp [hu])
        exact ⟨by simp [h1], h2⟩
    · intro front u behind hsp htl
      rcases List.eq_nil_or_concat behind with rfl | ⟨b, x, rfl⟩
      · have := List.append_inj' hsp (by simp)
        obtain ⟨rfl, hu⟩ := this
        simp at hu
        subst hu
        have := popNodes_all (by
          intro x hx e he
          obtain ⟨h1, h2⟩ := hi.stack x hx
          exact htl.front x h1 h2 e qpos he hq) hr
        exact ⟨[], by simp [this.1], by simp⟩
      · have h1 := List.append_inj' (s₁ := prev) (t₁ := [t]) (s₂ := front ++ u :: b) (t₂ := [x])
          (by simpa using hsp) (by simp)
        obtain ⟨hsp', hx⟩ := h1
        simp at hx
        subst hx
        obtain ⟨e, heu⟩ := hends u (by rw [hsp']; simp)
        obtain ⟨hlt, l, l1, l2⟩ := hlow front u b e hsp' (by simpa using htl) heu
        rw [l1] at hr
        obtain ⟨l', k1, k2⟩ := popNodes_keep heu hlt hr
        refine ⟨t :: l', by simp [k1], ?_⟩
        intro y hy
        rcases List.mem_cons.1 hy with rfl | hy
        · exact ⟨by simp, hgr⟩
        · obtain ⟨m1, m2⟩ := l2 y (k2 y hy)
          exact ⟨by simp [m1], m2⟩
  · rename_i hk
    simp only [Option.some.injEq] at h
    subst h
    refine ⟨hpg (fun u hu => ?_), ?_, rfl⟩
    · obtain ⟨h1, h2⟩ := hi.stack u hu
      exact ⟨by simp [h1], h2⟩
    · intro front u behind hsp htl
      rcases List.eq_nil_or_concat behind with rfl | ⟨b, x, rfl⟩
      · have := List.append_inj' hsp (by simp)
        obtain ⟨rfl, hu⟩ := this
        simp at hu
        subst hu
        exact absurd ((isGroup_iff _).2 htl.group) hk
      · have h1 := List.append_inj' (s₁ := prev) (t₁ := [t]) (s₂ := front ++ u :: b) (t₂ := [x])
          (by simpa using hsp) (by simp)
        obtain ⟨hsp', hx⟩ := h1
        simp at hx
        subst hx
        obtain ⟨e, heu⟩ := hends u (by rw [hsp']; simp)
        obtain ⟨hlt, l, l1, l2⟩ := hlow front u b e hsp' (by simpa using htl) heu
        exact ⟨l, l1, fun y hy => by obtain ⟨m1, m2⟩ := l2 y hy; exact ⟨by simp [m1], m2⟩⟩

theorem outer_place {posOf endOf : Tree → Option Pos} {nodes : List Tree} :
    ∀ (next prev : List Tree) (cs done : List CommentGroup) (s : CMState) (pend : Pos) (m : Option CommentMap),
    nodes = prev ++ next → (∀ t, prev.getLast? = some t → endOf t = some pend) →
    (∀ t ∈ prev, ∃ e, endOf t = some e) → InOrder cs →
    (∀ c ∈ cs, ∀ e, c.end? = some e → e.line + 1 < 2 ^ 30) →
    (∀ c ∈ cs, ∀ e, c.end? = some e → ∀ t ∈ prev, ∀ p, posOf t = some p → p.lt e) →
    PlaceInv endOf prev cs s → LowInv posOf endOf prev s → Attached posOf endOf nodes done s.map →
    cmOuter posOf endOf (next.map some ++ [none]) cs s prev.getLast? pend = .ret m →
    ∃ m', m = some m' ∧ Attached posOf endOf nodes (done ++ cs) m' := by
  intro next
  induction next with
  | nil =>
    intro prev cs done s pend m hn hpe hends hord hinf hprev hi hl hat h
    simp only [List.map_nil, List.nil_append, cmOuter, nodePos] at h
    have hin := inner_place (next := []) (qpos := infinityPos) hn rfl hpe cs done s hord hinf hprev hi
      (fun f u b h1 h2 => .inl (hl f u b h1 h2)) hat
    simp only [List.head?_nil] at hin
    cases hr : cmInner endOf none infinityPos prev.getLast? pend cs s with
    | panic => simp [hr] at h
    | ret m' =>
      rw [hr] at hin
      simp only [hr, CMOut.ret.injEq] at h
      exact ⟨m', h.symm, hin⟩
    | next rest s1 => simp [hr] at h
  | cons q next ih =>
    intro prev cs done s pend m hn hpe hends hord hinf hprev hi hl hat h
    simp only [List.map_cons, List.cons_append, cmOuter, nodePos] at h
    cases hpos : posOf q with
    | none => simp only [hpos] at h; cases h
    | some qpos =>
      simp only [hpos] at h
      have hin := inner_place (next := q :: next) (qpos := qpos) hn hpos hpe cs done s hord hinf hprev hi
        (fun f u b h1 h2 => .inl (hl f u b h1 h2)) hat
      simp only [List.head?_cons] at hin
      cases hr : cmInner endOf (some q) qpos prev.getLast? pend cs s with
      | panic => simp only [hr] at h; cases h
      | ret m' =>
        rw [hr] at hin
        simp only [hr, CMOut.ret.injEq] at h
        exact ⟨m', h.symm, hin⟩
      | next rest s1 =>
        rw [hr] at hin
        obtain ⟨used, hu, hord', hi', hl', hat', hlt⟩ := hin
        simp only [hr] at h
        cases he : endOf q with
        | none => simp only [he] at h; cases h
        | some e =>
          cases hpn : pushNode posOf endOf q s1 with
          | none => simp only [he, hpn] at h; cases h
          | some s2 =>
            simp only [he, hpn] at h
            obtain ⟨k1, k2, k3⟩ := pushNode_place hpos hi' hl' hpn he hends
            have hlast : (prev ++ [q]).getLast? = some q := by simp
            have := ih (prev ++ [q]) rest (done ++ used) s2 e m (by simp [hn]) (by
                intro t ht; rw [hlast] at ht; cases ht; exact he)
              (by
                intro t ht
                rcases List.mem_append.1 ht with ht | ht
                · exact hends t ht
                · simp at ht; subst ht; exact ⟨e, he⟩)
              hord' (fun c hc => hinf c (by rw [hu]; simp [hc]))
              (by
                intro c hc e' he' t ht p hp
                rcases List.mem_append.1 ht with ht | ht
                · exact hprev c (by rw [hu]; simp [hc]) e' he' t ht p hp
                · simp at ht; subst ht; rw [hpos] at hp; cases hp; exact hlt c hc e' he')
              k1 k2 (by rw [k3]; exact hat') (by rw [hlast]; exact h)
            simpa [hu] using this

end Verif
