import Verif.Spec.CommentMap
import Verif.Proofs.Walk
set_option linter.unusedSimpArgs false
/-
Lemmas about `NewCommentMap`.
-/
namespace Verif

theorem attached_snoc (n k : Nat) (c : CommentGroup) : ∀ (ks : List Nat) (cs : List CommentGroup),
    ks.length = cs.length →
    attached n (ks ++ [k]) (cs ++ [c]) = attached n ks cs ++ if k = n then [c] else [] := by
  intro ks
  induction ks with
  | nil =>
    intro cs h
    cases cs with
    | nil => simp [attached]
    | cons => simp at h
  | cons x ks ih =>
    intro cs h
    cases cs with
    | nil => simp at h
    | cons d cs =>
      simp only [List.length_cons, Nat.add_right_cancel_iff] at h
      simp only [List.cons_append, attached, ih cs h]
      split <;> simp

theorem Distributes.snoc {nodes : List Tree} {cs : List CommentGroup} {m : CommentMap} (h : Distributes nodes cs m)
    {t : Tree} (ht : t ∈ nodes) (c : CommentGroup) : Distributes nodes (cs ++ [c]) (m.addComment t.id c) := by
  obtain ⟨ns, h1, h2, h3⟩ := h
  refine ⟨ns ++ [t.id], by simp [h1], ?_, ?_⟩
  · intro k hk
    rcases List.mem_append.1 hk with hk | hk
    · exact h2 k hk
    · exact ⟨t, ht, (List.mem_singleton.1 hk).symm⟩
  · intro n
    rw [attached_snoc n t.id c ns cs h1, CommentMap.addComment]
    by_cases hn : n = t.id
    · subst hn; simp [h3]
    · rw [if_neg hn, if_neg (fun h => hn h.symm), h3]; simp

/-- What is known in the loop: all nodes in the variables come from the list. -/
structure CMInv (nodes : List Tree) (done : List CommentGroup) (s : CMState) : Prop where
  dist : Distributes nodes done s.map
  pg : ∀ t, s.pg = some t → t ∈ nodes
  stack : ∀ t ∈ s.stack, t ∈ nodes

theorem popNodes_mem {endOf : Tree → Option Pos} {pos : Pos} {nodes : List Tree} : ∀ {st : List Tree}
    {top : Option Tree} {r : Option Tree × List Tree}, (∀ t ∈ st, t ∈ nodes) → (∀ t, top = some t → t ∈ nodes) →
    popNodes endOf pos st top = some r → (∀ t, r.1 = some t → t ∈ nodes) ∧ ∀ t ∈ r.2, t ∈ nodes := by
  intro st
  induction st with
  | nil =>
    intro top r _ h2 h
    simp only [popNodes, Option.some.injEq] at h
    subst h
    exact ⟨h2, by simp⟩
  | cons t ts ih =>
    intro top r h1 h2 h
    simp only [popNodes] at h
    cases he : endOf t with
    | none => rw [he] at h; simp at h
    | some e =>
      simp only [he] at h
      split at h
      · exact ih (fun u hu => h1 u (List.mem_cons_of_mem _ hu))
          (fun u hu => by simp only [Option.some.injEq] at hu; subst hu; exact h1 _ (List.mem_cons_self ..)) h
      · simp only [Option.some.injEq] at h
        subst h
        exact ⟨h2, h1⟩

theorem popNodes_total {endOf : Tree → Option Pos} {pos : Pos} : ∀ {st : List Tree} {top : Option Tree},
    (∀ t ∈ st, (endOf t).isSome) → ∃ r, popNodes endOf pos st top = some r := by
  intro st
  induction st with
  | nil => intro top _; exact ⟨_, rfl⟩
  | cons t ts ih =>
    intro top h
    obtain ⟨e, he⟩ := Option.isSome_iff_exists.1 (h t (List.mem_cons_self ..))
    simp only [popNodes, he]
    split
    · exact ih (fun u hu => h u (List.mem_cons_of_mem _ hu))
    · exact ⟨_, rfl⟩

theorem popGroup_inv {endOf : Tree → Option Pos} {pos : Pos} {nodes : List Tree} {done : List CommentGroup}
    {s s' : CMState} (h : CMInv nodes done s) (hs : popGroup endOf pos s = some s') : CMInv nodes done s' := by
  simp only [popGroup] at hs
  cases hp : popNodes endOf pos s.stack none with
  | none => rw [hp] at hs; simp at hs
  | some r =>
    have hm := popNodes_mem h.stack (by simp) hp
    rw [hp] at hs
    obtain ⟨top, st⟩ := r
    cases top with
    | none =>
      simp only [Option.some.injEq] at hs
      subst hs
      exact ⟨h.dist, h.pg, hm.2⟩
    | some t =>
      simp only [Option.map_eq_some_iff] at hs
      obtain ⟨e, _, hs⟩ := hs
      subst hs
      refine ⟨h.dist, ?_, hm.2⟩
      intro u hu
      simp only [Option.some.injEq] at hu
      subst hu
      exact hm.1 t rfl

theorem popGroup_total {endOf : Tree → Option Pos} {pos : Pos} {nodes : List Tree} {done : List CommentGroup}
    {s : CMState} (h : CMInv nodes done s) (he : ∀ t ∈ nodes, (endOf t).isSome) :
    ∃ s', popGroup endOf pos s = some s' := by
  obtain ⟨r, hr⟩ := popNodes_total (endOf := endOf) (pos := pos) (st := s.stack) (top := none)
    (fun t ht => he t (h.stack t ht))
  have hm := popNodes_mem h.stack (by simp) hr
  simp only [popGroup, hr]
  obtain ⟨top, st⟩ := r
  cases top with
  | none => exact ⟨_, rfl⟩
  | some t =>
    obtain ⟨e, he'⟩ := Option.isSome_iff_exists.1 (he t (hm.1 t rfl))
    simp only [he', Option.map_some]
    exact ⟨_, rfl⟩

theorem assocNode_mem {nodes : List Tree} {pg p q : Option Tree} {pgend pend qpos rpos rend : Pos} {n : Tree}
    (hpg : ∀ t, pg = some t → t ∈ nodes) (hp : ∀ t, p = some t → t ∈ nodes) (hq : ∀ t, q = some t → t ∈ nodes)
    (h : assocNode pg pgend p pend q qpos rpos rend = some n) : n ∈ nodes := by
  simp only [assocNode] at h
  split at h
  · exact hpg n h
  · split at h
    · exact hp n h
    · exact hq n h

theorem assocNode_total {pg p q : Option Tree} {pgend pend qpos rpos rend : Pos} (h : p.isSome ∨ q.isSome) :
    (assocNode pg pgend p pend q qpos rpos rend).isSome := by
  simp only [assocNode]
  split
  · rename_i h1; exact h1.1
  · split
    · rename_i h1; exact h1.1
    · rename_i h2
      rcases h with h | h
      · cases q with
        | some => rfl
        | none => exact absurd ⟨h, .inr (.inr rfl)⟩ h2
      · exact h

/-- The inner loop attaches the groups it takes off the list. -/
theorem inner_inv {endOf : Tree → Option Pos} {q p : Option Tree} {qpos pend : Pos} {nodes : List Tree}
    (hp : ∀ t, p = some t → t ∈ nodes) (hq : ∀ t, q = some t → t ∈ nodes) :
    ∀ (cs done : List CommentGroup) (s : CMState), CMInv nodes done s →
    match cmInner endOf q qpos p pend cs s with
    | .ret m => Distributes nodes (done ++ cs) m
    | .next rest s' => ∃ used, cs = used ++ rest ∧ CMInv nodes (done ++ used) s' ∧
        ∃ c rest' rend, rest = c :: rest' ∧ c.end? = some rend ∧ comparePos qpos rend = -1
    | .panic => True := by
  intro cs
  induction cs with
  | nil => intro done s h; simpa [cmInner] using h.dist
  | cons c cs ih =>
    intro done s h
    simp only [cmInner]
    cases hcp : c.pos? with
    | none => trivial
    | some rpos =>
      cases hce : c.end? with
      | none => trivial
      | some rend =>
        simp only
        by_cases hcmp : comparePos qpos rend ≠ -1
        · rw [if_pos hcmp]
          cases hpg : popGroup endOf rpos s with
          | none => trivial
          | some s1 =>
            have h1 := popGroup_inv h hpg
            simp only
            cases ha : assocNode s1.pg s1.pgend p pend q qpos rpos rend with
            | none => trivial
            | some n =>
              have hn := assocNode_mem h1.pg hp hq ha
              have := ih (done ++ [c]) { s1 with map := s1.map.addComment n.id c } ⟨h1.dist.snoc hn c, h1.pg, h1.stack⟩
              revert this
              simp only
              generalize cmInner endOf q qpos p pend cs _ = o
              intro this
              cases o with
              | panic => trivial
              | ret m => simpa using this
              | next rest s' =>
                obtain ⟨used, hu, hi, hr⟩ := this
                exact ⟨c :: used, by rw [hu]; rfl, by simpa using hi, hr⟩
        · rw [if_neg hcmp]
          exact ⟨[], rfl, by simpa using h, c, cs, rend, rfl, hce, by
            by_cases h : comparePos qpos rend = -1
            · exact h
            · exact absurd h hcmp⟩

theorem inner_total {endOf : Tree → Option Pos} {q p : Option Tree} {qpos pend : Pos} {nodes : List Tree}
    (he : ∀ t ∈ nodes, (endOf t).isSome) (hpq : p.isSome ∨ q.isSome)
    (hp : ∀ t, p = some t → t ∈ nodes) (hq : ∀ t, q = some t → t ∈ nodes) :
    ∀ (cs done : List CommentGroup) (s : CMState), CMInv nodes done s → (∀ c ∈ cs, c.list ≠ []) →
    cmInner endOf q qpos p pend cs s ≠ .panic := by
  intro cs
  induction cs with
  | nil => intro done s _ _ h; simp [cmInner] at h
  | cons c cs ih =>
    intro done s h hne
    have hc := hne c (List.mem_cons_self ..)
    simp only [cmInner]
    cases hl : c.list with
    | nil => exact absurd hl hc
    | cons x xs =>
      have h1 : c.pos? = some x.from_ := by simp [CommentGroup.pos?, hl]
      have h2 : ∃ rend, c.end? = some rend := by
        refine ⟨((x :: xs).getLast (by simp)).to_, ?_⟩
        simp [CommentGroup.end?, hl, List.getLast?_eq_some_getLast]
      obtain ⟨rend, h2⟩ := h2
      simp only [h1, h2]
      by_cases hcmp : comparePos qpos rend ≠ -1
      · rw [if_pos hcmp]
        obtain ⟨s1, hs1⟩ := popGroup_total (pos := x.from_) h he
        have hi := popGroup_inv h hs1
        obtain ⟨n, hn⟩ := Option.isSome_iff_exists.1
          (assocNode_total (pg := s1.pg) (pgend := s1.pgend) (pend := pend) (qpos := qpos) (rpos := x.from_)
            (rend := rend) hpq)
        simp only [hs1, hn]
        exact ih (done ++ [c]) _ ⟨hi.dist.snoc (assocNode_mem hi.pg hp hq hn) c, hi.pg, hi.stack⟩
          (fun d hd => hne d (List.mem_cons_of_mem _ hd))
      · rw [if_neg hcmp]; simp

theorem pushNode_inv {posOf endOf : Tree → Option Pos} {t : Tree} {nodes : List Tree} {done : List CommentGroup}
    {s s' : CMState} (ht : t ∈ nodes) (h : CMInv nodes done s) (hs : pushNode posOf endOf t s = some s') :
    CMInv nodes done s' := by
  simp only [pushNode] at hs
  split at hs
  · simp only [Option.bind_eq_some_iff, Option.map_eq_some_iff] at hs
    obtain ⟨p, _, r, hr, hs⟩ := hs
    subst hs
    have hm := popNodes_mem h.stack (by simp) hr
    refine ⟨h.dist, h.pg, ?_⟩
    intro u hu
    rcases List.mem_cons.1 hu with rfl | hu
    · exact ht
    · exact hm.2 u hu
  · simp only [Option.some.injEq] at hs
    subst hs
    exact h

theorem pushNode_total {posOf endOf : Tree → Option Pos} {t : Tree} {nodes : List Tree} {done : List CommentGroup}
    {s : CMState} (ht : t ∈ nodes) (h : CMInv nodes done s) (hpos : ∀ t ∈ nodes, (posOf t).isSome)
    (hend : ∀ t ∈ nodes, (endOf t).isSome) : ∃ s', pushNode posOf endOf t s = some s' := by
  simp only [pushNode]
  split
  · obtain ⟨p, hp⟩ := Option.isSome_iff_exists.1 (hpos t ht)
    obtain ⟨r, hr⟩ := popNodes_total (endOf := endOf) (pos := p) (st := s.stack) (top := none)
      (fun u hu => hend u (h.stack u hu))
    exact ⟨_, by rw [hp, Option.bind_some, hr, Option.map_some]⟩
  · exact ⟨_, rfl⟩

theorem outer_inv {posOf endOf : Tree → Option Pos} {nodes : List Tree} :
    ∀ (qs : List (Option Tree)) (cs done : List CommentGroup) (s : CMState) (p : Option Tree) (pend : Pos)
    (m : Option CommentMap), (∀ t, some t ∈ qs → t ∈ nodes) → none ∈ qs → (∀ t, p = some t → t ∈ nodes) →
    CMInv nodes done s → cmOuter posOf endOf qs cs s p pend = .ret m →
    ∃ m', m = some m' ∧ Distributes nodes (done ++ cs) m' := by
  intro qs
  induction qs with
  | nil => intro cs done s p pend m _ h; cases h
  | cons q qs ih =>
    intro cs done s p pend m hqs hnone hp hinv h
    simp only [cmOuter] at h
    cases hpos : nodePos posOf q with
    | none => simp only [hpos] at h; cases h
    | some qpos =>
      simp only [hpos] at h
      have hin := inner_inv (endOf := endOf) (q := q) (qpos := qpos) (pend := pend) hp
        (fun t ht => hqs t (ht ▸ List.mem_cons_self ..)) cs done s hinv
      cases hr : cmInner endOf q qpos p pend cs s with
      | panic => simp only [hr] at h; cases h
      | ret m' =>
        simp only [hr, CMOut.ret.injEq] at h
        rw [hr] at hin
        exact ⟨m', h.symm, hin⟩
      | next rest s1 =>
        rw [hr] at hin
        obtain ⟨used, hu, hi, _⟩ := hin
        simp only [hr] at h
        cases q with
        | none => simp at h
        | some t =>
          simp only at h
          cases he : endOf t with
          | none => simp only [he] at h; cases h
          | some e =>
            cases hpn : pushNode posOf endOf t s1 with
            | none => simp only [he, hpn] at h; cases h
            | some s2 =>
              simp only [he, hpn] at h
              have ht := hqs t (List.mem_cons_self ..)
              have := ih rest (done ++ used) s2 (some t) e m (fun u hu => hqs u (List.mem_cons_of_mem _ hu))
                (by simpa using hnone) (fun u hu => by simp only [Option.some.injEq] at hu; exact hu ▸ ht)
                (pushNode_inv ht hi hpn) h
              simpa [hu] using this

theorem outer_total {posOf endOf : Tree → Option Pos} {nodes : List Tree} (hpos : ∀ t ∈ nodes, (posOf t).isSome)
    (hend : ∀ t ∈ nodes, (endOf t).isSome) :
    ∀ (qs : List Tree) (cs done : List CommentGroup) (s : CMState) (p : Option Tree) (pend : Pos),
    (∀ t ∈ qs, t ∈ nodes) → (p.isSome ∨ qs ≠ []) → (∀ t, p = some t → t ∈ nodes) →
    CMInv nodes done s → (∀ c ∈ cs, c.list ≠ []) →
    (∀ c ∈ cs, ∀ e, c.end? = some e → comparePos infinityPos e ≠ -1) →
    cmOuter posOf endOf (qs.map some ++ [none]) cs s p pend ≠ .panic := by
  intro qs
  induction qs with
  | nil =>
    intro cs done s p pend _ hp hpn hinv hne hinf h
    have hp' : p.isSome := by rcases hp with h | h; exact h; exact absurd rfl h
    simp only [List.map_nil, List.nil_append, cmOuter, nodePos] at h
    have hin := inner_inv (endOf := endOf) (q := none) (qpos := infinityPos) (pend := pend) hpn (by simp) cs done s hinv
    have htot := inner_total (endOf := endOf) (q := none) (qpos := infinityPos) (pend := pend) hend (.inl hp') hpn
      (by simp) cs done s hinv hne
    cases hr : cmInner endOf none infinityPos p pend cs s with
    | panic => exact htot hr
    | ret m => simp [hr] at h
    | next rest s1 =>
      rw [hr] at hin
      obtain ⟨used, hu, _, c, rest', rend, hrest, hce, hcmp⟩ := hin
      exact hinf c (by rw [hu, hrest]; simp) rend hce hcmp
  | cons q qs ih =>
    intro cs done s p pend hqs hp hpn hinv hne hinf h
    have ht := hqs q (List.mem_cons_self ..)
    obtain ⟨qpos, hqpos⟩ := Option.isSome_iff_exists.1 (hpos q ht)
    obtain ⟨e, he⟩ := Option.isSome_iff_exists.1 (hend q ht)
    have hqm : ∀ t, some q = some t → t ∈ nodes := fun t h => by
      simp only [Option.some.injEq] at h; exact h ▸ ht
    simp only [List.map_cons, List.cons_append, cmOuter, nodePos, hqpos] at h
    have hin := inner_inv (endOf := endOf) (q := some q) (qpos := qpos) (pend := pend) hpn hqm cs done s hinv
    have htot := inner_total (endOf := endOf) (q := some q) (qpos := qpos) (pend := pend) hend (.inr rfl) hpn
      hqm cs done s hinv hne
    cases hr : cmInner endOf (some q) qpos p pend cs s with
    | panic => exact htot hr
    | ret m => simp [hr] at h
    | next rest s1 =>
      rw [hr] at hin
      obtain ⟨used, hu, hi, _⟩ := hin
      obtain ⟨s2, hs2⟩ := pushNode_total ht hi hpos hend
      simp only [hr, he, hs2] at h
      exact ih rest (done ++ used) s2 (some q) e (fun t h => hqs t (List.mem_cons_of_mem _ h)) (.inl rfl) hqm
        (pushNode_inv ht hi hs2) (fun c hc => hne c (by rw [hu]; exact List.mem_append_right _ hc))
        (fun c hc => hinf c (by rw [hu]; exact List.mem_append_right _ hc)) h

/-! The list of nodes -/

theorem traversal_reached {root : Tree} {ks : List (Option Tree)} {l : List (Option Tree × Bool)}
    (h : Traversal Tree.walkKids ks l) (hk : ∀ t, some t ∈ ks → Reached root t) :
    ∀ t ∈ l.filterMap Prod.fst, Reached root t := by
  induction h with
  | done => intro t ht; simp at ht
  | nil _ ih => exact fun t ht => ih (fun u hu => hk u (List.mem_cons_of_mem _ hu)) t (by simpa using ht)
  | pruned _ ih =>
    intro t ht
    simp only [List.filterMap_cons, List.mem_cons] at ht
    rcases ht with rfl | ht
    · exact hk _ (List.mem_cons_self ..)
    · exact ih (fun u hu => hk u (List.mem_cons_of_mem _ hu)) t ht
  | visited hks _ _ ih1 ih2 =>
    rename_i u rest ks' l1 l2 b _ _
    intro t ht
    simp only [List.filterMap_cons, List.filterMap_append, List.mem_cons, List.mem_append] at ht
    rcases ht with rfl | ht | ht
    · exact hk _ (List.mem_cons_self ..)
    · refine ih1 (fun c hc => ?_) t ht
      exact Reached.trans (hk u (List.mem_cons_self ..)) (.child hks hc (.refl c))
    · exact ih2 (fun u hu => hk u (List.mem_cons_of_mem _ hu)) t ht

theorem nodeList_spec {file : Tree} {nodes : List Tree} (h : nodeList file = some nodes) :
    (∃ rest, nodes = file :: rest) ∧ ∀ t ∈ nodes, Reached file t := by
  have hm := walk_map (v := ()) (w := ()) (visit := inspectorVisit collectNode)
    (visit' := inspectorVisit (loggedFn (fun n (_ : Unit) => (n.isSome, ())))) (h := fun s => s.2.filterMap Prod.fst)
    (by intro n s; cases n <;> rfl) (by intro n s; cases n <;> simp [inspectorVisit, collectNode, loggedFn])
    file ((), [])
  simp only [nodeList, inspect] at h
  cases hr : walk (inspectorVisit (loggedFn (fun n (_ : Unit) => (n.isSome, ())))) () file ((), []) with
  | panic s =>
    rw [hr] at hm
    simp only [List.filterMap_nil] at hm
    rw [← hm] at h
    simp [Out.map] at h
  | ok s =>
    rw [hr] at hm
    simp only [List.filterMap_nil] at hm
    rw [← hm] at h
    simp only [Out.map, Option.some.injEq] at h
    subst h
    obtain ⟨l, hl, ht⟩ := walk_traversal (records_loggedFn (fun n (_ : Unit) => (n.isSome, ()))) hr
    simp only [List.nil_append] at hl
    rw [hl]
    refine ⟨?_, traversal_reached ht (by intro t h; simp at h; subst h; exact .refl _)⟩
    cases ht with
    | pruned => simp
    | visited => simp

theorem nodeList_some_iff (file : Tree) : (nodeList file).isSome ↔ ∀ u, Reached file u → u.kind ∉ unknownKinds := by
  have h := walk_unknown_iff (v := ()) (visit := inspectorVisit collectNode) (by intro t s; rfl) (by intro s; rfl)
    file []
  simp only [nodeList, inspect]
  cases hr : walk (inspectorVisit collectNode) () file [] with
  | panic s =>
    rw [hr] at h
    obtain ⟨u, hu, hk⟩ := h.1 ⟨_, rfl⟩
    simp only [Option.isSome_none, Bool.false_eq_true, false_iff]
    exact fun hall => hall u hu (walkKids_none.1 hk)
  | ok s =>
    rw [hr] at h
    simp only [Option.isSome_some, true_iff]
    intro u hu hk
    obtain ⟨s', hs⟩ := h.2 ⟨u, hu, walkKids_none.2 hk⟩
    cases hs

end Verif
