/-
The tree that comes out of edits made everywhere in a tree: proofs.
-/
import Verif.Spec.Remake
import Verif.Proofs.Replace

namespace Verif

theorem Tree.remadeFields_eq (E : Nat → List Edit) (N : Nat → Tree) (fs : List FieldVal) :
    Tree.remadeFields E N fs = fs.map (FieldVal.remade E N) := by
  induction fs with
  | nil => rfl
  | cons t ts ih => simp [Tree.remadeFields, ih]

theorem Tree.remadeList_eq (E : Nat → List Edit) (N : Nat → Tree) (ts : List Tree) :
    Tree.remadeList E N ts = ts.flatMap fun t => (newList E t.id).map fun a => if a = t.id then t.remade E N else N a := by
  induction ts with
  | nil => rfl
  | cons t ts ih => simp [Tree.remadeList, ih]

theorem Tree.remade_eq (E : Nat → List Edit) (N : Nat → Tree) (t : Tree) :
    t.remade E N = .mk t.kind t.ref t.all (t.fields.map (FieldVal.remade E N)) := by
  cases t with
  | mk k i a fs => rw [Tree.remade, Tree.remadeFields_eq]; rfl

@[simp] theorem Tree.remade_id (E : Nat → List Edit) (N : Nat → Tree) (t : Tree) : (t.remade E N).id = t.id := by
  cases t; rfl

/-- Everything in the place of a node is the node or was put in by an edit. -/
theorem spot_mem (a : Nat) : ∀ (es : List Edit) (s : Spot) (P : Nat → Prop), (∀ b ∈ s.before ++ s.cur.toList ++ s.after, P b) →
    (∀ e ∈ es, ∀ b, e.node? = some b → P b) →
    ∀ b ∈ (es.foldl Spot.edit s).before ++ (es.foldl Spot.edit s).cur.toList ++ (es.foldl Spot.edit s).after, P b
  | [], _, _, hs, _ => hs
  | e :: es, s, P, hs, he => by
    refine spot_mem a es (s.edit e) P ?_ fun e' he' => he e' (List.mem_cons_of_mem _ he')
    have h1 := he e (List.mem_cons_self ..)
    intro b hb
    cases e with
    | before n =>
      simp only [Spot.edit, List.mem_append, List.mem_singleton] at hb
      rcases hb with ((hb | rfl) | hb) | hb
      · exact hs b (by simp [hb])
      · exact h1 _ rfl
      · exact hs b (by simp only [List.mem_append]; exact .inl (.inr hb))
      · exact hs b (by simp [hb])
    | after n =>
      simp only [Spot.edit, List.mem_append, List.mem_cons] at hb
      rcases hb with (hb | hb) | rfl | hb
      · exact hs b (by simp [hb])
      · exact hs b (by simp only [List.mem_append]; exact .inl (.inr hb))
      · exact h1 _ rfl
      · exact hs b (by simp [hb])
    | replace n =>
      simp only [Spot.edit, List.mem_append, Option.toList_some, List.mem_singleton] at hb
      rcases hb with (hb | rfl) | hb
      · exact hs b (by simp [hb])
      · exact h1 _ rfl
      · exact hs b (by simp [hb])
    | delete =>
      simp only [Spot.edit, Option.toList_none, List.append_nil, List.mem_append] at hb
      rcases hb with hb | hb
      · exact hs b (by simp [hb])
      · exact hs b (by simp [hb])

theorem newList_mem {E : Nat → List Edit} {a b : Nat} (hb : b ∈ newList E a) :
    b = a ∨ ∃ e ∈ E a, e.node? = some b :=
  spot_mem a (E a) ⟨[], some a, []⟩ (fun b => b = a ∨ ∃ e ∈ E a, e.node? = some b) (by simp)
    (fun e he b hb => .inr ⟨e, he, hb⟩) b hb

theorem newOne_mem {E : Nat → List Edit} {a : Nat} (h : newOne E a ≠ a) : ∃ e ∈ E a, e.node? = some (newOne E a) := by
  cases hc : ((E a).foldl Spot.edit ⟨[], some a, []⟩).cur with
  | none => exact absurd (by simp [newOne, hc]) h
  | some b =>
    have hb : newOne E a = b := by simp [newOne, hc]
    rw [hb] at h ⊢
    rcases newList_mem (E := E) (a := a) (b := b) (by simp [newList, editResult, hc]) with hx | hx
    · exact absurd hx h
    · exact hx

/-- `g` is the memory `h` with the edits made, and the nodes that are put in are trees in it. -/
theorem has_remade {E : Nat → List Edit} {N : Nat → Tree} {h g : Heap} {t : Tree} (hh : h.Has t)
    (hg : ∀ a ∈ t.ids, g a = (h a).edited E)
    (hN : ∀ a ∈ t.ids, ∀ e ∈ E a, ∀ b, e.node? = some b → (N b).id = b ∧ b ∉ t.ids ∧ g.Has (N b)) :
    ∀ n, ∀ u, sizeOf u ≤ n → Occurs t u → g.Has (u.remade E N) := by
  have hids : ∀ {u}, Occurs t u → u.id ∈ t.ids := fun ho => List.mem_map.2 ⟨_, (mem_nodes_iff _ _).2 ho, rfl⟩
  intro n
  induction n with
  | zero => intro u hu; cases u; simp at hu
  | succ n ih =>
    intro u hu ho
    have hkid : ∀ c ∈ u.children, Occurs t c ∧ g.Has (c.remade E N) := fun c hc =>
      ⟨ho.trans (.child hc (.refl c)), ih c (by have := child_lt hc; omega) (ho.trans (.child hc (.refl c)))⟩
    intro v hv
    cases hv with
    | refl =>
      rw [Tree.remade_id, hg _ (hids ho), hh u ho, Obj.edited, Tree.remade_eq]
      simp only [Tree.kind, Tree.all, Tree.fields, List.map_map]
      congr 1
      apply List.map_congr_left
      intro x hx
      have hx' : ∀ c ∈ x.nodes, c.id ∈ t.ids := fun c hc => hids (hkid c (List.mem_flatMap.2 ⟨x, hx, hc⟩)).1
      cases x with
      | nil => rfl
      | one f c =>
        simp only [Function.comp, FieldVal.ref, FieldRef.edited, FieldVal.remade]
        congr 1
        split
        · rename_i he; rw [he, Tree.remade_id]
        · rename_i hne
          obtain ⟨e, he, hb⟩ := newOne_mem hne
          exact (hN _ (hx' c (by simp [FieldVal.nodes])) e he _ hb).1.symm
      | list f ts =>
        simp only [FieldVal.nodes] at hx'
        simp only [Function.comp, FieldVal.ref, FieldRef.edited, FieldVal.remade, Tree.remadeList_eq]
        congr 1
        clear hx
        induction ts with
        | nil => rfl
        | cons c ts iht =>
          simp only [List.map_cons, List.flatMap_cons, List.map_append]
          rw [iht fun c hc => hx' c (List.mem_cons_of_mem _ hc)]
          congr 1
          rw [List.map_map]
          conv => lhs; rw [← List.map_id (newList E c.id)]
          apply List.map_congr_left
          intro b hb
          simp only [Function.comp, id]
          split
          · rename_i he; rw [he, Tree.remade_id]
          · rename_i hne
            rcases newList_mem hb with he | ⟨e, he, hb⟩
            · exact absurd he hne
            · exact (hN _ (hx' c (List.mem_cons_self ..)) e he _ hb).1.symm
    | child hc hv =>
      rw [Tree.remade_eq] at hc
      simp only [Tree.children, Tree.fields, List.flatMap_map] at hc
      obtain ⟨x, hx, hcx⟩ := List.mem_flatMap.1 hc
      have hx' : ∀ c ∈ x.nodes, Occurs t c ∧ g.Has (c.remade E N) := fun c hc => hkid c (List.mem_flatMap.2 ⟨x, hx, hc⟩)
      cases x with
      | nil => cases hcx
      | one f c =>
        simp only [FieldVal.remade, FieldVal.nodes, List.mem_singleton] at hcx
        have hc' := hx' c (by simp [FieldVal.nodes])
        subst hcx
        split at hv
        · exact hc'.2 v hv
        · rename_i hne
          obtain ⟨e, he, hb⟩ := newOne_mem hne
          exact (hN _ (hids hc'.1) e he _ hb).2.2 v hv
      | list f ts =>
        simp only [FieldVal.remade, FieldVal.nodes, Tree.remadeList_eq] at hcx
        obtain ⟨c, hcm, hcx⟩ := List.mem_flatMap.1 hcx
        obtain ⟨b, hb, rfl⟩ := List.mem_map.1 hcx
        have hc' := hx' c hcm
        split at hv
        · exact hc'.2 v hv
        · rename_i hne
          rcases newList_mem hb with he | ⟨e, he, hb⟩
          · exact absurd he hne
          · exact (hN _ (hids hc'.1) e he _ hb).2.2 v hv

end Verif
