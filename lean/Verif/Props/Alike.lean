/-
C81: `Apply` and `Inspect` make the same traversal.

`enter g` and `leave g` are the callbacks for `Apply` that correspond to the function `byAddress g` for `Inspect`: `g` may
answer what it wants, and keep any state.
-/
import Verif.Proofs.Alike
import Verif.Props.Apply
import Verif.Props.CommentFile
import Verif.Props.NodeCount
set_option maxRecDepth 100000

namespace Verif

/-- C81: for every tree in memory whose nodes have the fields of their types and every function `g`, `Apply` makes
the calls of `g` that `Inspect` makes, in the same order and with the same answers (the state of `g` at the end, which may
be the list of all calls, is the same), and ends in the same way: by returning - then its result is the node it was
called with - or by a panic.  In both cases no node has changed.  The one difference: `Apply` does not know the nodes of
`USING`, so they are hidden from `Inspect`. -/
theorem C81_alike {σ : Type} (g : Option Nat → σ → Bool × σ) (t : Tree) (n r : Nat) (hn : sizeOf t ≤ n) (s : σ) (h : Heap)
    (hh : h.Has t) (hr : ∀ v, Occurs t v → v.id ≠ r) (ht : ∀ u, Occurs t u → u.WellTyped) :
    match inspect (byAddress g) t.hideUsing s with
    | .ok s' => ∃ w, applyRoot (enter g) (leave g) n r t.id s h = .result (some t.id) w ∧ w.user = s' ∧
        ∀ a, a ≠ r → w.heap a = h a
    | .panic s' => ∃ w, applyRoot (enter g) (leave g) n r t.id s h = .panic w ∧ w.user = s' ∧
        ∀ a, a ≠ r → w.heap a = h a := by
  have hset : ∀ a, a ≠ r → (h.set r ⟨none, false, [.one .Node t.id]⟩) a = h a := fun a ha => by simp [Heap.set, ha]
  have hp : (h.set r ⟨none, false, [.one .Node t.id]⟩).ptr r .Node = some t.id := by
    simp [Heap.ptr, Heap.field, Heap.set, FieldRef.name]
  have := alike_apply g (h := h.set r ⟨none, false, [.one .Node t.id]⟩) n t hn
    (fun u hu => by rw [hset _ (hr u hu)]; exact hh u hu) ht r .Node false
    ⟨s, h.set r ⟨none, false, [.one .Node t.id]⟩, 0, 0⟩ rfl
  simp only [inspect]
  cases hb : walk (inspectorVisit (byAddress g)) () t.hideUsing s with
  | ok s' =>
    simp only [hb] at this
    exact ⟨⟨s', h.set r ⟨none, false, [.one .Node t.id]⟩, 0, 0⟩, by simp only [applyRoot, this, hp], rfl, hset⟩
  | panic s' =>
    simp only [hb] at this
    obtain ⟨i, j, this⟩ := this
    exact ⟨⟨s', h.set r ⟨none, false, [.one .Node t.id]⟩, i, j⟩, by simp only [applyRoot, this], rfl, hset⟩

/-- In trees without USING nothing has to be hidden. -/
theorem C81_same {σ : Type} (g : Option Nat → σ → Bool × σ) (t : Tree) (n r : Nat) (hn : sizeOf t ≤ n) (s : σ) (h : Heap)
    (hh : h.Has t) (hr : ∀ v, Occurs t v → v.id ≠ r) (ht : ∀ u, Occurs t u → u.WellTyped)
    (hu : ∀ u, Occurs t u → u.kind ≠ .NamedColumnsJoin) :
    match inspect (byAddress g) t s with
    | .ok s' => ∃ w, applyRoot (enter g) (leave g) n r t.id s h = .result (some t.id) w ∧ w.user = s' ∧
        ∀ a, a ≠ r → w.heap a = h a
    | .panic s' => ∃ w, applyRoot (enter g) (leave g) n r t.id s h = .panic w ∧ w.user = s' ∧
        ∀ a, a ≠ r → w.heap a = h a := by
  have := C81_alike g t n r hn s h hh hr ht
  rwa [hide_none hu] at this

/-- Callbacks that want to see everything (and do nothing with nil): `Apply` panics exactly if it comes to a node
for which it has no case. -/
theorem C81_panics_iff {σ : Type} (g : Option Nat → σ → Bool × σ) (hg : ∀ a s, (g (some a) s).1 = true)
    (hnil : ∀ s, (g none s).1 = false) (t : Tree) (n r : Nat) (hn : sizeOf t ≤ n) (s : σ) (h : Heap)
    (hh : h.Has t) (hr : ∀ v, Occurs t v → v.id ≠ r) (ht : ∀ u, Occurs t u → u.WellTyped) :
    (∃ w, applyRoot (enter g) (leave g) n r t.id s h = .panic w) ↔
      ∃ u, Reached t u ∧ u.kind ∈ .NamedColumnsJoin :: unknownKinds := by
  have ha := C81_alike g t n r hn s h hh hr ht
  have hi := C38_nil_iff (byAddress g) (fun t s => hg _ s) hnil t.hideUsing s
  refine Iff.trans ?_ Reached.using_iff
  rw [← hi]
  constructor
  · rintro ⟨w, hw⟩
    cases hb : inspect (byAddress g) t.hideUsing s with
    | ok s' =>
      rw [hb] at ha
      obtain ⟨w', hw', _⟩ := ha
      rw [hw] at hw'; cases hw'
    | panic s' => exact ⟨s', rfl⟩
  · rintro ⟨s', hb⟩
    rw [hb] at ha
    obtain ⟨w, hw, _⟩ := ha
    exact ⟨w, hw⟩

/-- For every source text that is parsed, wherever its tree is put in memory: `Apply` with such callbacks panics if
there is a USING that it comes to; otherwise it returns the file, unchanged, after the calls that `Inspect` makes. -/
theorem C81_parsed {d : Dialect} {fuel : Nat} {src : Str} {fns : FloatFns} {n : Nat} {toks : List Token} {f : File}
    {ps : PState} (htok : tokenize d true fuel src = .ok toks) (hp : parseFile fns n true (newParser toks) = .ok f ps)
    {σ : Type} (g : Option Nat → σ → Bool × σ) (hg : ∀ a s, (g (some a) s).1 = true) (hnil : ∀ s, (g none s).1 = false)
    (t : Tree) (hta : t.anon = f.tree) (m r : Nat) (hm : sizeOf t ≤ m) (s : σ) (h : Heap) (hh : h.Has t)
    (hr : ∀ v, Occurs t v → v.id ≠ r) :
    ((∃ u, Reached t u ∧ u.kind = .NamedColumnsJoin) → ∃ w, applyRoot (enter g) (leave g) m r t.id s h = .panic w) ∧
    ((¬ ∃ u, Reached t u ∧ u.kind = .NamedColumnsJoin) → ∃ w, applyRoot (enter g) (leave g) m r t.id s h =
      .result (some t.id) w ∧ (∀ a, a ≠ r → w.heap a = h a) ∧ inspect (byAddress g) t.hideUsing s = .ok w.user) := by
  have ht : ∀ u, Occurs t u → u.WellTyped := fun u hu =>
    Tree.WellTyped.of_anon (wtB_all (File.tree_wt f) (by rw [← hta]; exact hu.anon))
  have hi := C81_panics_iff g hg hnil t m r hm s h hh hr ht
  have ha := C81_alike g t m r hm s h hh hr ht
  refine ⟨fun ⟨u, hu, hk⟩ => hi.2 ⟨u, hu, by rw [hk]; exact List.mem_cons_self ..⟩, fun hno => ?_⟩
  cases hb : inspect (byAddress g) t.hideUsing s with
  | ok s' =>
    rw [hb] at ha
    obtain ⟨w, hw, hu, hf⟩ := ha
    exact ⟨w, hw, hf, by rw [hu]⟩
  | panic s' =>
    rw [hb] at ha
    obtain ⟨w, hw, _⟩ := ha
    obtain ⟨u, hu, hk⟩ := hi.1 ⟨w, hw⟩
    rcases List.mem_cons.1 hk with hk | hk
    · exact absurd ⟨u, hu, hk⟩ hno
    · obtain ⟨s1, h1⟩ := C38_parsed htok hp (byAddress g) (fun t s => hg _ s) hnil t hta s
      have := (C38_nil_iff (byAddress g) (fun t s => hg _ s) hnil t s).2 ⟨u, hu, hk⟩
      obtain ⟨s2, h2⟩ := this
      rw [h1] at h2; cases h2

/-- `Apply` makes, whatever the callbacks answer, at most seven calls for a token of the statement, USING aside. -/
theorem C81_calls {σ : Type} (fns : FloatFns) (n : Nat) (mode : Bool) (toks : List Token) (hk : KwOK toks) (x : Stmt)
    (hx : runStatement fns n mode toks = .ok x ()) (t : Tree) (hta : t.anon = x.tree)
    (hu : ∀ u, Occurs t u → u.kind ≠ .NamedColumnsJoin) (g : Option Nat → σ → Bool × σ) (m r : Nat) (hm : sizeOf t ≤ m)
    (s : σ) (h : Heap) (hh : h.Has t) (hr : ∀ v, Occurs t v → v.id ≠ r) (root : Option Nat) (w : World (σ × Nat))
    (hw : applyRoot (enter (counting g)) (leave (counting g)) m r t.id (s, 0) h = .result root w) :
    w.user.2 < 7 * (significant toks).length := by
  have ht : ∀ u, Occurs t u → u.WellTyped := fun u hu =>
    Tree.WellTyped.of_anon (C36_typed x _ (by rw [← hta]; exact hu.anon))
  have ha := C81_same (counting g) t m r hm (s, 0) h hh hr ht hu
  have hmap := walk_map (visit := inspectorVisit (byAddress (counting g))) (v := ())
    (visit' := inspectorVisit (loggedFn (byAddress g))) (w := ()) (h := fun p => (p.1, p.2.length))
    (by intro n s; rfl) (by intro n s; simp [inspectorVisit, loggedFn, byAddress, counting]) t (s, [])
  simp only [List.length_nil] at hmap
  have hmap : (inspect (loggedFn (byAddress g)) t (s, [])).map (fun p => (p.1, p.2.length)) =
      inspect (byAddress (counting g)) t (s, 0) := hmap
  cases hb : inspect (loggedFn (byAddress g)) t (s, []) with
  | panic s' =>
    rw [hb] at hmap
    rw [← hmap] at ha
    obtain ⟨w', hw', _⟩ := ha
    rw [hw] at hw'; cases hw'
  | ok s' =>
    rw [hb] at hmap
    rw [← hmap] at ha
    obtain ⟨w', hw', he, _⟩ := ha
    rw [hw] at hw'; cases hw'
    obtain ⟨s', l⟩ := s'
    rw [he]
    obtain ⟨read, rest, h1, h2⟩ := C80_statement fns n mode toks hk x hx
    have ht' := C36_nesting (byAddress g) t s s' l hb
    have h4 := traversal_calls ht' (by intro c hc; simp at hc; subst hc; exact ht)
    have hc : t.count = x.tree.count := by rw [← hta]; exact (Tree.nodes_anon t).symm
    have e1 : someCount [some t] = t.count := by simp [someCount]
    have e2 : noneCount [some t] = 0 := by simp [noneCount]
    rw [h1, List.length_append]
    simp only
    omega

/-! ### Examples -/

/-- Answers true for nodes and false for nil; writes down the calls. -/
def watch (a : Option Nat) (s : List (Option Nat)) : Bool × List (Option Nat) := (a.isSome, s ++ [a])

/-- The tree is alone in memory, each node at its own address; address 0 is free. -/
def inMemory (t : Tree) : Bool :=
  t.nodes.all fun u => decide (t.heap u.id = ⟨some u.kind, u.all, u.fields.map FieldVal.ref⟩) && u.id != 0

theorem inMemory_has {t : Tree} (h : inMemory t = true) : t.heap.Has t ∧ ∀ v, Occurs t v → v.id ≠ 0 := by
  simp only [inMemory, List.all_eq_true, Bool.and_eq_true, decide_eq_true_eq, bne_iff_ne] at h
  exact ⟨fun u hu => (h u ((mem_nodes_iff _ _).2 hu)).1, fun u hu => (h u ((mem_nodes_iff _ _).2 hu)).2⟩

/-- How `Apply` ends for a text, and the calls. -/
def applyOf (fns : FloatFns) (src : Str) : Option (Bool × List (Option Nat)) :=
  (fileOf fns src).bind fun x =>
    let t := (x.2.tree.number 1).1
    match applyRoot (enter watch) (leave watch) 500 0 1 [] t.heap with
    | .result _ w => some (true, w.user)
    | .panic w => some (false, w.user)
    | .oof _ => none

/-- How `Inspect` ends for a text, and the calls. -/
def inspectOf (fns : FloatFns) (src : Str) : Option (Bool × List (Option Nat)) :=
  (fileOf fns src).map fun x =>
    match inspect (byAddress watch) (x.2.tree.number 1).1 [] with
    | .ok l => (true, l)
    | .panic l => (false, l)

def alikeSrc : Str := str% "SELECT CASE WHEN a THEN 1 END, f(b.c) FROM t JOIN u ON x = y;"

/-- The hypotheses of `C81_parsed` are met by this text. -/
example (fns : FloatFns) : ∃ toks f s t, tokenize genericDialect true (alikeSrc.length + 1) alikeSrc = .ok toks ∧
    parseFile fns (3 * toks.length + 3) true (newParser toks) = .ok f s ∧ t.anon = f.tree ∧ t.heap.Has t ∧
    (∀ v, Occurs t v → v.id ≠ 0) ∧ ¬ ∃ u, Reached t u ∧ u.kind = .NamedColumnsJoin := by
  have h : ((fileOf fns alikeSrc).map fun x => inMemory (x.2.tree.number 1).1 &&
      (x.2.tree.number 1).1.nodes.all fun u => u.kind != .NamedColumnsJoin) = some true := by kernel_rfl
  have ha : ((fileOf fns alikeSrc).map fun x => x.2.tree.anon) = (fileOf fns alikeSrc).map fun x => x.2.tree := by
    kernel_rfl
  obtain ⟨toks, f, s, h1, h2, h3⟩ := fileOf_some (p := fun _ f => inMemory (f.tree.number 1).1 &&
    (f.tree.number 1).1.nodes.all fun u => u.kind != .NamedColumnsJoin) h
  have hf : fileOf fns alikeSrc = some (toks, f) := by simp only [fileOf, h1, h2]
  rw [hf] at ha
  simp only [Bool.and_eq_true, List.all_eq_true, bne_iff_ne] at h3
  refine ⟨toks, f, s, _, h1, h2, (Tree.number_anon 1 f.tree).trans (by simpa using ha), (inMemory_has h3.1).1,
    (inMemory_has h3.1).2, ?_⟩
  rintro ⟨u, hu, hk⟩
  exact h3.2 u ((mem_nodes_iff _ _).2 hu.occurs) hk

/-- Its calls: the nodes by number, nil behind each of them; node 5 is the CASE, whose operand is nil and whose
other parts, 6 and 7, are not visited. -/
example (fns : FloatFns) : applyOf fns alikeSrc = inspectOf fns alikeSrc ∧
    ((applyOf fns alikeSrc).map fun x => (x.1, x.2.take 10)) =
      some (true, [some 1, some 2, some 3, some 4, some 5, none, none, none, some 8, some 9]) := by
  refine ⟨?_, ?_⟩ <;> kernel_rfl

/-- USING: `Inspect` returns, `Apply` panics. -/
theorem C81_using_false (fns : FloatFns) :
    (inspectOf fns (str% "SELECT 1 FROM t JOIN u USING (a);")).map Prod.fst = some true ∧
    (applyOf fns (str% "SELECT 1 FROM t JOIN u USING (a);")).map Prod.fst = some false := by
  refine ⟨?_, ?_⟩ <;> kernel_rfl

end Verif
