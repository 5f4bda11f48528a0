/-
C36 - C39: `Walk` and `Inspect`.

`loggedFn f` is `f` with a record of its calls; `C36_record` says that keeping the record changes nothing.
-/
import Verif.Proofs.Walk
import Verif.Proofs.Embed
import Verif.Proofs.KernelRfl
import Verif.Props.Termination
set_option maxRecDepth 100000

namespace Verif
open Spec

/-- The trees of the statements of a text (generic dialect, `ParseSQL`); empty if there is an error. -/
def stmtTrees (fns : FloatFns) (src : Str) : List Tree :=
  match tokenize genericDialect true (src.length + 1) src with
  | .ok toks =>
    match runSQL fns (3 * toks.length + 3) false toks with
    | .ok ss _ => ss.map Stmt.tree
    | _ => []
  | _ => []

/-- A function that always wants to go on and does nothing else. -/
def always (_ : Option Tree) (s : Unit) : Bool × Unit := (true, s)

/-- Does `Inspect` return when the function always wants to go on? -/
def returns (t : Tree) : Bool :=
  match inspect always t () with
  | .ok _ => true
  | .panic _ => false

/-- The struct types of the nodes passed to a function that always wants to go on, in order. -/
def visitedKinds (t : Tree) : List Kind :=
  match inspect (loggedFn always) t ((), []) with
  | .ok s => s.2.filterMap fun c => c.1.map Tree.kind
  | .panic s => s.2.filterMap fun c => c.1.map Tree.kind

/-! ### C36 -/

/-- Keeping a record of the calls does not change what `Inspect` does. -/
theorem C36_record {σ : Type} (f : Option Tree → σ → Bool × σ) (t : Tree) (s : σ)
    (l : List (Option Tree × Bool)) :
    (inspect (loggedFn f) t (s, l)).map Prod.fst = inspect f t s := by
  refine walk_map (v := ()) (w := ()) (h := Prod.fst) ?_ ?_ t (s, l)
  · intro n s; by_cases h : (f n s.1).1 = true <;> simp [inspectorVisit, loggedFn, h]
  · intro n s; rfl

/-- For every tree and every function, the calls of `Inspect` are a depth-first traversal: a node, then its
children one after the other, then nil.  The children are those named in the case for the node's type
(`Tree.walkKids`). -/
theorem C36_nesting {σ : Type} (f : Option Tree → σ → Bool × σ) (t : Tree) (s s' : σ)
    (l : List (Option Tree × Bool)) (h : inspect (loggedFn f) t (s, []) = .ok (s', l)) :
    Traversal Tree.walkKids [some t] l := by
  obtain ⟨l', hl, ht⟩ := walk_traversal (records_loggedFn f) h
  simp at hl
  rw [hl]; exact ht

/-- In trees without the exceptions of `Tree.Regular` and without CTE and CROSS JOIN nodes, the children are the
nodes in the fields of the struct, in the order of the declaration. -/
theorem C36_field_order {σ : Type} (f : Option Tree → σ → Bool × σ) (t : Tree) (s s' : σ)
    (l : List (Option Tree × Bool)) (hg : t.Good) (ho : ∀ u, Occurs t u → u.kind ∉ reorderedKinds)
    (h : inspect (loggedFn f) t (s, []) = .ok (s', l)) : Traversal Tree.fieldKids [some t] l :=
  traversal_ordered (C36_nesting f t s s' l h)
    (by intro c hc; simp at hc; subst hc; exact hg) (by intro c hc; simp at hc; subst hc; exact ho)

/-- CTE nodes are different: the query is visited before the alias, although the alias is the first field. -/
theorem C36_cte_order (fns : FloatFns) :
    (stmtTrees fns (str% "WITH x AS (SELECT 1) SELECT 2;")).map visitedKinds =
      [[.QueryStmt, .CTE, .QueryStmt, .SQLSelect, .UnnamedSelectItem, .LongValue, .Ident,
        .SQLSelect, .UnnamedSelectItem, .LongValue]] := by kernel_rfl

/-- Every statement, as built by the parser or by hand in the typed model, is a well-typed tree at every depth. -/
theorem C36_typed (x : Stmt) : ∀ u, Occurs x.tree u → u.WellTyped := fun _ h => wtB_all (Stmt.tree_wt x) h

/-- `a + b * f(1)` -/
def sampleTree : Tree :=
  .mk .BinaryExpr 0 false [.one .Left (.mk .Ident 0 false []), .one .Op (.mk .Operator 0 false []),
    .one .Right (.mk .BinaryExpr 0 false [.one .Left (.mk .Ident 0 false []), .one .Op (.mk .Operator 0 false []),
      .one .Right (.mk .Function 0 false [.one .Name (.mk .ObjectName 0 false [.list .Idents [.mk .Ident 0 false []]]),
        .list .Args [.mk .LongValue 0 false []], .nil .Over])])]

theorem sampleTree_nodes : ∀ u ∈ sampleTree.nodes,
    wtLocal u.kind u.all u.fields = true ∧ u.kind ∉ reorderedKinds ∧ u.kind ∉ unknownKinds ∧
    (u.fields.all fun x => !unwalkedFields.contains (u.kind, x.name) &&
      !uncheckedFields.contains (u.kind, x.name)) = true := by
  simp only [sampleTree, Tree.nodes, Tree.nodesFields, Tree.nodesField, Tree.nodesList,
    List.cons_append, List.nil_append, List.append_nil, List.mem_cons, List.not_mem_nil, or_false]
  rintro u (rfl | rfl | rfl | rfl | rfl | rfl | rfl | rfl | rfl | rfl) <;>
    exact ⟨rfl, by decide, by decide, rfl⟩

theorem sampleTree_good : sampleTree.Good ∧ ∀ u, Occurs sampleTree u → u.kind ∉ reorderedKinds := by
  constructor
  · intro u hu
    obtain ⟨h1, _, h3, h4⟩ := sampleTree_nodes u ((mem_nodes_iff _ _).2 hu)
    refine ⟨?_, h3, ?_, ?_⟩
    · cases u; exact wtLocal_wellTyped h1
    · intro x hx hm
      have := List.all_eq_true.1 h4 x hx
      simp only [Bool.and_eq_true, Bool.not_eq_true'] at this
      have h5 : unwalkedFields.contains (u.kind, x.name) = true := by simpa using hm
      rw [this.1] at h5; cases h5
    · intro x hx hm
      have := List.all_eq_true.1 h4 x hx
      simp only [Bool.and_eq_true, Bool.not_eq_true'] at this
      have h5 : uncheckedFields.contains (u.kind, x.name) = true := by simpa using hm
      rw [this.2] at h5; cases h5
  · intro u hu
    exact (sampleTree_nodes u ((mem_nodes_iff _ _).2 hu)).2.1

example : ∃ l, inspect (loggedFn always) sampleTree ((), []) = .ok ((), l) ∧ l.length = 20 := ⟨_, rfl, rfl⟩

/-! ### C37 -/

/-- If the function returns false for a node, `Inspect` goes on with the siblings right away: no call for the
children, no closing call. -/
theorem C37_siblings {V σ : Type} (visit : V → Option Tree → σ → Option V × σ) (v : V) (t : Tree)
    (siblings : List Tree) (s s1 : σ) (h : visit v (some t) s = (none, s1)) :
    seqAll (walkList visit v (t :: siblings)) s = seqAll (walkList visit v siblings) s1 := by
  simp [walkList, seqAll, walk_eq, h]

/-- If whether to go on depends only on the node, the calls are those of the traversal without the subtrees of the
rejected nodes, for any side effects of the function. -/
theorem C37_pruned {σ : Type} (g : Tree → Bool) (f : Option Tree → σ → Bool × σ)
    (hf : ∀ t s, (f (some t) s).1 = g t) (t : Tree) (hg : t.Good)
    (ho : ∀ u, Occurs t u → u.kind ∉ reorderedKinds) (s : σ) :
    ∃ s' l, inspect (loggedFn f) t (s, []) = .ok (s', l) ∧ Pruned g [t] (l.map Prod.fst) := by
  obtain ⟨s', l, h1, h2, h3⟩ := pruned_aux (records_loggedFn f) (g := g)
    (by intro t s; simp only [inspectorVisit, loggedFn, hf]; cases g t <;> rfl) (sizeOf t + 1) [t]
    (by intro c hc; simp at hc; subst hc; omega) (by intro c hc; simp at hc; subst hc; exact hg) (s, [])
  simp only [List.map_cons, List.map_nil, seqAll_one, walkO] at h1
  simp at h2
  refine ⟨s'.1, s'.2, by rw [inspect, h1], ?_⟩
  rw [h2]
  exact prunedW_ordered h3 (by intro c hc; simp at hc; subst hc; exact hg)
    (by intro c hc; simp at hc; subst hc; exact ho)

/-- `Pruned` describes exactly one sequence of calls. -/
theorem C37_unique (g : Tree → Bool) (ts : List Tree) (l l' : List (Option Tree)) (h : Pruned g ts l)
    (h' : Pruned g ts l') : l = l' := by
  induction h generalizing l' with
  | done => cases h'; rfl
  | reject hf _ ih =>
    cases h' with
    | reject _ h2 => rw [ih _ h2]
    | accept ht => rw [hf] at ht; cases ht
  | accept ht _ _ ih1 ih2 =>
    cases h' with
    | reject hf => rw [hf] at ht; cases ht
    | accept _ h1 h2 => rw [ih1 _ h1, ih2 _ h2]

/-- In `a + b * f(1)`, reject the inner product: 5 calls. -/
example : ∃ l, inspect (loggedFn fun n (s : Unit) =>
      ((match n with | some (.mk .BinaryExpr _ _ (_ :: _ :: .one _ (.mk .Function _ _ _) :: _)) => false
                     | _ => true), s)) sampleTree ((), []) = .ok ((), l) ∧
    l.map (fun c => c.1.map Tree.kind) =
      [some .BinaryExpr, some .Ident, none, some .Operator, none, some .BinaryExpr, none] := ⟨_, rfl, rfl⟩

/-! ### C38 -/

/-- The part of C38 that holds: if no node is one of the exceptions, `Inspect` with a function that always wants to
go on returns, and the nodes it has passed to the function are exactly the nodes of the tree, each as often as it
occurs. -/
theorem C38_all_nodes_partial {σ : Type} (f : Option Tree → σ → Bool × σ) (hf : ∀ n s, (f n s).1 = true)
    (t : Tree) (hg : t.Good) (s : σ) :
    ∃ s' l, inspect (loggedFn f) t (s, []) = .ok (s', l) ∧ (l.filterMap Prod.fst).Perm t.nodes := by
  obtain ⟨s', l, h1, h2, h3⟩ := pruned_aux (records_loggedFn f) (g := fun _ => true)
    (by intro t s; simp only [inspectorVisit, loggedFn, hf]; rfl) (sizeOf t + 1) [t]
    (by intro c hc; simp at hc; subst hc; omega) (by intro c hc; simp at hc; subst hc; exact hg) (s, [])
  simp only [List.map_cons, List.map_nil, seqAll_one, walkO] at h1
  simp at h2
  refine ⟨s'.1, s'.2, by rw [inspect, h1], ?_⟩
  have := prunedW_perm h3
  rw [h2]
  simpa [List.filterMap_map] using this

/-- The same for the statements of the parser: only the exceptions have to be excluded. -/
theorem C38_stmt_partial {σ : Type} (f : Option Tree → σ → Bool × σ) (hf : ∀ n s, (f n s).1 = true)
    (x : Stmt) (hr : ∀ u, Occurs x.tree u → u.Regular) (s : σ) :
    ∃ s' l, inspect (loggedFn f) x.tree (s, []) = .ok (s', l) ∧
      ∀ u, Occurs x.tree u → some u ∈ l.map Prod.fst := by
  obtain ⟨s', l, h1, h2⟩ := C38_all_nodes_partial f hf x.tree
    (fun u hu => ⟨C36_typed x u hu, hr u hu⟩) s
  refine ⟨s', l, h1, fun u hu => ?_⟩
  have := h2.mem_iff.2 ((mem_nodes_iff _ _).2 hu)
  obtain ⟨c, hc, he⟩ := List.mem_filterMap.1 this
  exact List.mem_map.2 ⟨c, hc, he⟩

/-- When exactly `Inspect` panics, for every tree, if the function always wants to go on: when it gets to a node of
a type it does not know, or to one with a nil field that it does not check. -/
theorem C38_panics_iff {σ : Type} (f : Option Tree → σ → Bool × σ) (hf : ∀ n s, (f n s).1 = true)
    (t : Tree) (s : σ) :
    (∃ s', inspect f t s = .panic s') ↔ ∃ u, Reached t u ∧ u.Stuck :=
  walk_panic_iff (by intro n s; simp [inspectorVisit, hf]) t s

/-- C38 is false.  `Inspect` panics on CASE without operand, on UPDATE without WHERE and on PARTITION BY joins (not
built by the parser). -/
theorem C38_panic_false (fns : FloatFns) :
    (stmtTrees fns (str% "SELECT CASE WHEN a THEN b END;")).map returns = [false] ∧
    (stmtTrees fns (str% "UPDATE t SET a = 1;")).map returns = [false] ∧
    (stmtTrees fns (str% "UPDATE t SET a = 1 WHERE b;")).map returns = [true] := by
  refine ⟨?_, ?_, ?_⟩ <;> kernel_rfl

/-- C38 is false.  Nodes are left out: the branches of CASE, the columns of USING, array and custom types. -/
theorem C38_missing_false (fns : FloatFns) :
    (stmtTrees fns (str% "SELECT CASE a WHEN 1 THEN 2 ELSE 3 END;")).map visitedKinds =
      [[.QueryStmt, .SQLSelect, .UnnamedSelectItem, .CaseExpr, .Ident]] ∧
    (stmtTrees fns (str% "SELECT * FROM t x JOIN u y USING (a, b);")).map visitedKinds =
      [[.QueryStmt, .SQLSelect, .UnnamedSelectItem, .Wildcard, .QualifiedJoin, .TableJoinElement, .Table,
        .ObjectName, .Ident, .Ident, .JoinType, .TableJoinElement, .Table, .ObjectName, .Ident, .Ident,
        .NamedColumnsJoin]] ∧
    (stmtTrees fns (str% "CREATE TABLE t (a money AUTO_INCREMENT) ENGINE = x;")).map visitedKinds =
      [[.CreateTableStmt, .ObjectName, .Ident, .ColumnDef, .Ident, .Custom]] := by
  refine ⟨?_, ?_, ?_⟩ <;> kernel_rfl

/-- All the exceptions are needed: `Walk` has no case for `unknownKinds`, and for `unwalkedFields` the contents of
the field make no difference to the list of children. -/
theorem C38_exceptions :
    (∀ k ∈ unknownKinds, ∀ i a fs, (Tree.mk k i a fs).Stuck) ∧
    (∀ kf ∈ unwalkedFields, ∀ i a pre post x x', FieldVal.name x = kf.2 → FieldVal.name x' = kf.2 →
      (Tree.mk kf.1 i a (pre ++ x :: post)).walkKids = (Tree.mk kf.1 i a (pre ++ x' :: post)).walkKids) ∧
    (∀ kf ∈ uncheckedFields, ∀ i a fs, fs.find? (fun x => x.name == kf.2) = some (.nil kf.2) →
      (Tree.mk kf.1 i a fs).Stuck) := by
  refine ⟨?_, ?_, ?_⟩
  · intro k hk i a fs
    simp only [unknownKinds, List.mem_cons, List.not_mem_nil, or_false] at hk
    rcases hk with rfl | rfl | rfl | rfl | rfl | rfl <;> exact .inl rfl
  · have key : ∀ (f : FName) (pre post : List FieldVal) (x x' : FieldVal), x.name = f → x'.name = f →
        ∀ g, g ≠ f → (pre ++ x :: post).find? (fun y => y.name == g) =
          (pre ++ x' :: post).find? (fun y => y.name == g) := by
      intro f pre post x x' hx hx' g hg
      have h1 : (f == g) = false := by rw [beq_eq_false_iff_ne]; exact hg.symm
      simp [List.find?_append, List.find?_cons, hx, hx', h1]
    intro kf hk i a pre post x x' hx hx'
    have key := key kf.2 pre post x x' hx hx'
    simp only [unwalkedFields, List.mem_cons, List.not_mem_nil, or_false] at hk
    have w1 : Kind.walk .File = some [.list .Stmts] := rfl
    have w2 : Kind.walk .CaseExpr = some [.one .Operand] := rfl
    have w3 : Kind.walk .NamedColumnsJoin = some [] := rfl
    have w4 : Kind.walk .CreateTableStmt = some [.one .Name, .list .Elements] := rfl
    have w5 : Kind.walk .ColumnDef = some [.one .Name, .one .DataType, .opt .Default, .list .Constraints] := rfl
    have w6 : Kind.walk .Array = some [] := rfl
    have w7 : Kind.walk .Custom = some [] := rfl
    rcases hk with rfl | rfl | rfl | rfl | rfl | rfl | rfl | rfl | rfl <;>
      simp (disch := decide) only [Tree.walkKids, Tree.kind, Tree.all, Tree.fields, w1, w2, w3, w4, w5, w6, w7, Option.map_some,
        List.flatMap_cons, List.flatMap_nil, WStep.kids, key]
  · intro kf hk i a fs hx
    simp only [uncheckedFields, List.mem_cons, List.not_mem_nil, or_false] at hk
    rcases hk with rfl | rfl
    · have w : (Tree.mk .CaseExpr i a fs).walkKids = some ([.one .Operand].flatMap (WStep.kids a fs)) := rfl
      refine .inr ⟨_, w, ?_⟩
      simp only [List.flatMap_cons, WStep.kids, hx]; simp
    · have w : (Tree.mk .UpdateStmt i a fs).walkKids =
          some ([.one .TableName, .list .Assignments, .one .Selection].flatMap (WStep.kids a fs)) := rfl
      refine .inr ⟨_, w, ?_⟩
      simp only [List.flatMap_cons, WStep.kids, hx]; simp

/-! ### C39 -/

/-- A visitor that counts the depth: for each node it returns the visitor for the next depth; the state records at
which depth each node was visited. -/
def depthVisit (d : Nat) (n : Option Tree) (s : List (Nat × Kind)) : Option Nat × List (Nat × Kind) :=
  match n with
  | none => (none, s)
  | some t => (some (d + 1), s ++ [(d, t.kind)])

/-- C39 is false: with the visitor that counts the depth, all nodes are visited at depth 0; the contract would give
depth 1 to the operand. -/
theorem C39_depth_false :
    walk depthVisit 0 (.mk .Nested 0 false [.one .AST (.mk .Ident 0 false [])]) [] = .ok [(0, .Nested), (0, .Ident)] ∧
    Contract depthVisit Tree.fieldKids 0 [some (.mk .Nested 0 false [.one .AST (.mk .Ident 0 false [])])] []
      [(0, .Nested), (1, .Ident)] ∧
    ¬ Contract depthVisit Tree.fieldKids 0 [some (.mk .Nested 0 false [.one .AST (.mk .Ident 0 false [])])] []
      [(0, .Nested), (0, .Ident)] := by
  refine ⟨rfl, ?_, ?_⟩
  · exact .go (w := 1) (s1 := [(0, .Nested), (1, .Ident)]) rfl rfl
      (.go (w := 2) (s1 := [(0, .Nested), (1, .Ident)]) rfl rfl .done .done) .done
  · intro h
    cases h with
    | stop hv => cases hv
    | go hv hk hc hr =>
      cases hv; cases hk; cases hr
      cases hc with
      | stop hv => cases hv
      | go hv hk hc hr => cases hv; cases hk; cases hc; cases hr

/-- What the code does instead: of the returned visitor only matters whether it is nil.  Any two visitors that agree
on that and on the side effects give the same walk. -/
theorem C39_ignored {V W σ : Type} (visit : V → Option Tree → σ → Option V × σ)
    (visit' : W → Option Tree → σ → Option W × σ) (v : V) (w : W)
    (h1 : ∀ n s, (visit v n s).1.isSome = (visit' w n s).1.isSome)
    (h2 : ∀ n s, (visit v n s).2 = (visit' w n s).2) (t : Tree) (s : σ) :
    walk visit v t s = walk visit' w t s := by
  have := walk_map (h := id) h1 h2 t s
  rw [Out.map_id] at this
  exact this

/-- The part of C39 that holds: a visitor that always returns itself or nil is used as the contract says. -/
theorem C39_self_partial {V σ : Type} (visit : V → Option Tree → σ → Option V × σ) (v : V)
    (hself : ∀ n s, (visit v n s).1 = none ∨ (visit v n s).1 = some v) (t : Tree) (hg : t.Good)
    (ho : ∀ u, Occurs t u → u.kind ∉ reorderedKinds) (s s' : σ) (h : walk visit v t s = .ok s') :
    Contract visit Tree.fieldKids v [some t] s s' :=
  contract_ordered (walk_contract hself h)
    (by intro c hc; simp at hc; subst hc; exact hg) (by intro c hc; simp at hc; subst hc; exact ho)

example : ∀ n (s : Unit), (inspectorVisit always () n s).1 = none ∨ (inspectorVisit always () n s).1 = some () :=
  fun _ _ => .inr rfl

end Verif
