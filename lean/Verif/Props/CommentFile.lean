/-
C38 and C44 for files as they come from the parser: `Inspect` as `NewCommentMap` uses it, and `NewCommentMap` on the
file, its comments and the positions that the parser has recorded.

A parsed file in the typed model has no addresses; `t.anon = f.tree` says that `t` is that file with some choice of
addresses.
-/
import Verif.Props.CommentMap
import Verif.Props.Walk
import Verif.Props.Soundness
import Verif.Proofs.FineStmt
import Verif.Proofs.LineBound
set_option maxRecDepth 100000

namespace Verif
open Spec

/-- If the function goes on at every node and stops at nil (like the one in `nodeList`), `Inspect` panics exactly on
the trees in which it gets to a node of a type it does not know. -/
theorem C38_nil_iff {σ : Type} (f : Option Tree → σ → Bool × σ) (hf : ∀ t s, (f (some t) s).1 = true)
    (hn : ∀ s, (f none s).1 = false) (t : Tree) (s : σ) :
    (∃ s', inspect f t s = .panic s') ↔ ∃ u, Reached t u ∧ u.kind ∈ unknownKinds := by
  rw [inspect, walk_unknown_iff (by intro t s; simp [inspectorVisit, hf]) (by intro s; simp [inspectorVisit, hn])]
  simp only [walkKids_none]

theorem parseFile_runSQL {fns : FloatFns} {n : Nat} {mode : Bool} {toks : List Token} {f : File} {s : PState}
    (h : parseFile fns n mode (newParser toks) = .ok f s) : runSQL fns n mode toks = .ok f.stmts () := by
  unfold parseFile at h
  split at h
  · rename_i stmts s' hs
    cases h
    simp only [runSQL, hs, Res.outcome]
  all_goals cases h

theorem parsed_shape {d : Dialect} {keep : Bool} {fuel : Nat} {src : Str} {fns : FloatFns} {n : Nat} {mode : Bool}
    {toks : List Token} {f : File} {s : PState} (ht : tokenize d keep fuel src = .ok toks)
    (h : parseFile fns n mode (newParser toks) = .ok f s) : ∀ x ∈ f.stmts, x.shape (fun _ => true) = true :=
  C49_statements_shape fns n mode _ toks (tokenizeFrom_kwOK ht) (by
    intro t ht w hw; trivial) f.stmts (parseFile_runSQL h)

/-- In a parsed file there is no such node: for every source text and every such function, `Inspect` on the file
returns.  (With a function that goes on at nil it need not, see `C38_panic_false`.) -/
theorem C38_parsed {d : Dialect} {fuel : Nat} {src : Str} {fns : FloatFns} {n : Nat} {toks : List Token} {f : File}
    {s : PState} (ht : tokenize d true fuel src = .ok toks) (h : parseFile fns n true (newParser toks) = .ok f s)
    {σ : Type} (g : Option Tree → σ → Bool × σ) (hg : ∀ t s, (g (some t) s).1 = true)
    (hn : ∀ s, (g none s).1 = false) (t : Tree) (hta : t.anon = f.tree) (s0 : σ) :
    ∃ s', inspect g t s0 = .ok s' := by
  have hf : Fine False t := Fine.of_anon (by
    rw [hta]; exact File.fine f (parsed_shape ht h) (C19_sorted (C19_tokenized ht).1 h).1 (fun hb => hb.elim))
  cases hr : inspect g t s0 with
  | ok s' => exact ⟨s', rfl⟩
  | panic s' =>
    obtain ⟨u, hu, hk⟩ := (C38_nil_iff g hg hn t s0).1 ⟨s', hr⟩
    have := (hf u hu).1
    rw [walkKids_none.2 hk] at this
    cases this

/-! ### C44 -/

theorem parsed_comment_line {d : Dialect} {fuel : Nat} {src : Str} {fns : FloatFns} {n : Nat} {toks : List Token}
    {f : File} {s : PState} (ht : tokenize d true fuel src = .ok toks)
    (h : parseFile fns n true (newParser toks) = .ok f s) :
    ∀ g ∈ f.comments, ∀ c ∈ g.list, c.to_.line ≤ 1 + src.length := by
  intro g hg c hc
  have hm : c ∈ commentsOf toks := by
    rw [← C18_comments_complete_text ht h]; exact List.mem_flatMap.2 ⟨g, hg, hc⟩
  obtain ⟨t, htm, he⟩ := List.mem_filterMap.1 hm
  split at he
  · cases he; exact tokenize_line_bound ht t htm
  · cases he

/-- For every source text that is parsed: unless `Inspect` gets to a node whose `Pos` or `End` panics (`Tree.trap`:
a column without constraints, CREATE TABLE without elements, `OVER ()`, a file without statements), `NewCommentMap`
returns, with the nil map if there are no comments, and otherwise with a map that has every comment of the source
text exactly once, in order, each with a node of the file. -/
theorem C44_parsed_partial {d : Dialect} {fuel : Nat} {src : Str} {fns : FloatFns} {n : Nat} {toks : List Token}
    {f : File} {s : PState} (ht : tokenize d true fuel src = .ok toks)
    (h : parseFile fns n true (newParser toks) = .ok f s) (hlen : src.length < 2 ^ 30 - 1)
    (t : Tree) (hta : t.anon = f.tree) (hclear : ∀ u, Reached f.tree u → u.trap = false) :
    f.comments.flatMap (·.list) = commentsOf toks ∧
    ((f.comments = [] ∧ newCommentMap Tree.pos? Tree.end? t f.comments = .ret none) ∨
     (f.comments ≠ [] ∧ ∃ m nodes, newCommentMap Tree.pos? Tree.end? t f.comments = .ret (some m) ∧
      (∀ u ∈ nodes, Occurs t u) ∧ Distributes nodes f.comments m)) := by
  refine ⟨C18_comments_complete_text ht h, ?_⟩
  have hne := (C19_sorted (C19_tokenized ht).1 h).1
  have hf : Fine True t := Fine.of_anon (by
    rw [hta]; exact File.fine f (parsed_shape ht h) hne (fun _ => hclear))
  obtain ⟨nodes, hn⟩ := Option.isSome_iff_exists.1 ((nodeList_some_iff t).2 fun u hu hk => by
    have := (hf u hu).1
    rw [walkKids_none.2 hk] at this
    cases this)
  have hr := (nodeList_spec hn).2
  obtain ⟨m, hm⟩ := C44_returns Tree.pos? Tree.end? t f.comments nodes hn
    (fun u hu => ((hf u (hr u hu)).2 trivial).1) (fun u hu => ((hf u (hr u hu)).2 trivial).2) hne
    (fun g hg c hc => by have := parsed_comment_line ht h g hg c hc; omega)
  rw [hm]
  rcases C44_distributes_partial _ _ _ _ _ hm with ⟨h1, h2⟩ | ⟨h1, m', nodes', h2, h3, h4⟩
  · exact .inl ⟨h1, by rw [h2]⟩
  · exact .inr ⟨h1, m', nodes', by rw [h2], h3, h4⟩

theorem first_group {d : Dialect} {fuel : Nat} {src : Str} {fns : FloatFns} {n : Nat} {toks : List Token}
    {f : File} {s : PState} (ht : tokenize d true fuel src = .ok toks)
    (h : parseFile fns n true (newParser toks) = .ok f s) {g : CommentGroup} {gs : List CommentGroup}
    (hc : f.comments = g :: gs) :
    ∃ p e, g.pos? = some p ∧ g.end? = some e ∧ p.lt e := by
  obtain ⟨hi, hd⟩ := C19_tokenized ht
  have hne := (C19_sorted hi h).1 g (by rw [hc]; exact List.mem_cons_self ..)
  have hall := C18_comments_complete_text ht h
  have hp : (commentsOf toks).Pairwise fun a b => comparePos a.from_ b.from_ = -1 := Sorted.comments hi
  rw [← hall, hc, List.flatMap_cons] at hp
  have hp := (List.pairwise_append.1 hp).1
  have hto : ∀ c ∈ g.list, c.from_.lt c.to_ := by
    intro c hcm
    have hm : c ∈ commentsOf toks := by
      rw [← hall, hc]; exact List.mem_flatMap.2 ⟨g, List.mem_cons_self .., hcm⟩
    obtain ⟨t, htm, he⟩ := List.mem_filterMap.1 hm
    split at he
    · cases he; exact (comparePos_lt_iff _ _).1 (hd.1 t htm)
    · cases he
  obtain ⟨l⟩ := g
  cases l with
  | nil => exact absurd rfl hne
  | cons a l =>
    refine ⟨a.from_, ((a :: l).getLast (by simp)).to_, rfl, ?_, ?_⟩
    · simp only [CommentGroup.end?, List.getLast?_eq_some_getLast (List.cons_ne_nil a l), Option.map_some]
    · have hl := hto _ (List.getLast_mem (List.cons_ne_nil a l))
      rcases List.mem_cons.1 (List.getLast_mem (List.cons_ne_nil a l)) with he | hm
      · rw [he] at hl ⊢; exact hl
      · have := (comparePos_lt_iff _ _).1 ((List.pairwise_cons.1 hp).1 _ hm)
        unfold Pos.lt at *; omega

/-- C44 is false: if there is a comment anywhere in the file and `File.Pos` or `File.End` panics, `NewCommentMap`
panics. -/
theorem C44_file_span_false {d : Dialect} {fuel : Nat} {src : Str} {fns : FloatFns} {n : Nat} {toks : List Token}
    {f : File} {s : PState} (ht : tokenize d true fuel src = .ok toks)
    (h : parseFile fns n true (newParser toks) = .ok f s) (t : Tree) (hta : t.anon = f.tree)
    (hc : commentsOf toks ≠ []) (hp : f.pos = none ∨ f.end_ = none) :
    newCommentMap Tree.pos? Tree.end? t f.comments = .panic := by
  have hpos : t.pos? = f.pos := by
    have : t.anon.pos? = f.tree.pos? := by rw [hta]
    obtain ⟨k, r, a, fs⟩ := t; exact this
  have hend : t.end? = f.end_ := by
    have : t.anon.end? = f.tree.end? := by rw [hta]
    obtain ⟨k, r, a, fs⟩ := t; exact this
  cases hcs : f.comments with
  | nil =>
    have := C18_comments_complete_text ht h
    rw [hcs] at this
    exact absurd this.symm hc
  | cons g gs =>
    simp only [newCommentMap, if_neg (List.cons_ne_nil g gs)]
    cases hn : nodeList t with
    | none => rfl
    | some nodes =>
      obtain ⟨rest, rfl⟩ := (nodeList_spec hn).1
      simp only [List.map_cons, List.cons_append, cmOuter, nodePos, hpos]
      cases hq : f.pos with
      | none => rfl
      | some q =>
        obtain ⟨p, e, h1, h2, h3⟩ := first_group ht h hcs
        have hlt : comparePos q e = -1 := by
          rw [comparePos_lt_iff]
          simp only [File.pos, hcs, List.head?_cons, h1, Option.map_some, Option.bind_eq_some_iff,
            Option.some.injEq] at hq
          obtain ⟨a, -, rfl⟩ := hq
          split
          · exact h3
          · rename_i hne
            have : ¬ p.lt a := by
              intro hl
              apply hne
              unfold Pos.lt at hl
              simp only [comparePos]
              split
              · omega
              · split <;> first | rfl | (split <;> first | rfl | omega)
            unfold Pos.lt at *; omega
        have hi : cmInner Tree.end? (some t) q none Pos.zero (g :: gs) ⟨fun _ => [], none, Pos.zero, []⟩ =
            .next (g :: gs) ⟨fun _ => [], none, Pos.zero, []⟩ := by
          simp only [cmInner, h1, h2, hlt, ne_eq, not_true_eq_false, if_false]
        simp only [hi]
        have he : t.end? = none := by
          rw [hend]; rcases hp with hp | hp
          · rw [hp] at hq; cases hq
          · exact hp
        simp only [he]

/-- The usual case: the last statement is CREATE TABLE, and its last element is a column without constraints. -/
theorem C44_plain_column_false {d : Dialect} {fuel : Nat} {src : Str} {fns : FloatFns} {n : Nat} {toks : List Token}
    {f : File} {s : PState} (ht : tokenize d true fuel src = .ok toks)
    (h : parseFile fns n true (newParser toks) = .ok f s) (t : Tree) (hta : t.anon = f.tree)
    (hc : commentsOf toks ≠ []) {pre : List Stmt} {create : Pos} {name : ObjectName} {es : List TableElement}
    {c : ColumnDef} {ne : Bool} {opts : List TableOption}
    (hs : f.stmts = pre ++ [.createTable create name (es ++ [.column c]) ne opts]) (hcons : c.constraints = []) :
    newCommentMap Tree.pos? Tree.end? t f.comments = .panic := by
  refine C44_file_span_false ht h t hta hc (.inr ?_)
  simp [File.end_, hs, Stmt.end_, TableElement.end_, ColumnDef.end_, hcons]

/-- What `ParseFile` makes of a text, in the generic dialect, with comments. -/
def fileOf (fns : FloatFns) (src : Str) : Option (List Token × File) :=
  match tokenize genericDialect true (src.length + 1) src with
  | .ok toks =>
    match parseFile fns (3 * toks.length + 3) true (newParser toks) with
    | .ok f _ => some (toks, f)
    | _ => none
  | _ => none

theorem fileOf_some {fns : FloatFns} {src : Str} {p : List Token → File → Bool}
    (h : ((fileOf fns src).map fun x => p x.1 x.2) = some true) : ∃ toks f s, tokenize genericDialect true
      (src.length + 1) src = .ok toks ∧ parseFile fns (3 * toks.length + 3) true (newParser toks) = .ok f s ∧
      p toks f = true := by
  unfold fileOf at h
  split at h
  · rename_i toks ht
    split at h
    · rename_i f s hx
      exact ⟨toks, f, s, ht, hx, by simpa using h⟩
    · cases h
  · cases h

mutual
/-- The tree with the addresses `k`, `k + 1`, ... in the order of the source, and the next address. -/
def Tree.number (k : Nat) : Tree → Tree × Nat
  | .mk kd r a fs => let x := Tree.numberFields (k + 1) fs; (.mk kd ⟨k, r.pos, r.end_⟩ a x.1, x.2)
def Tree.numberFields (k : Nat) : List FieldVal → List FieldVal × Nat
  | [] => ([], k)
  | x :: xs => let y := x.number k; let ys := Tree.numberFields y.2 xs; (y.1 :: ys.1, ys.2)
def FieldVal.number (k : Nat) : FieldVal → FieldVal × Nat
  | .nil f => (.nil f, k)
  | .one f t => let x := t.number k; (.one f x.1, x.2)
  | .list f ts => let x := Tree.numberList k ts; (.list f x.1, x.2)
def Tree.numberList (k : Nat) : List Tree → List Tree × Nat
  | [] => ([], k)
  | t :: ts => let y := t.number k; let ys := Tree.numberList y.2 ts; (y.1 :: ys.1, ys.2)
end

mutual
theorem Tree.number_anon (k : Nat) : ∀ t : Tree, (t.number k).1.anon = t.anon
  | .mk kd r a fs => by simp only [Tree.number, Tree.anon, Tree.numberFields_anon]
theorem Tree.numberFields_anon (k : Nat) : ∀ xs : List FieldVal,
    Tree.anonFields (Tree.numberFields k xs).1 = Tree.anonFields xs
  | [] => rfl
  | x :: xs => by simp only [Tree.numberFields, Tree.anonFields, FieldVal.number_anon, Tree.numberFields_anon]
theorem FieldVal.number_anon (k : Nat) : ∀ x : FieldVal, (x.number k).1.anon = x.anon
  | .nil f => rfl
  | .one f t => by simp only [FieldVal.number, FieldVal.anon, Tree.number_anon]
  | .list f ts => by simp only [FieldVal.number, FieldVal.anon, Tree.numberList_anon]
theorem Tree.numberList_anon (k : Nat) : ∀ ts : List Tree,
    Tree.anonList (Tree.numberList k ts).1 = Tree.anonList ts
  | [] => rfl
  | t :: ts => by simp only [Tree.numberList, Tree.anonList, Tree.number_anon, Tree.numberList_anon]
end

def cmSrc : Str := str% "-- c\nSELECT a FROM t; -- d\n\n-- e\nUPDATE t SET a = 1;\nCREATE TABLE u (x int NOT NULL -- f\n);"

/-- Hypotheses of `C44_parsed_partial` met: no trap anywhere in the file. -/
theorem cmSrc_clear (fns : FloatFns) : ((fileOf fns cmSrc).map fun x =>
    !(commentsOf x.1).isEmpty && x.2.tree.nodes.all fun u => !u.trap) = some true := by kernel_rfl

example (fns : FloatFns) : ∃ toks f s, tokenize genericDialect true (cmSrc.length + 1) cmSrc = .ok toks ∧
    parseFile fns (3 * toks.length + 3) true (newParser toks) = .ok f s ∧ cmSrc.length < 2 ^ 30 - 1 ∧
    commentsOf toks ≠ [] ∧ ∀ u, Reached f.tree u → u.trap = false := by
  obtain ⟨toks, f, s, h1, h2, h3⟩ := fileOf_some (p := fun toks f =>
    !(commentsOf toks).isEmpty && f.tree.nodes.all fun u => !u.trap) (cmSrc_clear fns)
  simp only [Bool.and_eq_true, List.all_eq_true, Bool.not_eq_true'] at h3
  refine ⟨toks, f, s, h1, h2, by decide, ?_, fun u hu => h3.2 u ((mem_nodes_iff _ _).2 hu.occurs)⟩
  intro h; rw [h] at h3; cases h3.1

/-- The nodes of the file with comments: the type of the node and the texts of its comments. -/
def mapOf (fns : FloatFns) (src : Str) : Option (List (Kind × List Str)) :=
  (fileOf fns src).bind fun x =>
    let t := (x.2.tree.number 1).1
    match newCommentMap Tree.pos? Tree.end? t x.2.comments with
    | .ret (some m) => some (t.nodes.filterMap fun u =>
        if (m u.id).isEmpty then none else some (u.kind, (m u.id).flatMap fun g => g.list.map Comment.text))
    | _ => none

/-- Where the comments of this text go. -/
example (fns : FloatFns) : mapOf fns cmSrc =
    some [(.QueryStmt, [str% " c", str% " d"]), (.UpdateStmt, [str% " e"]), (.CreateTableStmt, [str% " f"])] := by
  kernel_rfl

/-- `NewCommentMap` panics. -/
def mapPanics (fns : FloatFns) (src : Str) : Bool :=
  match fileOf fns src with
  | none => false
  | some x => match newCommentMap Tree.pos? Tree.end? (x.2.tree.number 1).1 x.2.comments with
    | .panic => true
    | _ => false

/-- C44 is false of these texts, all of them accepted by `ParseFile`: a table whose last column has no constraint, a
table without elements, an empty OVER clause, a column without constraint before another statement, comments only. -/
theorem C44_panic_false (fns : FloatFns) :
    mapPanics fns (str% "CREATE TABLE t (a int /* c */);") = true ∧
    mapPanics fns (str% "-- c\nCREATE TABLE t;") = true ∧
    mapPanics fns (str% "SELECT f(a) OVER () -- c\n;") = true ∧
    mapPanics fns (str% "CREATE TABLE t (a int); SELECT 1; -- c") = true ∧
    mapPanics fns (str% "-- c") = true ∧
    mapPanics fns cmSrc = false := by
  refine ⟨?_, ?_, ?_, ?_, ?_, ?_⟩ <;> kernel_rfl

end Verif
