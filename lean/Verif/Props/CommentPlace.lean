/-
C55: which node `NewCommentMap` attaches a comment to.
-/
import Verif.Proofs.CommentPlace
import Verif.Props.CommentFile
set_option maxRecDepth 100000

namespace Verif
open Spec

/-- C55: for all trees, comments in order and all results of the methods `Pos` and `End`: if `NewCommentMap` returns,
every comment group is attached to a node that it belongs to (`Belongs`). -/
theorem C55_place (posOf endOf : Tree → Option Pos) (file : Tree) (comments : List CommentGroup) (nodes : List Tree)
    (hn : nodeList file = some nodes) (hord : InOrder comments)
    (hinf : ∀ c ∈ comments, ∀ e, c.end? = some e → e.line + 1 < 2 ^ 30) (m : CommentMap)
    (h : newCommentMap posOf endOf file comments = .ret (some m)) : Attached posOf endOf nodes comments m := by
  simp only [newCommentMap] at h
  by_cases hc : comments = []
  · rw [if_pos hc] at h; cases h
  · rw [if_neg hc, hn] at h
    obtain ⟨m', h1, h2⟩ := outer_place (nodes := nodes) nodes [] comments [] _ Pos.zero (some m) rfl (by simp) (by simp)
      hord hinf (by simp) ⟨by simp, by simp⟩ (by intro f u b hsp; simp at hsp) ⟨[], rfl, by simp, fun _ => rfl⟩ h
    cases h1
    simpa using h2

theorem Attached.mem {posOf endOf : Tree → Option Pos} {nodes : List Tree} {cs : List CommentGroup} {m : CommentMap}
    (h : Attached posOf endOf nodes cs m) {c : CommentGroup} (hc : c ∈ cs) :
    ∃ n, Belongs posOf endOf nodes c n ∧ c ∈ m n.id := by
  obtain ⟨ns, h1, h2, h3⟩ := h
  have key : ∀ (cs : List CommentGroup) (ns : List Tree), ns.length = cs.length → c ∈ cs →
      ∃ n, (c, n) ∈ cs.zip ns ∧ c ∈ attached n.id (ns.map Tree.id) cs := by
    intro cs
    induction cs with
    | nil => intro ns _ h; cases h
    | cons d cs ih =>
      intro ns hl hm
      cases ns with
      | nil => simp at hl
      | cons n ns =>
        rcases List.mem_cons.1 hm with rfl | hm
        · exact ⟨n, by simp, by simp [attached]⟩
        · obtain ⟨k, k1, k2⟩ := ih ns (by simpa using hl) hm
          refine ⟨k, by simp [k1], ?_⟩
          simp only [List.map_cons, attached]
          split
          · exact List.mem_cons_of_mem _ k2
          · exact k2
  obtain ⟨n, k1, k2⟩ := key cs ns h1 hc
  exact ⟨n, h2 _ k1, by rw [h3]; exact k2⟩

theorem Between.unique {posOf : Tree → Option Pos} {nodes : List Tree} {rend : Pos} {p1 n1 p2 n2 : List Tree}
    (hpos : ∀ t ∈ nodes, (posOf t).isSome) (h1 : Between posOf nodes rend p1 n1) (h2 : Between posOf nodes rend p2 n2) :
    p1 = p2 ∧ n1 = n2 := by
  have key : ∀ {p1 n1 p2 n2 m : List Tree}, Between posOf nodes rend p1 n1 → Between posOf nodes rend p2 n2 →
      p2 = p1 ++ m → n1 = m ++ n2 → m = [] := by
    intro p1 n1 p2 n2 m h1 h2 e1 e2
    cases m with
    | nil => rfl
    | cons x m =>
      have hx : x ∈ nodes := by rw [h1.nodes, e2]; simp
      obtain ⟨p, hp⟩ := Option.isSome_iff_exists.1 (hpos x hx)
      exact absurd (h2.prev x (by rw [e1]; simp) p hp) (h1.next x (by rw [e2]; rfl) p hp)
  have he := h1.nodes.symm.trans h2.nodes
  rcases List.append_eq_append_iff.1 he with ⟨m, e1, e2⟩ | ⟨m, e1, e2⟩
  · have := key h1 h2 e1 e2; subst this; simp at e1 e2; exact ⟨e1.symm, e2⟩
  · have := key h2 h1 e1 e2; subst this; simp at e1 e2; exact ⟨e1, e2.symm⟩

/-- A trailing comment: if the comment starts on the line where a statement that is in no other one has ended — or on
the next line, with an empty line before the next node — it is attached to this statement. -/
theorem C55_trailing (posOf endOf : Tree → Option Pos) (file : Tree) (comments : List CommentGroup)
    (hord : InOrder comments) (hinf : ∀ c ∈ comments, ∀ e, c.end? = some e → e.line + 1 < 2 ^ 30) (m : CommentMap)
    (h : newCommentMap posOf endOf file comments = .ret (some m))
    (front : List Tree) (u : Tree) (behind next : List Tree) (hn : nodeList file = some (front ++ u :: behind ++ next))
    (hpos : ∀ t ∈ front ++ u :: behind ++ next, (posOf t).isSome) (htop : TopLevel posOf endOf front u behind)
    (c : CommentGroup) (hc : c ∈ comments) (rpos rend e : Pos) (hcp : c.pos? = some rpos) (hce : c.end? = some rend)
    (hbt : Between posOf (front ++ u :: behind ++ next) rend (front ++ u :: behind) next) (he : endOf u = some e)
    (hended : ¬ rpos.lt e) (hf : FollowsOn e rpos rend (next.head?.bind posOf)) : c ∈ m u.id := by
  obtain ⟨n, ⟨prev, next', rpos', rend', b1, b2, b3, -, b5⟩, hm⟩ :=
    (C55_place posOf endOf file comments _ hn hord hinf m h).mem hc
  rw [hcp] at b1; rw [hce] at b2; cases b1; cases b2
  obtain ⟨e1, e2⟩ := hbt.unique hpos b3
  subst e1 e2
  rw [← b5 front u behind e rfl htop he hended hf]
  exact hm

/-- A comment above: if no node in front of the comment ends on the line where it starts, and there is no empty line
between it and the next node, it is attached to the next node. -/
theorem C55_leading (posOf endOf : Tree → Option Pos) (file : Tree) (comments : List CommentGroup)
    (hord : InOrder comments) (hinf : ∀ c ∈ comments, ∀ e, c.end? = some e → e.line + 1 < 2 ^ 30) (m : CommentMap)
    (h : newCommentMap posOf endOf file comments = .ret (some m))
    (prev : List Tree) (q : Tree) (next : List Tree) (hn : nodeList file = some (prev ++ q :: next))
    (hpos : ∀ t ∈ prev ++ q :: next, (posOf t).isSome)
    (c : CommentGroup) (hc : c ∈ comments) (rpos rend qpos : Pos) (hcp : c.pos? = some rpos) (hce : c.end? = some rend)
    (hbt : Between posOf (prev ++ q :: next) rend prev (q :: next)) (hq : posOf q = some qpos)
    (hprev : ∀ t ∈ prev, ∀ e, endOf t = some e → e.line ≠ rpos.line) (hline : qpos.line ≤ rend.line + 1) :
    c ∈ m q.id := by
  obtain ⟨n, ⟨prev', next', rpos', rend', b1, b2, b3, b4, -⟩, hm⟩ :=
    (C55_place posOf endOf file comments _ hn hord hinf m h).mem hc
  rw [hcp] at b1; rw [hce] at b2; cases b1; cases b2
  obtain ⟨e1, e2⟩ := hbt.unique hpos b3
  subst e1 e2
  have hnf : ∀ t ∈ prev, ∀ e, endOf t = some e →
      ¬ FollowsOn e rpos rend ((q :: next).head?.bind posOf) := by
    intro t ht e he hf
    rcases hf with hf | ⟨-, hf⟩
    · exact hprev t ht e he hf
    · have := hf qpos (by simpa using hq)
      omega
  rcases b4 with ⟨k1, -, e, k2, -, k3⟩ | ⟨k1, e, k2, k3⟩ | ⟨k1, -⟩
  · exact absurd k3 (hnf n k1 e k2)
  · rcases k3 with k3 | k3
    · exact absurd k3 (hnf n (List.mem_of_getLast? k1) e k2)
    · cases k3
  · simp at k1; subst k1; exact hm

/-- The comments of a parsed file are in order. -/
theorem C55_in_order {d : Dialect} {fuel : Nat} {src : Str} {fns : FloatFns} {n : Nat} {toks : List Token}
    {f : File} {s : PState} (ht : tokenize d true fuel src = .ok toks)
    (h : parseFile fns n true (newParser toks) = .ok f s) : InOrder f.comments := by
  obtain ⟨hi, hd⟩ := C19_tokenized ht
  have hne := (C19_sorted hi h).1
  have hall := C18_comments_complete_text ht h
  -- the comments themselves
  have hto : ∀ c ∈ commentsOf toks, c.from_.lt c.to_ := by
    intro c hcm
    obtain ⟨t, htm, he⟩ := List.mem_filterMap.1 hcm
    split at he
    · cases he; exact (comparePos_lt_iff _ _).1 (hd.1 t htm)
    · cases he
  have hp : (commentsOf toks).Pairwise fun a b => ¬ b.from_.lt a.to_ := by
    unfold commentsOf
    rw [List.pairwise_filterMap]
    refine hd.2.imp ?_
    intro a b hab x hx y hy
    split at hx
    · cases hx
      split at hy
      · cases hy
        simp only
        intro hl
        rw [(comparePos_lt_iff _ _).2 hl] at hab
        exact hab (by decide)
      · cases hy
    · cases hx
  rw [← hall] at hto hp
  revert hne hto hp
  generalize f.comments = gs
  intro hne hto hp
  induction gs with
  | nil => exact ⟨by simp, List.Pairwise.nil⟩
  | cons g gs ih =>
    rw [List.flatMap_cons] at hto hp
    obtain ⟨p1, p2, p3⟩ := List.pairwise_append.1 hp
    obtain ⟨i1, i2⟩ := ih (fun x hx => hne x (List.mem_cons_of_mem _ hx)) (fun c hc => hto c (by simp [hc])) p2
    refine ⟨?_, List.pairwise_cons.2 ⟨?_, i2⟩⟩
    · intro x hx
      rcases List.mem_cons.1 hx with rfl | hx
      · cases hl : x.list with
        | nil => exact absurd hl (hne x (List.mem_cons_self ..))
        | cons a l =>
          refine ⟨a.from_, ((a :: l).getLast (by simp)).to_, by simp [CommentGroup.pos?, hl], ?_, ?_⟩
          · simp only [CommentGroup.end?, hl, List.getLast?_eq_some_getLast (List.cons_ne_nil a l), Option.map_some]
          · rw [hl] at p1 hto
            have ha := hto a (by simp)
            have hb := hto ((a :: l).getLast (by simp)) (by
              exact List.mem_append_left _ (List.getLast_mem (List.cons_ne_nil a l)))
            rcases List.mem_cons.1 (List.getLast_mem (List.cons_ne_nil a l)) with he | hm
            · rw [he]; exact ha
            · have := (List.pairwise_cons.1 p1).1 _ hm
              unfold Pos.lt at *; omega
      · exact i1 x hx
    · intro x hx e p he hxp
      simp only [CommentGroup.end?, Option.map_eq_some_iff] at he
      simp only [CommentGroup.pos?, Option.map_eq_some_iff] at hxp
      obtain ⟨a, ha, rfl⟩ := he
      obtain ⟨b, hb, rfl⟩ := hxp
      exact p3 a (List.mem_of_getLast? ha) b (List.mem_flatMap.2 ⟨x, hx, List.mem_of_mem_head? hb⟩)

/-- C55 for every source text that is parsed: if `NewCommentMap` returns a map for the file, every comment group of
the source is attached to a node that it belongs to. -/
theorem C55_parsed {d : Dialect} {fuel : Nat} {src : Str} {fns : FloatFns} {n : Nat} {toks : List Token}
    {f : File} {s : PState} (ht : tokenize d true fuel src = .ok toks)
    (h : parseFile fns n true (newParser toks) = .ok f s) (hlen : src.length < 2 ^ 30 - 2)
    (t : Tree) (m : CommentMap) (hm : newCommentMap Tree.pos? Tree.end? t f.comments = .ret (some m)) :
    ∃ nodes, nodeList t = some nodes ∧ Attached Tree.pos? Tree.end? nodes f.comments m := by
  cases hn : nodeList t with
  | none =>
    simp only [newCommentMap, hn] at hm
    split at hm <;> cases hm
  | some nodes =>
    refine ⟨nodes, rfl, C55_place _ _ t f.comments nodes hn (C55_in_order ht h) ?_ m hm⟩
    intro c hc e he
    simp only [CommentGroup.end?, Option.map_eq_some_iff] at he
    obtain ⟨a, ha, rfl⟩ := he
    have := parsed_comment_line ht h c hc a (List.mem_of_getLast? ha)
    omega

/-! ### Hypotheses met -/

/-- What the theorems say of `cmFile`: the first comment trails the first statement, the second one is above the
second statement. -/
example : InOrder cmComments := by
  refine ⟨?_, ?_⟩
  · intro c hc
    simp only [cmComments, List.mem_cons, List.not_mem_nil, or_false] at hc
    rcases hc with rfl | rfl
    · exact ⟨⟨1, 10⟩, ⟨1, 15⟩, rfl, rfl, by simp [Pos.lt]⟩
    · exact ⟨⟨3, 1⟩, ⟨3, 6⟩, rfl, rfl, by simp [Pos.lt]⟩
  · simp [cmComments, CommentGroup.pos?, CommentGroup.end?, Pos.lt]

/-- The nodes of one statement in the order of `Inspect`. -/
def cmNodes (i : Nat) : List Tree := match nodeList (cmStmt i) with
  | some (_ :: ts) => ts
  | _ => []

/-- Hypotheses of `C55_trailing` met. -/
example : nodeList cmFile = some ([cmFile] ++ cmStmt 10 :: cmNodes 10 ++ cmStmt 20 :: cmNodes 20) ∧
    TopLevel cmPos cmEnd [cmFile] (cmStmt 10) (cmNodes 10) ∧
    Between cmPos ([cmFile] ++ cmStmt 10 :: cmNodes 10 ++ cmStmt 20 :: cmNodes 20) ⟨1, 15⟩
      ([cmFile] ++ cmStmt 10 :: cmNodes 10) (cmStmt 20 :: cmNodes 20) ∧
    FollowsOn ⟨1, 9⟩ ⟨1, 10⟩ ⟨1, 15⟩ ((cmStmt 20 :: cmNodes 20).head?.bind cmPos) := by
  have h10 : ∀ t ∈ cmNodes 10, 10 ≤ t.id ∧ t.id < 20 ∧ ¬ t.isGroup := by
    have : (cmNodes 10).all (fun t => decide (10 ≤ t.id ∧ t.id < 20) && !pushedKinds.contains t.kind) = true := by
      kernel_rfl
    intro t ht
    have := List.all_eq_true.1 this t ht
    simp only [Bool.and_eq_true, decide_eq_true_eq, Bool.not_eq_true'] at this
    exact ⟨this.1.1, this.1.2, fun h => by rw [(isGroup_iff t).2 h] at this; cases this.2⟩
  refine ⟨by kernel_rfl, ⟨(isGroup_iff _).1 (by kernel_rfl), ?_, ?_, ?_⟩, ⟨by simp, ?_, ?_⟩, .inl rfl⟩
  · intro t ht hg
    simp at ht
    subst ht
    exact absurd ((isGroup_iff _).2 hg) (by decide)
  · intro t ht p e hp he
    have h1 : e = ⟨1, 9⟩ := (Option.some.inj he).symm
    subst h1
    obtain ⟨h1, h2, -⟩ := h10 t ht
    simp only [cmPos, if_neg (by omega : ¬ t.id < 10), if_pos h2] at hp
    cases hp
    refine .inr ⟨rfl, ?_⟩
    dsimp only
    split <;> decide
  · intro t ht hg
    exact absurd hg (h10 t ht).2.2
  · intro t ht p hp
    have : t.id < 20 := by
      simp at ht
      rcases ht with rfl | rfl | ht
      · decide
      · decide
      · exact (h10 t ht).2.1
    simp only [cmPos, if_pos this] at hp
    split at hp <;> cases hp <;> simp [Pos.lt]
    split <;> omega
  · intro t ht p hp
    simp at ht
    subst ht
    have h1 : p = ⟨4, 1⟩ := (Option.some.inj hp).symm
    subst h1
    simp [Pos.lt]

/-- Where the comments go in a text with trailing comments, comments above, and a comment on the line after a
statement with and without an empty line behind it. -/
example (fns : FloatFns) : mapOf fns (str% "SELECT a; -- one\nUPDATE t SET a = 1;\n-- two\n\nDELETE FROM t;\n-- three\nDROP TABLE t;") =
    some [(.QueryStmt, [str% " one"]), (.UpdateStmt, [str% " two"]), (.DropTableStmt, [str% " three"])] := by
  kernel_rfl

/-- Not what one would expect, but as in go/ast: a statement that has ended in front of an earlier comment may get a
comment inside a later statement. -/
theorem C55_inside_false (fns : FloatFns) : mapOf fns (str% "SELECT a; -- one\nUPDATE t -- two\n\n\n SET a = 1;") =
    some [(.QueryStmt, [str% " one", str% " two"])] := by
  kernel_rfl

end Verif
