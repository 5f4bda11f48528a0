/-
C44 made exact: when `NewCommentMap` panics.
-/
import Verif.Proofs.CommentPanic
import Verif.Props.CommentFile

namespace Verif

/-- C44: whatever `Pos` and `End` are, `NewCommentMap` with some comments, in order, panics exactly if `Inspect` gets to
a node where `Pos` panics, or where `End` panics and that begins before the end of the last comment, and all nodes before
it begin before the end of the last comment. -/
theorem C44_panics_iff (posOf endOf : Tree → Option Pos) (file : Tree) (comments : List CommentGroup) (nodes : List Tree)
    (hn : nodeList file = some nodes) (last : Pos) (hc : Ends last comments) (hinf : last.line < 2 ^ 30) :
    newCommentMap posOf endOf file comments = .panic ↔ PanicNode posOf endOf last nodes := by
  have hne : comments ≠ [] := by rintro rfl; cases hc
  have hnn : nodes ≠ [] := by
    intro h
    obtain ⟨rest, this⟩ := (nodeList_spec hn).1
    rw [h] at this; cases this
  simp only [newCommentMap, if_neg hne, hn]
  rw [outer_panics (by simp only [Pos.lt, infinityPos]; omega) nodes comments _ none Pos.zero (.inr hnn) hc (by
    intro t ht; simp at ht), panicNode_first]

theorem comments_ends {toks : List Token} (hd : Disjoint toks) :
    (commentsOf toks).Pairwise fun a b => ¬ b.to_.lt a.to_ := by
  unfold commentsOf
  rw [List.pairwise_filterMap]
  have hall := List.Pairwise.and_mem.1 hd.2
  refine hall.imp ?_
  rintro a b ⟨-, hb, hab⟩ c hc c' hc' hlt
  have h1 := (comparePos_lt_iff _ _).1 (hd.1 b hb)
  have h2 : ¬ b.from_.lt a.to_ := fun h => hab (by rw [(comparePos_lt_iff _ _).2 h]; decide)
  split at hc
  · split at hc'
    · cases hc; cases hc'
      unfold Pos.lt at *; simp only at hlt; omega
    · cases hc'
  · cases hc

theorem ends_of : ∀ {gs : List CommentGroup}, (∀ g ∈ gs, g.list ≠ []) →
    ((gs.flatMap (·.list)).Pairwise fun a b => ¬ b.to_.lt a.to_) → ∀ {c : Comment},
    (gs.flatMap (·.list)).getLast? = some c → Ends c.to_ gs
  | [], _, _, c, h => by simp at h
  | g :: gs, hne, hp, c, h => by
    have hg := hne g List.mem_cons_self
    obtain ⟨a, ha⟩ := Option.isSome_iff_exists.1 (List.isSome_head?.2 hg)
    have hb := List.getLast?_eq_some_getLast hg
    generalize g.list.getLast hg = b at hb
    have hpos : g.pos? = some a.from_ := by rw [CommentGroup.pos?, ha]; rfl
    have hend : g.end? = some b.to_ := by rw [CommentGroup.end?, hb]; rfl
    rw [List.flatMap_cons] at hp h
    obtain ⟨-, hp2, hp3⟩ := List.pairwise_append.1 hp
    cases gs with
    | nil =>
      rw [List.flatMap_nil, List.append_nil, hb] at h
      cases h
      exact .one hpos hend
    | cons g' gs =>
      have hne' : (g' :: gs).flatMap (·.list) ≠ [] := by
        rw [List.flatMap_cons]
        intro h'
        exact hne g' (by simp) (List.append_eq_nil_iff.1 h').1
      rw [List.getLast?_append, List.getLast?_eq_some_getLast hne', Option.some_or, ← List.getLast?_eq_some_getLast hne'] at h
      refine .more hpos hend (hp3 _ (List.mem_of_getLast? hb) _ (List.mem_of_getLast? h)) ?_
      exact ends_of (fun x hx => hne x (List.mem_cons_of_mem _ hx)) hp2 h

/-- C44 for parsed files: exactly when `NewCommentMap` panics. -/
theorem C44_parsed_panics_iff {d : Dialect} {fuel : Nat} {src : Str} {fns : FloatFns} {n : Nat} {toks : List Token}
    {f : File} {s : PState} (ht : tokenize d true fuel src = .ok toks)
    (h : parseFile fns n true (newParser toks) = .ok f s) (hlen : src.length < 2 ^ 30 - 1)
    (t : Tree) (hta : t.anon = f.tree) :
    ∃ nodes, nodeList t = some nodes ∧
      (newCommentMap Tree.pos? Tree.end? t f.comments = .panic ↔
        ∃ c, (commentsOf toks).getLast? = some c ∧ PanicNode Tree.pos? Tree.end? c.to_ nodes) := by
  have hall := C18_comments_complete_text ht h
  obtain ⟨hi, hd⟩ := C19_tokenized ht
  have hne := (C19_sorted hi h).1
  have hf : Fine False t := Fine.of_anon (by
    rw [hta]; exact File.fine f (parsed_shape ht h) hne (fun hb => hb.elim))
  obtain ⟨nodes, hn⟩ := Option.isSome_iff_exists.1 ((nodeList_some_iff t).2 fun u hu hk => by
    have := (hf u hu).1
    rw [walkKids_none.2 hk] at this
    cases this)
  refine ⟨nodes, hn, ?_⟩
  cases hl : (commentsOf toks).getLast? with
  | none =>
    have hc : f.comments = [] := by
      rw [List.getLast?_eq_none_iff, ← hall] at hl
      cases hcs : f.comments with
      | nil => rfl
      | cons g gs =>
        rw [hcs, List.flatMap_cons] at hl
        exact absurd (List.append_eq_nil_iff.1 hl).1 (hne g (by rw [hcs]; exact List.mem_cons_self))
    simp [newCommentMap, hc]
  | some c =>
    have he : Ends c.to_ f.comments := ends_of hne (by rw [hall]; exact comments_ends hd) (by rw [hall]; exact hl)
    have hline : c.to_.line < 2 ^ 30 := by
      have hm : c ∈ f.comments.flatMap (·.list) := by rw [hall]; exact List.mem_of_getLast? hl
      obtain ⟨g, hg, hm⟩ := List.mem_flatMap.1 hm
      have := parsed_comment_line ht h g hg c hm
      omega
    rw [C44_panics_iff _ _ _ _ nodes hn c.to_ he hline]
    simp

/-- C44 for parsed files, all together: unless it panics, every comment of the text is attached to exactly one node. -/
theorem C44_parsed_otherwise {d : Dialect} {fuel : Nat} {src : Str} {fns : FloatFns} {n : Nat} {toks : List Token}
    {f : File} {s : PState} (ht : tokenize d true fuel src = .ok toks)
    (h : parseFile fns n true (newParser toks) = .ok f s) (t : Tree)
    (hp : newCommentMap Tree.pos? Tree.end? t f.comments ≠ .panic) :
    f.comments.flatMap (·.list) = commentsOf toks ∧
    ((f.comments = [] ∧ newCommentMap Tree.pos? Tree.end? t f.comments = .ret none) ∨
     (f.comments ≠ [] ∧ ∃ m nodes, newCommentMap Tree.pos? Tree.end? t f.comments = .ret (some m) ∧
      (∀ u ∈ nodes, Occurs t u) ∧ Distributes nodes f.comments m)) := by
  refine ⟨C18_comments_complete_text ht h, ?_⟩
  cases hm : newCommentMap Tree.pos? Tree.end? t f.comments with
  | panic => exact absurd hm hp
  | ret m =>
    rcases C44_distributes_partial _ _ _ _ _ hm with ⟨h1, h2⟩ | ⟨h1, m', nodes', h2, h3, h4⟩
    · exact .inl ⟨h1, by rw [h2]⟩
    · exact .inr ⟨h1, m', nodes', by rw [h2], h3, h4⟩

/-- It is the place of the last comment that counts: the column without constraints in the first statement makes
`NewCommentMap` panic if there is a comment after it, and does not if all comments are before it. -/
theorem C44_last_comment (fns : FloatFns) :
    (fileOf fns (str% "-- c\nCREATE TABLE t (a int); SELECT 1;")).isSome = true ∧
    mapPanics fns (str% "-- c\nCREATE TABLE t (a int); SELECT 1;") = false ∧
    mapPanics fns (str% "-- c\nCREATE TABLE t (a int); SELECT 1; -- d") = true := by
  refine ⟨?_, ?_, ?_⟩ <;> kernel_rfl

end Verif
