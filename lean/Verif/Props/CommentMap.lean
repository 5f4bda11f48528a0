/-
C44: `NewCommentMap`.
-/
import Verif.Proofs.CommentMap
import Verif.Proofs.KernelRfl
set_option maxRecDepth 100000

namespace Verif

/-- If `NewCommentMap` returns, it returns the nil map for a file without comments; otherwise each comment group is
attached to exactly one node of the file, no group is lost, doubled or invented, and the groups of a node are in
their order.  This is for all trees, comments and all results (and panics) of the methods `Pos` and `End`. -/
theorem C44_distributes_partial (posOf endOf : Tree → Option Pos) (file : Tree) (comments : List CommentGroup)
    (m : Option CommentMap) (h : newCommentMap posOf endOf file comments = .ret m) :
    (comments = [] ∧ m = none) ∨
    (comments ≠ [] ∧ ∃ m' nodes, m = some m' ∧ (∀ t ∈ nodes, Occurs file t) ∧ Distributes nodes comments m') := by
  simp only [newCommentMap] at h
  by_cases hc : comments = []
  · rw [if_pos hc] at h
    simp only [CMOut.ret.injEq] at h
    exact .inl ⟨hc, h.symm⟩
  · rw [if_neg hc] at h
    cases hn : nodeList file with
    | none => rw [hn] at h; cases h
    | some nodes =>
      rw [hn] at h
      obtain ⟨m', h1, h2⟩ := outer_inv (nodes := nodes) _ comments [] _ none Pos.zero m
        (by intro t ht; simpa using ht) (by simp) (by simp)
        ⟨⟨[], rfl, by simp, fun _ => rfl⟩, by simp, by simp⟩ h
      exact .inr ⟨hc, m', nodes, h1, fun t ht => ((nodeList_spec hn).2 t ht).occurs, by simpa using h2⟩

/-- It does return if `Inspect` does, `Pos` and `End` are defined for the nodes that `Inspect` visits, no group is
empty and no comment ends beyond line and column 2^30. -/
theorem C44_returns (posOf endOf : Tree → Option Pos) (file : Tree) (comments : List CommentGroup)
    (nodes : List Tree) (hn : nodeList file = some nodes) (hpos : ∀ t ∈ nodes, (posOf t).isSome)
    (hend : ∀ t ∈ nodes, (endOf t).isSome) (hne : ∀ c ∈ comments, c.list ≠ [])
    (hinf : ∀ g ∈ comments, ∀ c ∈ g.list, c.to_.line < 2 ^ 30) :
    ∃ m, newCommentMap posOf endOf file comments = .ret m := by
  simp only [newCommentMap]
  by_cases hc : comments = []
  · rw [if_pos hc]; exact ⟨_, rfl⟩
  · rw [if_neg hc, hn]
    have hnn : nodes ≠ [] := by
      intro h
      obtain ⟨rest, this⟩ := (nodeList_spec hn).1
      rw [h] at this; cases this
    have := outer_total (nodes := nodes) hpos hend nodes comments [] ⟨fun _ => [], none, Pos.zero, []⟩ none Pos.zero
      (fun t h => h) (.inr hnn) (by simp) ⟨⟨[], rfl, by simp, fun _ => rfl⟩, by simp, by simp⟩ hne
      (by
        intro g hg e he
        simp only [CommentGroup.end?, Option.map_eq_some_iff] at he
        obtain ⟨c, hcl, rfl⟩ := he
        have hlt := hinf g hg c (List.mem_of_getLast? hcl)
        have h1 : ¬ (infinityPos.line = c.to_.line ∧ infinityPos.col = c.to_.col) := by
          simp only [infinityPos]; omega
        have h2 : infinityPos.line > c.to_.line := by simp only [infinityPos]; omega
        simp [comparePos, h1, h2])
    cases hr : cmOuter posOf endOf (nodes.map some ++ [none]) comments ⟨fun _ => [], none, Pos.zero, []⟩ none
        Pos.zero with
    | panic => exact absurd hr this
    | ret m => exact ⟨m, hr⟩

/-- sqlast/ast.go:41-49, `File.Pos`, as far as it matters here: a file without statements has no position; the
method panics. -/
def FilePosPanics (posOf : Tree → Option Pos) : Prop :=
  ∀ id all rest, posOf (.mk .File id all (.list .Stmts [] :: rest)) = none

/-- C44 is false of a source text with comments only: `NewCommentMap` panics. -/
theorem C44_comments_only_false (posOf endOf : Tree → Option Pos) (h : FilePosPanics posOf) (id : Nat)
    (cs : List Tree) (comments : List CommentGroup) (hc : comments ≠ []) :
    newCommentMap posOf endOf (.mk .File id false [.list .Stmts [], .list .Comments cs]) comments = .panic := by
  simp only [newCommentMap, if_neg hc]
  have : nodeList (.mk .File id false [.list .Stmts [], .list .Comments cs]) =
      some [.mk .File id false [.list .Stmts [], .list .Comments cs]] := by kernel_rfl
  rw [this]
  simp only [List.map_cons, List.map_nil, List.cons_append, List.nil_append, cmOuter, nodePos, h id false _]

/-- A statement with one column. -/
def cmStmt (i : Nat) : Tree :=
  .mk .QueryStmt i false [.list .CTEs [], .one .Body (.mk .SQLSelect ((i + 1 : Nat)) false
    [.list .Projection [.mk .UnnamedSelectItem ((i + 2 : Nat)) false [.one .Node (.mk .LongValue ((i + 3 : Nat)) false [])]],
      .list .FromClause [], .nil .WhereClause, .list .GroupByClause [], .nil .HavingClause]),
    .list .OrderBy [], .nil .Limit]

/-- `SELECT 1 -- c1` newline `-- c2` newline newline `SELECT 2`: a file with two statements on lines 1 and 4, each
with one column. -/
def cmFile : Tree := .mk .File 1 false [.list .Stmts [cmStmt 10, cmStmt 20], .list .Comments []]

def cmPos (t : Tree) : Option Pos :=
  if t.id < 10 then some ⟨1, 1⟩ else some ⟨if t.id < 20 then 1 else 4, if t.id % 10 < 2 then 1 else 8⟩
def cmEnd (t : Tree) : Option Pos := if t.id < 10 then some ⟨4, 9⟩ else some ⟨if t.id < 20 then 1 else 4, 9⟩

def cmComments : List CommentGroup := [⟨[⟨str% "c1", ⟨1, 10⟩, ⟨1, 15⟩⟩]⟩, ⟨[⟨str% "c2", ⟨3, 1⟩, ⟨3, 6⟩⟩]⟩]

/-- The first comment goes to the first statement, the second one to the second statement. -/
example : (match newCommentMap cmPos cmEnd cmFile cmComments with
    | .ret (some m) => [1, 10, 11, 12, 13, 20, 21, 22, 23].map fun k => (k, (m k).length)
    | _ => []) =
    [(1, 0), (10, 1), (11, 0), (12, 0), (13, 0), (20, 1), (21, 0), (22, 0), (23, 0)] := by kernel_rfl

end Verif
