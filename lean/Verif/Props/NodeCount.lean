import Verif.Spec.NodeCount
import Verif.Proofs.NodeCount
import Verif.Proofs.Calls
import Verif.Proofs.Concat
import Verif.Props.Complete
import Verif.Props.Grammar
import Verif.Props.Script
import Verif.Props.Stream
import Verif.Props.Walk
/-
C80: the number of nodes of a tree that has been parsed, and of the calls made by `Inspect`, against the number of tokens.
-/
set_option linter.unusedSimpArgs false
namespace Verif
open Spec

/-! ### The number of nodes -/

/-- C80 for expressions: three nodes need at least seven tokens, and four are left over. -/
theorem C80_expr (fns : FloatFns) (n : Nat) (mode : Bool) (toks : List Token) (hk : KwOK toks) (e : Expr)
    (h : runExpr fns n mode toks = .ok e ()) : 3 * e.tree.count + 4 ≤ 7 * (significant toks).length := by
  obtain ⟨read, rest, h1, h2⟩ := C50_expr_grammar fns n mode toks hk e h
  have := e.feeds _ read h2
  rw [h1, List.length_append]
  omega

/-- C80 for types. -/
theorem C80_dataType (fns : FloatFns) (n : Nat) (mode : Bool) (toks : List Token) (hk : KwOK toks) (t : DataType)
    (h : runDataType fns n mode toks = .ok t ()) : 3 * t.tree.count ≤ 7 * (significant toks).length + 2 := by
  obtain ⟨read, rest, h1, h2⟩ := C50_dataType_grammar fns n mode toks hk t h
  have := t.feeds read h2
  rw [h1, List.length_append]
  omega

/-- C80 for a statement: the nodes are paid for by the tokens that are read. -/
theorem C80_statement (fns : FloatFns) (n : Nat) (mode : Bool) (toks : List Token) (hk : KwOK toks) (s : Stmt)
    (h : runStatement fns n mode toks = .ok s ()) :
    ∃ read rest, significant toks = read ++ rest ∧ 3 * s.tree.count + 2 ≤ 7 * read.length := by
  obtain ⟨read, rest, h1, h2⟩ := C50_statement_grammar fns n mode toks hk s h
  exact ⟨read, rest, h1, s.feeds _ read h2⟩

/-- C80 for a script: every statement leaves nine sevenths of a token over. -/
theorem C80_script (fns : FloatFns) (n : Nat) (mode : Bool) (toks : List Token) (hk : KwOK toks) (ss : List Stmt)
    (h : runSQL fns n mode toks = .ok ss ()) :
    3 * ((ss.map fun s => s.tree.count).sum + 3 * ss.length) ≤ 7 * (significant toks).length := by
  have h1 := Feeds.script ⟨true, false, true⟩ ss _ (C50_script_grammar fns n mode toks hk ss h)
  have h2 : countList (ss.map Stmt.tree) = (ss.map fun s => s.tree.count).sum := by
    clear h h1
    induction ss with
    | nil => rfl
    | cons s ss ih => simp [ih]
  omega

theorem comments_count : ∀ gs : List CommentGroup, (∀ g ∈ gs, g.list ≠ []) →
    countList (gs.map CommentGroup.tree) ≤ 2 * (gs.flatMap (·.list)).length
  | [], _ => Nat.le_refl _
  | g :: gs, h => by
    have h1 := comments_count gs fun g hg => h g (List.mem_cons_of_mem _ hg)
    have h2 : 0 < g.list.length := List.length_pos_iff.2 (h g List.mem_cons_self)
    have h3 : countList (g.list.map Comment.tree) = g.list.length := countList_leaves _ (fun _ => count_leaf ..) _
    simp only [List.map_cons, countList_cons, CommentGroup.tree, count_node, countFields_list, countFields_nil, h3,
      List.flatMap_cons, List.length_append]
    omega

/-- C80 for a file with its comments: the file itself is one node, and a comment is at most two. -/
theorem C80_file (fns : FloatFns) (n fuel : Nat) (d : Dialect) (src : Str) (toks : List Token)
    (ht : tokenize d true fuel src = .ok toks) (f : File) (s : PState)
    (h : parseFile fns n true (newParser toks) = .ok f s) :
    3 * f.tree.count ≤ 7 * (significant toks).length + 6 * (commentsOf toks).length + 3 := by
  have h1 := Feeds.script ⟨true, false, true⟩ f.stmts _ (C50_file_grammar fns n fuel true d src toks ht f s h)
  have h2 := comments_count f.comments (C19_sorted (C03_positions_increase ht).2 h).1
  rw [C18_comments_complete_text ht h] at h2
  simp [File.tree]
  omega

/-! ### The number of calls -/

/-- C80 for `Inspect`: whatever the function answers, it is called for at most 7/3 as many nodes as there are tokens, and
not more than seven times for a token, the calls with nil included. -/
theorem C80_inspect {σ : Type} (fns : FloatFns) (n : Nat) (mode : Bool) (toks : List Token) (hk : KwOK toks) (x : Stmt)
    (h : runStatement fns n mode toks = .ok x ()) (g : Option Tree → σ → Bool × σ) (s s' : σ) (l : List (Option Tree × Bool))
    (hl : inspect (loggedFn g) x.tree (s, []) = .ok (s', l)) :
    3 * l.countP (·.1.isSome) < 7 * (significant toks).length ∧ l.length < 7 * (significant toks).length := by
  obtain ⟨read, rest, h1, h2⟩ := C80_statement fns n mode toks hk x h
  have ht := C36_nesting g x.tree s s' l hl
  have h3 := traversal_nodes ht
  have h4 := traversal_calls ht (by intro c hc; simp at hc; subst hc; exact C36_typed x)
  have e1 : someCount [some x.tree] = x.tree.count := by simp [someCount]
  have e2 : noneCount [some x.tree] = 0 := by simp [noneCount]
  rw [h1, List.length_append]
  omega

/-! ### No smaller factor -/

/-- `t NATURAL JOIN` any number of times, and a last table. -/
def joinsText : Nat → Str
  | 0 => str% "t;"
  | k + 1 => str% "t NATURAL JOIN " ++ joinsText k

theorem factor_count (t : Token) (j : TableRef)
    (h : j.erase = (TableRef.factor (.table ⟨[⟨['t'], t.from_, t.to_⟩]⟩ none [] Pos.zero [] Pos.zero)).erase) : j.tree.count = 3 := by
  cases j with
  | factor f =>
    cases f with
    | table name alias args arp hints hrp =>
      simp only [TableRef.erase, TableFactor.erase, TableRef.factor.injEq, TableFactor.table.injEq, Option.map_none,
        Option.map_eq_none_iff] at h
      obtain ⟨h1, rfl, h2, -, h3, -⟩ := h
      have h1 := congrArg (fun o => o.idents.length) h1
      simp [ObjectName.erase] at h1
      cases args with
      | cons _ _ => simp [Expr.erases] at h2
      | nil =>
        cases hints with
        | cons _ _ => simp [Expr.erases] at h3
        | nil => simp [TableRef.tree, TableFactor.tree, Expr.trees, h1]
    | derived => simp [TableRef.erase, TableFactor.erase] at h
  | _ => simp [TableRef.erase] at h

theorem factor_lang (fns : FloatFns) (t : Token) (h : t.tok = .word ⟨['t'], none, ['T']⟩) :
    (TableRef.factor (.table ⟨[⟨['t'], t.from_, t.to_⟩]⟩ none [] Pos.zero [] Pos.zero)).lang fns ⟨false, false, false⟩ [t] :=
  ⟨[t], [], rfl, ⟨t, _, rfl, h, rfl, rfl, rfl, by simp⟩, [], [], rfl, rfl, [], [], rfl, rfl, [], [], rfl, rfl,
    [], [], rfl, ⟨rfl, rfl⟩, rfl, rfl⟩

theorem scans_joins (fns : FloatFns) : ∀ (k l c : Nat), ∃ ts semi s', ∃ j : TableRef,
    Scans genericDialect ⟨joinsText k, l, c⟩ (ts ++ [semi]) s' ∧ s'.rest = [] ∧ semi.tok = .sym .Semicolon [';'] ∧
    (∀ t ∈ ts, ∀ w, t.tok = .word w → w.value ∈ [str% "t", str% "NATURAL", str% "JOIN"]) ∧
    j.lang fns ⟨false, false, false⟩ (significant ts) ∧ j.shape freeWord = true ∧ (significant ts).length = 3 * k + 1 ∧ commentsOf ts = [] ∧
    (∀ j' : TableRef, j'.erase = j.erase → j'.tree.count = 7 * k + 3)
  | 0, l, c => by
    refine ⟨[_], _, _, .factor (.table ⟨[⟨['t'], ⟨l, c⟩, ⟨l, c + 1⟩⟩]⟩ none [] Pos.zero [] Pos.zero),
      .step (.word 't' [] [';'] l c (.inr (by decide)) (by decide) (by decide) (by decide) (by simp) (by simp) (by
          intro y hy; cases hy; decide))
        (.step (.sym .Semicolon [';'] [] l _ (by simp [symText]) (by intro x y _ h; simp at h)) (.refl _)), rfl, rfl, ?_, ?_, ?_, rfl, rfl, ?_⟩
    · intro t ht w hw
      simp at ht
      subst ht
      cases hw
      simp
    · exact factor_lang fns _ rfl
    · simp [TableRef.shape, TableFactor.shape, ObjectName.shape, identsShape, optIdentShape, Expr.shapes]; decide +kernel
    · intro j' h
      exact factor_count ⟨.whitespace [], ⟨l, c⟩, ⟨l, c + 1⟩⟩ j' h
  | k + 1, l, c => by
    have sp : ∀ y, some ' ' = some y → genericDialect.isIdentPart y = false := by intro y hy; cases hy; decide
    obtain ⟨ts, semi, s', j, h1, h2, h3, h4, h5, h6, h7, hc, h8⟩ := scans_joins fns k l (c + 1 + 1 + 7 + 1 + 4 + 1)
    refine ⟨_ :: _ :: _ :: _ :: _ :: _ :: ts, semi, s',
      .natural (.factor (.table ⟨[⟨['t'], ⟨l, c⟩, ⟨l, c + 1⟩⟩]⟩ none [] Pos.zero [] Pos.zero)) ⟨.IMPLICIT, Pos.zero, Pos.zero⟩ j,
      .step (.word 't' [] (str% " NATURAL JOIN " ++ joinsText k) l c (.inr (by decide)) (by decide) (by decide) (by decide) (by simp)
        (by simp) sp)
      (.step (.space (str% "NATURAL JOIN " ++ joinsText k) l _)
      (.step (.word 'N' (str% "ATURAL") (str% " JOIN " ++ joinsText k) l _ (.inr (by decide)) (by decide) (by decide) (by decide) (by decide)
        (by simp) sp)
      (.step (.space (str% "JOIN " ++ joinsText k) l _)
      (.step (.word 'J' (str% "OIN") (str% " " ++ joinsText k) l _ (.inr (by decide)) (by decide) (by decide) (by decide) (by decide)
        (by simp) sp)
      (.step (.space (joinsText k) l _) h1))))), h2, h3, ?_, ?_, ?_, ?_, hc, ?_⟩
    · intro t ht w hw
      simp only [List.mem_cons] at ht
      rcases ht with rfl | rfl | rfl | rfl | rfl | rfl | ht
      · cases hw; simp
      · cases hw
      · cases hw; simp
      · cases hw
      · cases hw; simp
      · cases hw
      · exact h4 t ht w hw
    · have e : ∀ a b c d e f : Token, a.tok = .word ⟨['t'], none, ['T']⟩ → b.tok = .whitespace [' '] →
          c.tok = .word ⟨str% "NATURAL", none, str% "NATURAL"⟩ → d.tok = .whitespace [' '] →
          e.tok = .word ⟨str% "JOIN", none, str% "JOIN"⟩ → f.tok = .whitespace [' '] →
          significant (a :: b :: c :: d :: e :: f :: ts) = [a] ++ ([c] ++ ([] ++ ([e] ++ significant ts))) := by
        intro a b c d e f ha hb hc hd he hf
        simp [significant, Token.sig, Tok.insignificant, ha, hb, hc, hd, he, hf]
      rw [e _ _ _ _ _ _ rfl rfl rfl rfl rfl rfl]
      exact ⟨_, _, rfl, factor_lang fns _ rfl, _, _, rfl, ⟨_, _, rfl, rfl, .inr rfl⟩, _, _, rfl, ⟨[], [], rfl, ⟨rfl, rfl⟩, rfl, rfl⟩, _, _, rfl,
        ⟨_, _, rfl, rfl, .inr rfl⟩, h5⟩
    · simp [TableRef.shape, TableFactor.shape, ObjectName.shape, identsShape, optIdentShape, Expr.shapes, TableRef.open_, h6]
      decide +kernel
    · simp only [significant] at h7
      simp [significant, Token.sig, Tok.insignificant, h7]
      omega
    · intro j' h
      cases j' with
      | natural a ty b =>
        simp only [TableRef.erase, TableRef.natural.injEq] at h
        have i1 := factor_count ⟨.whitespace [], ⟨l, c⟩, ⟨l, c + 1⟩⟩ a h.1
        have i2 := h8 b h.2.2
        simp [TableRef.tree, i1, i2]
        omega
      | _ => simp [TableRef.erase] at h

def joinsSrc (k : Nat) : Str := str% "SELECT a FROM " ++ joinsText k

/-- The tokens of the text before the tables. -/
def joinsHead : List Token :=
  [⟨.word ⟨str% "SELECT", none, str% "SELECT"⟩, ⟨1, 1⟩, ⟨1, 7⟩⟩, ⟨.whitespace [' '], ⟨1, 7⟩, ⟨1, 8⟩⟩,
   ⟨.word ⟨str% "a", none, str% "A"⟩, ⟨1, 8⟩, ⟨1, 9⟩⟩, ⟨.whitespace [' '], ⟨1, 9⟩, ⟨1, 10⟩⟩,
   ⟨.word ⟨str% "FROM", none, str% "FROM"⟩, ⟨1, 10⟩, ⟨1, 14⟩⟩, ⟨.whitespace [' '], ⟨1, 14⟩, ⟨1, 15⟩⟩]

theorem scans_joinsHead (k : Nat) : Scans genericDialect ⟨joinsSrc k, 1, 1⟩ joinsHead ⟨joinsText k, 1, 15⟩ := by
  have sp : ∀ y, some ' ' = some y → genericDialect.isIdentPart y = false := by intro y hy; cases hy; decide
  refine .step (.word 'S' (str% "ELECT") (' ' :: (str% "a FROM " ++ joinsText k)) 1 1 (.inr (by decide)) (by decide)
    (by decide) (by decide) (by decide) (by simp) sp) ?_
  refine .step (.space (str% "a FROM " ++ joinsText k) 1 7) ?_
  refine .step (.word 'a' [] (' ' :: (str% "FROM " ++ joinsText k)) 1 8 (.inr (by decide)) (by decide)
    (by decide) (by decide) (by decide) (by simp) sp) ?_
  refine .step (.space (str% "FROM " ++ joinsText k) 1 9) ?_
  refine .step (.word 'F' (str% "ROM") (' ' :: joinsText k) 1 10 (.inr (by decide)) (by decide)
    (by decide) (by decide) (by decide) (by simp) sp) ?_
  exact .step (.space (joinsText k) 1 14) (.refl _)

/-- The query of the text. -/
def joinsQuery (j : TableRef) : Stmt :=
  .query (.mk Pos.zero [] (.select (.mk false [.unnamed (.ident ⟨['a'], ⟨1, 8⟩, ⟨1, 9⟩⟩)] [j] none [] none ⟨1, 1⟩)) [] none)

theorem joinsQuery_count {j : TableRef} {m : Nat} (h : ∀ j' : TableRef, j'.erase = j.erase → j'.tree.count = m) (s : Stmt)
    (hs : s.erase = (joinsQuery j).erase) : s.tree.count = m + 4 := by
  cases s with
  | query q =>
    obtain ⟨w, ctes, body, orderBy, limit⟩ := q
    simp only [joinsQuery, Stmt.erase, QueryStmt.erase, SetExpr.erase, Stmt.query.injEq, QueryStmt.mk.injEq] at hs
    obtain ⟨-, h1, h2, h3, h4⟩ := hs
    cases ctes with
    | cons _ _ => simp [CTE.erases] at h1
    | nil =>
    cases orderBy with
    | cons _ _ => simp [OrderByExpr.erases] at h3
    | nil =>
    cases limit with
    | some _ => simp at h4
    | none =>
    cases body with
    | select x =>
      obtain ⟨di, pr, fr, wh, gr, ha, p⟩ := x
      simp only [SetExpr.erase, SQLSelect.erase, SetExpr.select.injEq, SQLSelect.mk.injEq, TableRef.erases] at h2
      obtain ⟨-, h5, h6, h7, h8, h9, -⟩ := h2
      cases wh with
      | some _ => simp [Expr.eraseOpt] at h7
      | none =>
      cases ha with
      | some _ => simp [Expr.eraseOpt] at h9
      | none =>
      cases gr with
      | cons _ _ => simp [Expr.erases] at h8
      | nil =>
      match fr, h6 with
      | [], h6 => simp [TableRef.erases] at h6
      | _ :: _ :: _, h6 => simp [TableRef.erases] at h6
      | [j'], h6 =>
        simp only [TableRef.erases, List.cons.injEq, and_true] at h6
        have := h j' h6
        match pr, h5 with
        | _ :: _ :: _, h5 => simp [SelectItem.erases] at h5
        | [.unnamed (.ident i)], _ =>
          simp [Stmt.tree, QueryStmt.tree, SetExpr.tree, SQLSelect.tree, SelectItem.trees, SelectItem.tree, Expr.tree,
            TableRef.trees, CTE.trees, OrderByExpr.trees, Expr.trees, Expr.treeOpt, this]
          try omega
    | _ => simp [SetExpr.erase] at h2
  | _ => simp [joinsQuery, Stmt.erase] at hs

/-- The text with `k` joins is accepted; it has `3 * k + 5` tokens, and the tree of the file has `7 * k + 8` nodes. -/
theorem joinsSrc_accepted (fns : FloatFns) (k : Nat) :
    ∃ fuel n toks f st, tokenize genericDialect true fuel (joinsSrc k) = .ok toks ∧
      parseFile fns n true (newParser toks) = .ok f st ∧ (significant toks).length = 3 * k + 5 ∧ commentsOf toks = [] ∧
      f.tree.count = 7 * k + 8 := by
  obtain ⟨ts, semi, s', j, h1, h2, h3, h4, h5, h6, h7, hc, h8⟩ := scans_joins fns k 1 15
  have hs := (scans_joinsHead k).trans h1
  have ht : tokenize genericDialect true ((joinsSrc k).length + 1) (joinsSrc k) = .ok (joinsHead ++ (ts ++ [semi])) := by
    obtain ⟨g, hg, e⟩ := tokenizeFrom_scans (BuiltIn.sane (.inl rfl)) true hs (fuel := (joinsSrc k).length + 1) (Nat.lt_succ_self _)
    refine e.trans ?_
    obtain ⟨r, l, c⟩ := s'
    simp only at h2
    subst h2
    cases g with
    | zero => simp at hg
    | succ g => simp [tokenizeFrom, scan, next, TokRes.prepend, filterTok]
  have hsig : significant (joinsHead ++ (ts ++ [semi])) = (significant joinsHead ++ significant ts) ++ [semi] := by
    simp [significant, Token.sig, Tok.insignificant, h3]
  obtain ⟨f, st, j1, j2⟩ := C54_file_complete fns true genericDialect _ (joinsSrc k) _ ht
    (by
      intro t ht w hw
      have key : w.value ∈ [str% "SELECT", str% "a", str% "FROM", str% "t", str% "NATURAL", str% "JOIN"] := by
        simp only [joinsHead, List.mem_append, List.mem_singleton, List.mem_cons, List.not_mem_nil, or_false] at ht
        rcases ht with (rfl | rfl | rfl | rfl | rfl | rfl) | ht | rfl
        · cases hw; simp
        · cases hw
        · cases hw; simp
        · cases hw
        · cases hw; simp
        · cases hw
        · have := h4 t ht w hw
          simp only [List.mem_cons, List.not_mem_nil, or_false] at this ⊢
          exact .inr (.inr (.inr this))
        · rw [h3] at hw; cases hw
      have : ∀ v ∈ [str% "SELECT", str% "a", str% "FROM", str% "t", str% "NATURAL", str% "JOIN"],
          v.all (fun c => !oddLetter c) = true := by decide +kernel
      simpa using this _ key)
    [joinsQuery j]
    (by simp [joinsQuery, Stmt.shape, QueryStmt.shape, CTE.shapes, SetExpr.shape, SQLSelect.shape, SelectItem.shapes,
          SelectItem.shape, Expr.shape, TableRef.shapes, Expr.shapeO, Expr.shapes, OrderByExpr.shapes, h6]
        exact ⟨by decide +kernel, rfl⟩)
    (by
      rw [hsig]
      have hl : (joinsQuery j).lang fns ⟨false, false, false⟩ (significant joinsHead ++ significant ts) := by
        have e : significant joinsHead ++ significant ts = [] ++ (([⟨.word ⟨str% "SELECT", none, str% "SELECT"⟩, ⟨1, 1⟩, ⟨1, 7⟩⟩] ++
            ([] ++ ([⟨.word ⟨str% "a", none, str% "A"⟩, ⟨1, 8⟩, ⟨1, 9⟩⟩] ++
              (([⟨.word ⟨str% "FROM", none, str% "FROM"⟩, ⟨1, 10⟩, ⟨1, 14⟩⟩] ++ significant ts) ++ ([] ++ ([] ++ [])))))) ++
            ([] ++ ([] ++ []))) := by
          have : significant joinsHead = [⟨.word ⟨str% "SELECT", none, str% "SELECT"⟩, ⟨1, 1⟩, ⟨1, 7⟩⟩,
            ⟨.word ⟨str% "a", none, str% "A"⟩, ⟨1, 8⟩, ⟨1, 9⟩⟩, ⟨.word ⟨str% "FROM", none, str% "FROM"⟩, ⟨1, 10⟩, ⟨1, 14⟩⟩] := rfl
          simp [this]
        rw [e]
        exact ⟨_, _, rfl, rfl, _, _, rfl, ⟨_, _, rfl, ⟨⟨_, _, rfl, rfl, .inr rfl⟩, _, _, rfl, rfl⟩, _, _, rfl, rfl, _, _, rfl,
          ⟨_, _, rfl, rfl, rfl, rfl, rfl, by decide⟩, _, _, rfl, ⟨_, _, rfl, ⟨_, _, rfl, rfl, .inr rfl⟩, h5⟩, _, _, rfl, rfl,
          _, _, rfl, rfl, rfl⟩, _, _, rfl, rfl, _, _, rfl, rfl, rfl, rfl⟩
      generalize significant joinsHead ++ significant ts = us at hl
      exact ⟨[], us ++ [semi], rfl, .inl rfl, us ++ [semi], [], (List.append_nil _).symm,
        ⟨us, [semi], rfl, hl, semi, _, rfl, h3⟩, rfl⟩)
    _ (Nat.le_refl _)
  have hcs : commentsOf (joinsHead ++ (ts ++ [semi])) = [] := by
    simp only [commentsOf, List.filterMap_append] at hc ⊢
    rw [hc]
    simp [joinsHead, h3]
  refine ⟨_, _, _, f, st, ht, j1, ?_, hcs, ?_⟩
  · rw [hsig]
    have : (significant joinsHead).length = 3 := by decide +kernel
    simp [this, h7]
    omega
  · have i1 := comments_count f.comments (C19_sorted (C03_positions_increase ht).2 j1).1
    rw [C18_comments_complete_text ht j1, hcs] at i1
    simp at i1
    have i2 : countList (f.stmts.map Stmt.tree) = 7 * k + 7 := by
      generalize f.stmts = ss at j2
      match ss, j2 with
      | [], j2 => simp at j2
      | _ :: _ :: _, j2 => simp at j2
      | [s], j2 =>
        simp at j2
        simp [joinsQuery_count h8 s j2]
    simp [File.tree, i1, i2]

/-- C80, the factor is the least: if `a / b` with any constant added bounds the number of nodes of files without comments,
then `a / b` is at least 7/3. -/
theorem C80_least (fns : FloatFns) (a b c : Nat)
    (h : ∀ fuel n src toks f st, tokenize genericDialect true fuel src = .ok toks → commentsOf toks = [] →
      parseFile fns n true (newParser toks) = .ok f st → b * f.tree.count ≤ a * (significant toks).length + c) :
    7 * b ≤ 3 * a := by
  refine Nat.le_of_not_lt fun hlt => ?_
  obtain ⟨fuel, n, toks, f, st, h1, h2, h3, h4, h5⟩ := joinsSrc_accepted fns (5 * a + c + 1)
  have h6 := h fuel n _ toks f st h1 h4 h2
  rw [h5, h3] at h6
  have h7 : (3 * a + 1) * (5 * a + c + 1) ≤ b * 7 * (5 * a + c + 1) := Nat.mul_le_mul_right _ (by omega)
  have h8 : 5 * a + c < 5 * a + c + 1 := Nat.lt_succ_self _
  generalize 5 * a + c + 1 = k at h6 h7 h8
  rw [Nat.mul_add, Nat.mul_add, ← Nat.mul_assoc, ← Nat.mul_assoc, Nat.mul_comm a 3] at h6
  rw [Nat.add_mul, Nat.one_mul] at h7
  omega

/-! ### Cases that meet the hypotheses -/

/-- Nineteen tokens and two comments are a tree of 29 nodes. -/
def countText : Str := str% "SELECT a.b, f(1) --x\nFROM t NATURAL JOIN u; /*y*/ DELETE FROM t;"

example : (match tokenize genericDialect true 200 countText with
    | .ok toks => match parseFile ⟨fun _ => none, fun _ => []⟩ 200 true (newParser toks) with
      | .ok f _ => ((significant toks).length, (commentsOf toks).length, f.tree.count)
      | _ => (0, 0, 0)
    | _ => (0, 0, 0)) = (19, 2, 29) := by kernel_rfl

/-- A statement of 8 tokens with 14 nodes: the function is called for all of them, 28 times in all, if it always goes on. -/
example : (stmtTrees ⟨fun _ => none, fun _ => []⟩ (str% "SELECT a FROM t NATURAL JOIN u;")).map (fun t =>
    (t.count, match inspect (loggedFn fun _ (n : Nat) => (true, n + 1)) t (0, []) with
      | .ok (n, l) => (n, l.countP (·.1.isSome), l.length)
      | _ => (0, 0, 0))) = [(14, 28, 14, 28)] := by kernel_rfl

end Verif
