import Verif.Proofs.Local
import Verif.Props.Tokenizer
/-
Property theorems C16-C19 and C46: how the parser reads the token list.

`(newParser toks)` is the parser over the tokens `toks`; `p.run mode s` runs the parser function `p` on the
parser `s`, where `mode` says whether the `ParseComment` option is set.  The parser functions are values of
type `P α`, so a theorem about every `p : P α` is a theorem about every function of parser.go, in particular
about the five entry points, for which the corollaries are spelled out.
-/
namespace Verif

/-- What a caller sees: the result without the final parser state. -/
def Res.outcome : Res σ α → Res Unit α
  | .ok a _ => .ok a ()
  | .err => .err
  | .panic => .panic
  | .oof => .oof

/-- `ParseStatement`, `ParseExpr`, `ParseDataType` and `ParseSQL`, run on a fresh parser. -/
def runStatement (fns : FloatFns) (n : Nat) (mode : Bool) (toks : List Token) : Res Unit Stmt :=
  ((Parsers.at fns n).statement.run mode (newParser toks)).outcome
def runExpr (fns : FloatFns) (n : Nat) (mode : Bool) (toks : List Token) : Res Unit Expr :=
  ((parseExpr (Parsers.at fns n)).run mode (newParser toks)).outcome
def runDataType (fns : FloatFns) (n : Nat) (mode : Bool) (toks : List Token) : Res Unit DataType :=
  ((parseDataType (Parsers.at fns n)).run mode (newParser toks)).outcome
def runSQL (fns : FloatFns) (n : Nat) (mode : Bool) (toks : List Token) : Res Unit (List Stmt) :=
  ((parseSQL mode (Parsers.at fns n) n).run mode (newParser toks)).outcome
/-- The statements of the `File` that `ParseFile` returns. -/
def runFile (fns : FloatFns) (n : Nat) (mode : Bool) (toks : List Token) : Res Unit (List Stmt) :=
  match parseFile fns n mode (newParser toks) with
  | .ok f _ => .ok f.stmts ()
  | .err => .err
  | .panic => .panic
  | .oof => .oof

theorem outcome_mapState (r : Res σ α) (f : σ → τ) : (r.mapState f).outcome = r.outcome := by
  cases r <;> rfl

theorem outcome_runZ (p : P α) (mode : Bool) (toks : List Token) :
    (p.run mode (newParser toks)).outcome = (p.runZ [] (toks.filter Token.sig)).outcome := by
  rw [← outcome_mapState _ PState.view, run_view mode p _ (Nat.zero_le _)]
  simp [PState.before, PState.after, newParser]

theorem runFile_eq (fns : FloatFns) (n : Nat) (mode : Bool) (toks : List Token) :
    runFile fns n mode toks = runSQL fns n mode toks := by
  unfold runFile runSQL parseFile
  cases (parseSQL mode (Parsers.at fns n) n).run mode (newParser toks) <;> rfl

/-! ### C16 -/

/-- C16: two token lists with the same significant tokens, that is, differing only by whitespace and comment
tokens anywhere, give the same outcome for every parser function. -/
theorem C16_trivia_irrelevant (p : P α) (mode : Bool) {toks toks' : List Token}
    (h : toks.filter Token.sig = toks'.filter Token.sig) :
    (p.run mode (newParser toks)).outcome = (p.run mode (newParser toks')).outcome := by
  rw [outcome_runZ, outcome_runZ, h]

/-- C16 in the middle of a parse: what the parser has read and what is left, seen without whitespace and
comments, determine the outcome and what is left afterwards. -/
theorem C16_trivia_irrelevant_state (p : P α) (mode : Bool) {s s' : PState} (hs : s.idx ≤ s.toks.length)
    (hs' : s'.idx ≤ s'.toks.length)
    (hb : (s.toks.take s.idx).filter Token.sig = (s'.toks.take s'.idx).filter Token.sig)
    (ha : (s.toks.drop s.idx).filter Token.sig = (s'.toks.drop s'.idx).filter Token.sig) :
    (p.run mode s).mapState PState.view = (p.run mode s').mapState PState.view := by
  rw [run_view mode p s hs, run_view mode p s' hs', PState.before, PState.after, hb, ha]
  rfl

/-- C16 for the entry points: dropping all whitespace and comments changes nothing. -/
theorem C16_entry_points (fns : FloatFns) (n : Nat) (mode : Bool) (toks : List Token) :
    runStatement fns n mode toks = runStatement fns n mode (toks.filter Token.sig) ∧
    runExpr fns n mode toks = runExpr fns n mode (toks.filter Token.sig) ∧
    runDataType fns n mode toks = runDataType fns n mode (toks.filter Token.sig) ∧
    runSQL fns n mode toks = runSQL fns n mode (toks.filter Token.sig) ∧
    runFile fns n mode toks = runFile fns n mode (toks.filter Token.sig) := by
  have hf : toks.filter Token.sig = (toks.filter Token.sig).filter Token.sig := by simp
  refine ⟨C16_trivia_irrelevant _ _ hf, C16_trivia_irrelevant _ _ hf, C16_trivia_irrelevant _ _ hf,
    C16_trivia_irrelevant _ _ hf, ?_⟩
  rw [runFile_eq, runFile_eq]
  exact C16_trivia_irrelevant _ _ hf

/-! ### C17 -/

/-- C17: comment collection does not change the outcome of any parser function. -/
theorem C17_comment_mode (p : P α) (toks : List Token) :
    (p.run true (newParser toks)).outcome = (p.run false (newParser toks)).outcome := by
  rw [outcome_runZ, outcome_runZ]

theorem parseSQLLoop_mode (r : Parsers) : ∀ (n : Nat) (e : Bool) (b a : List Token),
    (parseSQLLoop true r n e).runZ b a = (parseSQLLoop false r n e).runZ b a
  | 0, _, _, _ => rfl
  | n + 1, e, b, a => by
    simp only [parseSQLLoop, P.bind_eq, P.pure_eq]
    rw [runZ_bind, runZ_bind]
    cases (consumeToken .Semicolon).runZ b a with
    | ok ok st =>
      simp only
      split
      · rfl
      · simp only [if_true, Bool.false_eq_true, if_false, nextToken, peekToken, prevToken, P.bind]
        obtain ⟨b', a'⟩ := st
        cases a' with
        | nil => simp only [P.runZ, List.head?_nil]
        | cons t a' =>
          simp only [P.runZ, List.head?_cons]
          rw [runZ_bind, runZ_bind]
          cases r.statement.runZ b' (t :: a') with
          | ok st s2 =>
            simp only
            rw [runZ_bind, runZ_bind, parseSQLLoop_mode r n true s2.1 s2.2]
          | err => rfl
          | panic => rfl
          | oof => rfl
    | err => rfl
    | panic => rfl
    | oof => rfl

/-- C17 for the entry points.  `ParseSQL` itself looks at the option (parser.go:103-115). -/
theorem C17_entry_points (fns : FloatFns) (n : Nat) (toks : List Token) :
    runStatement fns n true toks = runStatement fns n false toks ∧
    runExpr fns n true toks = runExpr fns n false toks ∧
    runDataType fns n true toks = runDataType fns n false toks ∧
    runSQL fns n true toks = runSQL fns n false toks ∧
    runFile fns n true toks = runFile fns n false toks := by
  have h : runSQL fns n true toks = runSQL fns n false toks := by
    unfold runSQL
    rw [outcome_runZ, outcome_runZ, parseSQL, parseSQL, parseSQLLoop_mode]
  exact ⟨C17_comment_mode _ _, C17_comment_mode _ _, C17_comment_mode _ _, h, by rw [runFile_eq, runFile_eq, h]⟩

/-! ### C18 -/

/-- The comment tokens of a token list, as comments, in order. -/
def commentsOf (toks : List Token) : List Comment :=
  toks.filterMap fun t =>
    match t.tok with
    | .comment s => some ⟨s, t.from_, t.to_⟩
    | _ => none

/-- Start positions strictly increase (C03: true of every tokenized text). -/
def Increasing (toks : List Token) : Prop :=
  toks.Pairwise fun a b => comparePos a.from_ b.from_ = -1

/-- C18: every comment is in `File.Comments` exactly once, in source order. -/
theorem C18_comments_complete {fns : FloatFns} {n : Nat} {toks : List Token} {f : File} {s : PState}
    (hs : Increasing toks) (h : parseFile fns n true (newParser toks) = .ok f s) :
    f.comments.flatMap (·.list) = commentsOf toks := by
  rw [parseFile_comments hs h, grp_flat, List.nil_append]
  rfl

/-- C18 from the source text. -/
theorem C18_comments_complete_text {d : Dialect} {fuel : Nat} {src : Str} {fns : FloatFns} {n : Nat}
    {toks : List Token} {f : File} {s : PState} (ht : tokenize d true fuel src = .ok toks)
    (h : parseFile fns n true (newParser toks) = .ok f s) :
    f.comments.flatMap (·.list) = commentsOf toks :=
  C18_comments_complete (C03_positions_increase ht).2 h

/-- Without the option no comment is recorded by any parser function. -/
theorem C18_no_comments_without_option (p : P α) : ∀ (s s' : PState) (a : α), p.run false s = .ok a s' →
    s'.comments = s.comments := by
  induction p with
  | ret a => intro s s' a' h; simp [P.run] at h; rw [h.2]
  | err => intro s s' a' h; simp [P.run] at h
  | panic => intro s s' a' h; simp [P.run] at h
  | oof => intro s s' a' h; simp [P.run] at h
  | next k ih => intro s s' a' h; rw [P.run] at h; rw [ih _ _ _ _ h]; rfl
  | peek k ih => intro s s' a' h; rw [P.run] at h; rw [ih _ _ _ _ h]
  | prev k ih =>
    intro s s' a' h; rw [P.run] at h
    cases hp : s.prev with
    | none => rw [hp] at h; simp at h
    | some s1 =>
      rw [hp] at h
      rw [ih _ _ _ h]
      simp only [PState.prev, Option.map_eq_some_iff] at hp
      obtain ⟨i, -, rfl⟩ := hp
      rfl
  | kws ks k ih =>
    intro s s' a' h; rw [P.run] at h; rw [ih _ _ _ _ h]
    have hk : ∀ (ks : List Str) (s : PState) (acc : List Token),
        (PState.keywords false ks s acc).2.comments = s.comments := by
      intro ks
      induction ks with
      | nil => intro s acc; rfl
      | cons k ks ih =>
        intro s acc
        rw [PState.keywords]
        split
        · split
          · rw [ih]; rfl
          · rfl
        · rfl
    have := hk ks s []
    unfold PState.kws
    split
    · rename_i h; rw [h] at this; exact this
    · rename_i h; rw [h] at this; exact this

theorem comparePos_neg {a b : Pos} (h : comparePos a b < 0) : comparePos a b = -1 := by
  unfold comparePos at *
  by_cases h1 : a.line = b.line ∧ a.col = b.col
  · rw [if_pos h1] at h; simp at h
  · by_cases h2 : a.line > b.line
    · rw [if_neg h1, if_pos h2] at h; simp at h
    · by_cases h3 : a.line < b.line
      · rw [if_neg h1, if_neg h2, if_pos h3]
      · by_cases h4 : a.col > b.col
        · rw [if_neg h1, if_neg h2, if_neg h3, if_pos h4] at h; simp at h
        · rw [if_neg h1, if_neg h2, if_neg h3, if_neg h4]

theorem comparePos_antisymm {a b : Pos} (h : ¬ comparePos a b < 0) (h' : ¬ comparePos b a < 0) : a = b := by
  have h1 : comparePos a b ≠ -1 := fun e => h (by rw [e]; decide)
  have h2 : comparePos b a ≠ -1 := fun e => h' (by rw [e]; decide)
  simp only [ne_eq, comparePos_lt_iff, Pos.lt] at h1 h2
  cases a; cases b; simp at *; omega

/-- The order in which `ParseFile` meets the map entries is arbitrary and `sort.Slice` is only specified up
to the order of equal elements; neither matters: every sorted permutation of the recorded groups is the list
the model returns. -/
theorem C18_sort_unique {fns : FloatFns} {n : Nat} {toks : List Token} {f : File} {s : PState}
    (hs : Increasing toks) (h : parseFile fns n true (newParser toks) = .ok f s) {out : List CommentGroup}
    (hperm : out.Perm (s.comments.map Prod.snd))
    (hsort : out.Pairwise fun a b => ¬ comparePos b.pos a.pos < 0) : out = f.comments := by
  have hf := parseFile_comments hs h
  have hsnd : s.comments.map Prod.snd = grp toks [] [] := by
    unfold parseFile at h
    cases hr : (parseSQL true (Parsers.at fns n) n).run true (newParser toks) with
    | ok ss s1 =>
      rw [hr] at h
      simp only [Res.ok.injEq] at h
      obtain ⟨-, rfl⟩ := h
      exact parseSQL_comments hs hr
    | err => rw [hr] at h; simp at h
    | panic => rw [hr] at h; simp at h
    | oof => rw [hr] at h; simp at h
  rw [hf]
  rw [hsnd] at hperm
  have hstrict := grp_sorted hs
  have hle : (grp toks [] []).Pairwise fun a b => ¬ comparePos b.pos a.pos < 0 := by
    refine hstrict.imp ?_
    intro a b hab hba
    have hba' : comparePos b.pos a.pos = -1 := comparePos_neg hba
    rw [comparePos_lt_iff, Pos.lt] at hab hba'
    omega
  refine List.Perm.eq_of_pairwise ?_ hsort hle hperm
  intro a b ha hb hab hba
  have he := comparePos_antisymm hba hab
  have ha' : a ∈ grp toks [] [] := hperm.mem_iff.1 ha
  have hd := groups_distinct hstrict
  by_cases heq : a = b
  · exact heq
  · exfalso
    rw [List.pairwise_iff_forall_sublist] at hd
    obtain ⟨l1, l2, hl⟩ := List.append_of_mem ha'
    rw [hl] at hb
    rcases List.mem_append.1 hb with hb | hb
    · refine hd (a := b) (b := a) ?_ he.symm
      rw [hl]
      exact (List.singleton_sublist.2 hb).append (List.singleton_sublist.2 List.mem_cons_self)
    · rcases List.mem_cons.1 hb with hb | hb
      · exact heq hb.symm
      · refine hd (a := a) (b := b) ?_ he
        rw [hl]
        exact (List.nil_sublist l1).append ((List.singleton_sublist.2 hb).cons_cons a)

/-! ### C19 -/

/-- Tokens end after they start and do not overlap (C02 and C03: true of every tokenized text). -/
def Disjoint (toks : List Token) : Prop :=
  (∀ t ∈ toks, comparePos t.from_ t.to_ = -1) ∧ toks.Pairwise fun a b => ¬ comparePos b.from_ a.to_ < 0

/-- C19 (a): groups are sorted by position, and not empty. -/
theorem C19_sorted {fns : FloatFns} {n : Nat} {toks : List Token} {f : File} {s : PState}
    (hs : Increasing toks) (h : parseFile fns n true (newParser toks) = .ok f s) :
    (∀ g ∈ f.comments, g.list ≠ []) ∧
    f.comments.Pairwise fun g g' => ∀ c ∈ g.list, ∀ c' ∈ g'.list, comparePos c.from_ c'.from_ = -1 := by
  have hne := grp_ne_nil toks [] []
  rw [parseFile_comments hs h]
  refine ⟨hne, ?_⟩
  have hp : ((grp toks [] []).flatMap (·.list)).Pairwise fun a b => comparePos a.from_ b.from_ = -1 := by
    rw [grp_flat]; exact Sorted.comments hs
  revert hp
  generalize grp toks [] [] = gs
  intro hp
  induction gs with
  | nil => exact List.Pairwise.nil
  | cons g gs ih =>
    rw [List.flatMap_cons, List.pairwise_append] at hp
    refine List.Pairwise.cons ?_ (ih hp.2.1)
    intro g' hg' c hc c' hc'
    exact hp.2.2 c hc c' (List.mem_flatMap.2 ⟨g', hg', hc'⟩)

/-- C19 (b): a group is the comments of a stretch of the source without code. -/
theorem C19_no_code_inside {fns : FloatFns} {n : Nat} {toks : List Token} {f : File} {s : PState}
    (hs : Increasing toks) (h : parseFile fns n true (newParser toks) = .ok f s) :
    ∀ g ∈ f.comments, ∃ pre mid post, toks = pre ++ mid ++ post ∧ (∀ t ∈ mid, t.sig = false) ∧
      g.list = commentsOf mid := by
  rw [parseFile_comments hs h]
  intro g hg
  obtain ⟨pre, mid, post, h1, h2, h3⟩ := grp_stretch toks [] [] (by simp) g hg
  exact ⟨pre, mid, post, by simpa using h1, h2, h3⟩

/-- C19 (c): a line break on the line where code ends separates the groups: the comments before it and the
comments after it are in different groups. -/
theorem C19_trailing_comment {fns : FloatFns} {n : Nat} {pre gap post : List Token} {code nl : Token} {f : File}
    {s : PState} (hs : Increasing (pre ++ code :: gap ++ nl :: post))
    (hd : Disjoint (pre ++ code :: gap ++ nl :: post))
    (h : parseFile fns n true (newParser (pre ++ code :: gap ++ nl :: post)) = .ok f s)
    (hcode : code.sig = true) (hnl : nl.tok = .whitespace ['\n']) (hline : nl.from_.line = code.to_.line) :
    ∃ gs gs', f.comments = gs ++ gs' ∧ gs.flatMap (·.list) = commentsOf (pre ++ code :: gap) ∧
      gs'.flatMap (·.list) = commentsOf post := by
  rw [parseFile_comments hs h]
  have hlines : ∀ t ∈ gap, code.to_.line ≤ t.to_.line := by
    intro t ht
    have hp := hd.2
    rw [List.append_assoc, List.pairwise_append] at hp
    have h1 := (List.pairwise_cons.1 hp.2.1).1 t (List.mem_append_left _ ht)
    have h2 := hd.1 t (by simp [ht])
    have h1' : comparePos t.from_ code.to_ ≠ -1 := fun e => h1 (by rw [e]; decide)
    rw [ne_eq, comparePos_lt_iff, Pos.lt] at h1'
    rw [comparePos_lt_iff, Pos.lt] at h2
    omega
  have hnlline : nl.from_.line ≤ nl.to_.line := by
    have := hd.1 nl (by simp)
    rw [comparePos_lt_iff, Pos.lt] at this
    omega
  have hsplit : splitGroup nl.from_.line (nl :: ((pre ++ code :: gap).reverse ++ [])) = true := by
    have := splitGroup_true (line := nl.from_.line) (nl :: gap.reverse) code pre.reverse (by
      intro t ht
      rcases List.mem_cons.1 ht with rfl | ht
      · exact hnlline
      · rw [hline]; exact hlines t (List.mem_reverse.1 ht)) (by omega) hcode
    simpa using this
  refine ⟨_, _, grp_break (pre ++ code :: gap) nl post [] [] hnl hsplit, ?_, ?_⟩
  · rw [grp_flat, List.nil_append]; rfl
  · rw [grp_flat, List.nil_append]; rfl

/-- C19 (d): otherwise groups are as large as possible: two comments with only whitespace between them, none
of it a line break on a line with code before the comments, are neighbours in one group. -/
theorem C19_maximal {fns : FloatFns} {n : Nat} {pre gap post : List Token} {c1 c2 : Token} {s1 s2 : Str}
    {f : File} {s : PState} (hs : Increasing (pre ++ c1 :: (gap ++ c2 :: post)))
    (h : parseFile fns n true (newParser (pre ++ c1 :: (gap ++ c2 :: post))) = .ok f s)
    (h1 : c1.tok = .comment s1) (h2 : c2.tok = .comment s2) (hgap : ∀ t ∈ gap, ∃ w, t.tok = .whitespace w)
    (hcode : ∀ nl ∈ gap, ∀ t ∈ pre, t.sig = true → t.to_.line < nl.from_.line) :
    ∃ l1 l2, ⟨l1 ++ ⟨s1, c1.from_, c1.to_⟩ :: ⟨s2, c2.from_, c2.to_⟩ :: l2⟩ ∈ f.comments := by
  rw [parseFile_comments hs h]
  refine grp_join pre c1 gap c2 post [] [] _ _ (by simp [commentOf, h1]) (by simp [commentOf, h2]) ?_ ?_
  · intro t ht
    obtain ⟨w, hw⟩ := hgap t ht
    simp [Token.sig, hw, Tok.insignificant, commentOf]
  · simpa using hcode

/-- The position hypotheses hold for every tokenized text. -/
theorem C19_tokenized {d : Dialect} {fuel : Nat} {src : Str} {toks : List Token}
    (ht : tokenize d true fuel src = .ok toks) : Increasing toks ∧ Disjoint toks := by
  have h2 := C02_positions_contiguous ht
  have h3 := C03_positions_increase ht
  refine ⟨h3.2, h3.1, ?_⟩
  have key : ∀ (l : List Token), (∀ pre a b post, l = pre ++ a :: b :: post → b.from_ = a.to_) →
      l.Pairwise (fun a b => comparePos a.from_ b.from_ = -1) →
      l.Pairwise fun a b => ¬ comparePos b.from_ a.to_ < 0 := by
    intro l
    induction l with
    | nil => intro _ _; exact List.Pairwise.nil
    | cons a l ih =>
      intro hc hp
      have hp' := List.pairwise_cons.1 hp
      refine List.Pairwise.cons ?_ (ih (fun pre x y post e => hc (a :: pre) x y post (by simp [e])) hp'.2)
      intro b hb
      cases l with
      | nil => simp at hb
      | cons x l =>
        have hx := hc [] a x l rfl
        rw [← hx]
        rcases List.mem_cons.1 hb with rfl | hb
        · simp [comparePos]
        · have := (List.pairwise_cons.1 hp'.2).1 b hb
          rw [comparePos_lt_iff, Pos.lt] at this
          intro hlt
          have hlt' : comparePos b.from_ x.from_ = -1 := comparePos_neg hlt
          rw [comparePos_lt_iff, Pos.lt] at hlt'
          omega
  exact key toks h2.2 h3.2

/-! ### A file that meets the hypotheses of C16-C19 -/

/-- Comments before code, behind code, on lines of their own and at the end; `IS NULL`, `ORDER BY` and the
end of the select list make the parser go back over them. -/
def sampleText : Str := (str% "/*h*/ SELECT a -- one") ++ ['\n'] ++ (str% "-- two") ++ ['\n'] ++
  (str% "FROM t /*x*/ /*y*/ ; --end")

def sampleToks : List Token :=
  match tokenize genericDialect true 100 sampleText with
  | .ok ts => ts
  | _ => []

def sampleFns : FloatFns := ⟨fun _ => none, fun _ => []⟩

def sampleGroups : List (List Str) :=
  match parseFile sampleFns 30 true (newParser sampleToks) with
  | .ok f _ => f.comments.map fun g => g.list.map (·.text)
  | _ => []

example : tokenize genericDialect true 100 sampleText = .ok sampleToks ∧ sampleToks.length = 21 := by
  decide +kernel

example : sampleGroups = [[str% "h"], [str% " one"], [str% " two"], [str% "x", str% "y"], [str% "end"]] := by
  decide +kernel

/-! ### C46 -/

/-- C46: a run that never asked for a token beyond the end of the list gives the same result, reads the same
tokens and records the same comments when more tokens are appended. -/
theorem C46_local (p : P α) (mode : Bool) (toks ext : List Token)
    (h : p.asksEnd mode (newParser toks) = false) :
    p.run mode (newParser (toks ++ ext)) =
      (p.run mode (newParser toks)).mapState fun s => { s with toks := s.toks ++ ext } :=
  run_extend mode ext p (newParser toks) (Nat.zero_le _) h

/-- C46 for `ParseStatement`. -/
theorem C46_statement (fns : FloatFns) (n : Nat) (mode : Bool) (toks ext : List Token)
    (h : (Parsers.at fns n).statement.asksEnd mode (newParser toks) = false) :
    runStatement fns n mode (toks ++ ext) = runStatement fns n mode toks := by
  unfold runStatement
  rw [C46_local _ _ _ _ h, outcome_mapState]

example : (Parsers.at sampleFns 30).statement.asksEnd true (newParser sampleToks) = false ∧
    (∃ e s, (Parsers.at sampleFns 30).statement.run true (newParser sampleToks) = .ok e s) := by
  refine ⟨by decide +kernel, ?_⟩
  have : (match (Parsers.at sampleFns 30).statement.run true (newParser sampleToks) with
    | .ok _ _ => true | _ => false) = true := by decide +kernel
  revert this
  cases (Parsers.at sampleFns 30).statement.run true (newParser sampleToks) with
  | ok e s => intro _; exact ⟨e, s, rfl⟩
  | _ => simp


end Verif
