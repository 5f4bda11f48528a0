import Verif.Model.Session
import Verif.Props.Script
/-
Property theorem C72: a parser as an object, and cmd/astprinter.
-/
set_option linter.unusedVariables false
namespace Verif

/-! ### Sessions -/

/-- A call that reads tokens. -/
def Method.parses : Method → Bool
  | .setTokens _ => false
  | _ => true

/-- What a call of the parser does to the cursor. -/
theorem forward_of_within {p : P α} {mode : Bool} {s s' : PState} {x : α} (hs : s.idx ≤ s.toks.length)
    (hw : p.within s.after 0 s.after.length false 0) (h : p.run mode s = .ok x s') :
    s'.toks = s.toks ∧ s'.idx ≤ s.toks.length ∧
    ∃ used, s.after = used ++ s'.after ∧ s'.before = used.reverse ++ s.before := by
  obtain ⟨h1, h2⟩ := run_toks mode p s hs x s' h
  refine ⟨h1, h2, ?_⟩
  have hv := run_view mode p s hs
  rw [h, runZ_history hw] at hv
  have e := (runZ_runI s.after p 0 (Nat.zero_le _)).2
  simp only [List.take_zero, List.reverse_nil, List.drop_zero] at e
  cases hz : p.runZ [] s.after with
  | ok y st =>
    obtain ⟨b1, a1⟩ := st
    obtain ⟨j, hj, rfl, rfl⟩ := e _ _ _ hz
    rw [hz] at hv
    simp only [Res.mapState, Res.ok.injEq, PState.view, Prod.mk.injEq] at hv
    obtain ⟨-, hb, ha⟩ := hv
    exact ⟨s.after.take j, by rw [ha, List.take_append_drop], hb⟩
  | err => rw [hz] at hv; cases hv
  | panic => rw [hz] at hv; cases hv
  | oof => rw [hz] at hv; cases hv

theorem Res.reply_ok {f : α → Reply} {r : Res σ α} {y : Reply} {s : σ} (h : r.reply f = .ok y s) :
    ∃ x, r = .ok x s ∧ y = f x := by
  cases r with
  | ok x t => cases h; exact ⟨x, rfl, rfl⟩
  | err => cases h
  | panic => cases h
  | oof => cases h

theorem parseFile_ok {fns : FloatFns} {n : Nat} {mode : Bool} {s s' : PState} {f : File}
    (h : parseFile fns n mode s = .ok f s') :
    (parseSQL mode (Parsers.at fns n) n).run mode s = .ok f.stmts s' ∧
      f.comments = sortGroups (s'.comments.map Prod.snd) := by
  unfold parseFile at h
  split at h
  · rename_i hr
    cases h
    exact ⟨hr, rfl⟩
  all_goals cases h

/-- A successful call that reads is the run of a program that stays in front of the place where it began. -/
theorem call_program {fns : FloatFns} {n : Nat} {mode : Bool} {c : Method} (hc : c.parses = true) {s s' : PState}
    {r : Reply} (h : call fns n mode c s = .ok r s') :
    ∃ (α : Type) (p : P α) (x : α), p.within s.after 0 s.after.length false 0 ∧ p.run mode s = .ok x s' := by
  have E : Rim s.after s.after.length false := ⟨Nat.le_refl _, fun _ => rfl, fun h => by cases h⟩
  have H := bar_at (lo := 0) fns E n
  have h0 := Nat.zero_le s.after.length
  cases c with
  | sql =>
    obtain ⟨x, h, -⟩ := Res.reply_ok h
    exact ⟨_, _, x, (bar_parseSQLLoop E H mode n false 0 h0 (Nat.le_refl _)).1, h⟩
  | file =>
    obtain ⟨x, h, -⟩ := Res.reply_ok h
    exact ⟨_, _, _, (bar_parseSQLLoop E H mode n false 0 h0 (Nat.le_refl _)).1, (parseFile_ok h).1⟩
  | statement =>
    obtain ⟨x, h, -⟩ := Res.reply_ok h
    exact ⟨_, _, x, (H.statement 0 h0 (Nat.le_refl _)).1, h⟩
  | expr =>
    obtain ⟨x, h, -⟩ := Res.reply_ok h
    exact ⟨_, _, x, (bar_parseExpr E H h0 (Nat.le_refl _)).1, h⟩
  | dataType =>
    obtain ⟨x, h, -⟩ := Res.reply_ok h
    exact ⟨_, _, x, (bar_parseDataType E H h0 (Nat.le_refl _)).1, h⟩
  | setTokens ts => cases hc

theorem session_cons {fns : FloatFns} {n : Nat} {mode : Bool} {c : Method} {cs : List Method} {s s' : PState}
    {rs : List Reply} (h : session fns n mode (c :: cs) s = .ok rs s') :
    ∃ r rs' s1, rs = r :: rs' ∧ call fns n mode c s = .ok r s1 ∧ session fns n mode cs s1 = .ok rs' s' := by
  rw [session] at h
  split at h
  · rename_i r s1 h1
    split at h
    · rename_i rs' s2 h2
      cases h
      exact ⟨r, rs', s1, rfl, h1, h2⟩
    all_goals cases h
  all_goals cases h

/-- Calls only go forward: after any successful calls the tokens are the same, and what is left is the end of what was
there before. -/
theorem C72_forward (fns : FloatFns) (n : Nat) (mode : Bool) : ∀ (cs : List Method) (s s' : PState) (rs : List Reply),
    (∀ c ∈ cs, c.parses = true) → s.idx ≤ s.toks.length → session fns n mode cs s = .ok rs s' →
    s'.toks = s.toks ∧ s'.idx ≤ s.toks.length ∧
    ∃ used, s.after = used ++ s'.after ∧ s'.before = used.reverse ++ s.before
  | [], s, s', rs, _, hs, h => by
    cases h
    exact ⟨rfl, hs, [], rfl, rfl⟩
  | c :: cs, s, s', rs, hc, hs, h => by
    obtain ⟨r, rs', s1, -, h1, h2⟩ := session_cons h
    obtain ⟨α, p, x, hw, hr⟩ := call_program (hc c (by simp)) h1
    obtain ⟨a1, a2, u, a3, a4⟩ := forward_of_within hs hw hr
    obtain ⟨b1, b2, v, b3, b4⟩ := C72_forward fns n mode cs s1 s' rs' (fun c hm => hc c (by simp [hm]))
      (by rw [a1]; exact a2) h2
    exact ⟨b1.trans a1, a1 ▸ b2, u ++ v, by rw [a3, b3, List.append_assoc], by rw [b4, a4]; simp⟩

/-- Any call in a session answers as a fresh parser on the tokens that are left would. -/
theorem C72_fresh (fns : FloatFns) (n : Nat) (mode : Bool) (cs : List Method) (toks : List Token) (s : PState)
    (rs : List Reply) (hc : ∀ c ∈ cs, c.parses = true)
    (h : session fns n mode cs (newParser toks) = .ok rs s) :
    ∃ rest, rest <:+ toks ∧
      ((Parsers.at fns n).statement.run mode s).outcome = runStatement fns n mode rest ∧
      ((parseExpr (Parsers.at fns n)).run mode s).outcome = runExpr fns n mode rest ∧
      ((parseDataType (Parsers.at fns n)).run mode s).outcome = runDataType fns n mode rest ∧
      ((parseSQL mode (Parsers.at fns n) n).run mode s).outcome = runSQL fns n mode rest := by
  obtain ⟨h1, h2, -⟩ := C72_forward fns n mode cs _ s rs hc (Nat.zero_le _) h
  have h1 : s.toks = toks := h1
  refine ⟨s.toks.drop s.idx, by rw [h1]; exact List.drop_suffix _ _, ?_⟩
  exact C62_context fns n mode s (by rw [h1]; exact h2)

theorem file_comments {fns : FloatFns} {n : Nat} {toks : List Token} {s s' : PState} {f : File} {hi : Nat}
    (hs : Increasing toks) (t1 : s.toks = toks) (i1 : CInv s hi) (hf : parseFile fns n true s = .ok f s') :
    f.comments.flatMap (·.list) = commentsOf toks := by
  obtain ⟨h1, h2⟩ := parseFile_ok hf
  obtain ⟨hi2, -, i2, t2⟩ := run_inv _ s hi (by rw [t1]; exact hs) i1 _ _ h1
  have hend := parseSQLLoop_end (Parsers.at fns n) n false _ _ _ h1 (by have := i1.le; have := i1.hile; omega)
  rw [t2, t1] at hend
  have : hi2 = toks.length := by
    have a1 := i2.le
    have a2 := i2.hile
    rw [t2, t1] at a2
    omega
  have e : s'.comments.map Prod.snd = grp toks [] [] := by
    rw [i2.table, keyed, List.map_map, t2, t1, this]
    simp [Function.comp_def]
  rw [h2, e, sortGroups_sorted (grp_sorted hs), grp_flat, List.nil_append]
  rfl

/-- `ParseFile` returns all comments of the text, whatever has been read before by other calls. -/
theorem C72_comments (fns : FloatFns) (n : Nat) (cs : List Method) (toks : List Token) (s s' : PState)
    (rs : List Reply) (f : File) (hc : ∀ c ∈ cs, c.parses = true) (hs : Increasing toks)
    (h : session fns n true cs (newParser toks) = .ok rs s) (hf : parseFile fns n true s = .ok f s') :
    f.comments.flatMap (·.list) = commentsOf toks := by
  have inv : ∀ (cs : List Method) (s s' : PState) (rs : List Reply) (hi : Nat), (∀ c ∈ cs, c.parses = true) →
      Sorted s.toks → CInv s hi → session fns n true cs s = .ok rs s' → ∃ hi', CInv s' hi' ∧ s'.toks = s.toks := by
    intro cs
    induction cs with
    | nil => intro s s' rs hi _ _ hi h; cases h; exact ⟨_, hi, rfl⟩
    | cons c cs ih =>
      intro s s' rs hi hc hs hinv h
      obtain ⟨r, rs', s1, -, h1, h2⟩ := session_cons h
      obtain ⟨α, p, x, -, hr⟩ := call_program (hc c (by simp)) h1
      obtain ⟨hi1, -, i1, t1⟩ := run_inv p s hi hs hinv _ _ hr
      obtain ⟨hi2, i2, t2⟩ := ih s1 s' rs' hi1 (fun c hm => hc c (by simp [hm])) (by rw [t1]; exact hs) i1 h2
      exact ⟨hi2, i2, t2.trans t1⟩
  obtain ⟨hi, i1, t1⟩ := inv cs _ s rs 0 hc (by exact hs) (inv_init toks) h
  exact file_comments hs t1 i1 hf

/-! ### One statement, and then the rest -/

/-- The next token is a semicolon. -/
def PState.atSemi (s : PState) : Bool :=
  match s.peek with
  | some t => t.isSym .Semicolon
  | none => false

theorem atSemi_nil {s : PState} (h : s.after = []) : s.atSemi = false := by
  unfold PState.atSemi
  rw [peek_view, h]
  rfl

theorem atSemi_cons {s : PState} {t : Token} {y : List Token} (h : s.after = t :: y) :
    s.atSemi = t.isSym .Semicolon := by
  unfold PState.atSemi
  rw [peek_view, h]
  rfl

/-- `ParseSQL` where no semicolon comes next is `ParseStatement` and then `ParseSQL`, if a semicolon follows the
statement; otherwise it is an error, though the two calls would be accepted at the end of the text. -/
theorem C72_stepwise (fns : FloatFns) (n : Nat) (mode : Bool) (s : PState) (hs : s.idx ≤ s.toks.length)
    (hk : KwOK s.toks) (hn : 3 * s.toks.length + 3 ≤ n) (hmore : s.peek ≠ none) (hno : s.atSemi = false) :
    ((parseSQL mode (Parsers.at fns n) n).run mode s).outcome =
      match (Parsers.at fns n).statement.run mode s with
      | .ok x s1 =>
        if s1.atSemi then
          match ((parseSQL mode (Parsers.at fns n) n).run mode s1).outcome with
          | .ok xs _ => .ok (x :: xs) ()
          | e => e
        else .err
      | .err => .err
      | .panic => .panic
      | .oof => .oof := by
  have sqlOut : ∀ t : PState, t.idx ≤ t.toks.length →
      ((parseSQL mode (Parsers.at fns n) n).run mode t).outcome = loopOut fns n n false t.after := by
    intro t ht
    rw [(C62_context fns n mode t ht).2.2.2, runSQL_loopOut]
    rfl
  have hla : s.after.length ≤ s.toks.length := by
    refine Nat.le_trans (List.length_filter_le _ _) ?_
    rw [List.length_drop]; omega
  have hka : ∀ t ∈ s.after, t ∈ s.toks := fun t ht => List.mem_of_mem_drop (List.mem_filter.1 ht).1
  obtain ⟨n, rfl⟩ : ∃ k, n = k + 1 := ⟨n - 1, by omega⟩
  rw [sqlOut s hs]
  have hv := run_view mode (Parsers.at fns (n + 1)).statement s hs
  rw [statement_history] at hv
  have hfw := fun x s1 (h : (Parsers.at fns (n + 1)).statement.run mode s = .ok x s1) =>
    forward_of_within hs ((bar_at (lo := 0) fns (L := s.after.length) (d := false)
      ⟨Nat.le_refl _, fun _ => rfl, fun h => by cases h⟩ (n + 1)).statement 0 (Nat.zero_le _) (Nat.le_refl _)).1 h
  rw [peek_view] at hmore
  unfold PState.atSemi at hno
  rw [peek_view] at hno
  cases ha : s.after with
  | nil => rw [ha] at hmore; exact absurd rfl hmore
  | cons t y =>
    rw [ha] at hno hv hfw
    have hno : ¬ t.isSym .Semicolon = true := by
      have : t.isSym .Semicolon = false := hno
      rw [this]; simp
    rw [loopOut_nosemi _ _ hno]
    simp only [Bool.false_eq_true, if_false]
    rw [bodyOut_ne _ _ (by simp)]
    cases hr : (Parsers.at fns (n + 1)).statement.run mode s with
    | ok x s1 =>
      obtain ⟨t1, l1, used, e1, -⟩ := hfw x s1 hr
      rw [hr] at hv
      cases hz : (Parsers.at fns (n + 1)).statement.runZ [] (t :: y) with
      | ok x' st =>
        rw [hz] at hv
        simp only [Res.mapState, Res.ok.injEq, PState.view, Prod.mk.injEq] at hv
        obtain ⟨rfl, -, e2⟩ := hv
        simp only [Res.bind_ok, ← e2]
        rw [sqlOut s1 (by rw [t1]; exact l1)]
        have hlen : s1.after.length ≤ s.toks.length := by
          have := congrArg List.length e1
          rw [← ha, List.length_append] at this
          omega
        obtain ⟨n, rfl⟩ : ∃ k, n = k + 1 := ⟨n - 1, by omega⟩
        cases hb : s1.after with
        | nil =>
          rw [loopOut_nil, atSemi_nil hb]
          rfl
        | cons u z =>
          rw [hb] at hlen e1
          simp only [List.length_cons] at hlen
          rw [atSemi_cons hb]
          by_cases hu : u.isSym .Semicolon = true
          · rw [loopOut_semi _ _ hu, loopOut_semi _ _ hu, if_pos hu]
            have hk' : KwOK (u :: z) := fun w hw => hk w (hka w (by
              rw [ha, e1]; exact List.mem_append_right _ hw))
            rw [bodyOut_fuel fns _ hu hk' (by omega) (m := n) (m' := n + 1) (by omega) (by omega)]
            cases bodyOut fns (n + 1 + 1) (n + 1) z <;> rfl
          · rw [loopOut_nosemi _ _ hu, if_neg hu]
            rfl
      | err => rw [hz] at hv; cases hv
      | panic => rw [hz] at hv; cases hv
      | oof => rw [hz] at hv; cases hv
    | err =>
      rw [hr] at hv
      cases hz : (Parsers.at fns (n + 1)).statement.runZ [] (t :: y) with
      | err => rfl
      | ok x' st => rw [hz] at hv; cases hv
      | panic => rw [hz] at hv; cases hv
      | oof => rw [hz] at hv; cases hv
    | panic =>
      rw [hr] at hv
      cases hz : (Parsers.at fns (n + 1)).statement.runZ [] (t :: y) with
      | panic => rfl
      | ok x' st => rw [hz] at hv; cases hv
      | err => rw [hz] at hv; cases hv
      | oof => rw [hz] at hv; cases hv
    | oof =>
      rw [hr] at hv
      cases hz : (Parsers.at fns (n + 1)).statement.runZ [] (t :: y) with
      | oof => rfl
      | ok x' st => rw [hz] at hv; cases hv
      | err => rw [hz] at hv; cases hv
      | panic => rw [hz] at hv; cases hv

/-- `ParseStatement` cannot be called twice to read two statements of a script: where a semicolon comes next it
returns an error. -/
theorem C72_second_statement (fns : FloatFns) (n : Nat) (mode : Bool) (s : PState) (hs : s.idx ≤ s.toks.length)
    (h : s.atSemi = true) : (Parsers.at fns (n + 1)).statement.run mode s = .err := by
  have hv := run_view mode (Parsers.at fns (n + 1)).statement s hs
  unfold PState.atSemi at h
  rw [peek_view] at h
  cases ha : s.after with
  | nil => rw [ha] at h; cases h
  | cons t y =>
    rw [ha] at h hv
    obtain ⟨c, f, g, rfl⟩ := isSemi_eq h
    have e : (Parsers.at fns (n + 1)).statement.runZ s.before (⟨.sym .Semicolon c, f, g⟩ :: y) = .err := rfl
    rw [e] at hv
    cases hr : (Parsers.at fns (n + 1)).statement.run mode s with
    | err => rfl
    | ok x' st => rw [hr] at hv; cases hv
    | panic => rw [hr] at hv; cases hv
    | oof => rw [hr] at hv; cases hv

/-! ### `SetTokens` -/

/-- The tokens may be given to `NewParser` by way of a text, or to `SetTokens`.  But `SetTokens` does not set the
cursor back: on a parser that has read `k` tokens the first `k` of the new ones are skipped, and if there are no more
than that, `ParseSQL` finds no statement and `ParseStatement` reports the end of the text. -/
theorem C72_set_tokens (fns : FloatFns) (n : Nat) (mode : Bool) (toks : List Token) (s : PState) :
    call fns n mode (.setTokens toks) newParserWithOptions = .ok .done (newParser toks) ∧
    ∃ s1, call fns n mode (.setTokens toks) s = .ok .done s1 ∧
      (s.idx ≤ toks.length →
        ((Parsers.at fns n).statement.run mode s1).outcome = runStatement fns n mode (toks.drop s.idx) ∧
        ((parseExpr (Parsers.at fns n)).run mode s1).outcome = runExpr fns n mode (toks.drop s.idx) ∧
        ((parseDataType (Parsers.at fns n)).run mode s1).outcome = runDataType fns n mode (toks.drop s.idx) ∧
        ((parseSQL mode (Parsers.at fns n) n).run mode s1).outcome = runSQL fns n mode (toks.drop s.idx)) ∧
      (toks.length ≤ s.idx → 0 < n →
        (Parsers.at fns n).statement.run mode s1 = .err ∧
        ∃ s2, (parseSQL mode (Parsers.at fns n) n).run mode s1 = .ok [] s2) := by
  refine ⟨rfl, _, rfl, fun h => C62_context fns n mode { s with toks := toks } h, fun h hn => ?_⟩
  obtain ⟨n, rfl⟩ : ∃ k, n = k + 1 := ⟨n - 1, by omega⟩
  have hd : toks.drop s.idx = [] := List.drop_eq_nil_of_le h
  have hpeek : ({ s with toks := toks } : PState).peek = none := by
    unfold PState.peek
    simp [hd]
  have hnext : (({ s with toks := toks } : PState).next mode).1 = none := by
    unfold PState.next
    cases mode <;> simp [hd, commentLoop, nextLoop]
  constructor
  · show (nextOrErr.bind _).run mode _ = _
    simp [nextOrErr, P.run, hnext, P.bind, P.run]
  · refine ⟨if mode then (({ s with toks := toks } : PState).next true).2 else { s with toks := toks }, ?_⟩
    show (parseSQLLoop mode _ (n + 1) false).run mode _ = _
    rw [parseSQLLoop]
    cases mode <;> simp [consumeToken, peekToken, nextToken, bind, pure, P.bind, P.run, hpeek, hnext]

/-! ### cmd/astprinter -/

/-- astprinter panics if the text has no tokens; otherwise all it does depends on the part up to the first semicolon
alone, and it ends. -/
theorem C72_astprinter (fns : FloatFns) (fuel n : Nat) (src : Str) :
    (∀ e, tokenize genericDialect true fuel src = .err e → astPrinter fns fuel n src = .panic) ∧
    (∀ toks, tokenize genericDialect true fuel src = .ok toks → 3 * toks.length + 3 ≤ n →
      astPrinter fns fuel n src ≠ .loops ∧
      ∀ a sem rest, toks = a ++ sem :: rest → sem.isSym .Semicolon = true →
        ∀ fuel' src', tokenize genericDialect true fuel' src' = .ok (a ++ [sem]) →
          astPrinter fns fuel' n src' = astPrinter fns fuel n src) := by
  refine ⟨fun e h => by simp only [astPrinter, h], fun toks h hn => ⟨?_, ?_⟩⟩
  · have ht := (C20_source _ _ _ _ _ h fns false n hn).1
    unfold astPrinter
    rw [h]
    unfold runStatement at ht
    dsimp only
    cases hr : (Parsers.at fns n).statement.run false (newParser toks) with
    | oof => rw [hr] at ht; exact absurd rfl ht
    | ok x s => intro h; cases h
    | err => intro h; cases h
    | panic => intro h; cases h
  · rintro a sem rest rfl hs fuel' src' h'
    have hb := (C61_barrier fns n false a rest sem hs).1
    unfold astPrinter
    rw [h, h']
    unfold runStatement at hb
    dsimp only
    cases h1 : (Parsers.at fns n).statement.run false (newParser (a ++ sem :: rest)) <;>
      cases h2 : (Parsers.at fns n).statement.run false (newParser (a ++ [sem])) <;>
      rw [h1, h2] at hb <;> first | cases hb; rfl | cases hb

/-! ### Examples -/

/-- What the replies of a session are. -/
def Reply.tag : Reply → Nat
  | .stmts ss => ss.length
  | .file f => 100 + 10 * f.stmts.length + f.comments.length
  | .stmt _ => 1000
  | .expr _ => 1001
  | .dataType _ => 1002
  | .done => 1003

def tags (r : Res PState (List Reply)) : Option (List Nat) × Nat :=
  match r with
  | .ok rs s => (some (rs.map Reply.tag), s.idx)
  | .err => (none, 1)
  | .panic => (none, 2)
  | .oof => (none, 3)

def twoStmts : List Token := textToks (str% "/* a */ DELETE FROM t; /* b */ DELETE FROM u;")

/-- A statement, and then the file with the other one: both comments are there. -/
example : (∀ c ∈ [Method.statement], c.parses = true) ∧
    tags (session sampleFns 200 true [.statement, .file] (newParser twoStmts)) = (some [1000, 112], twoStmts.length) ∧
    tags (session sampleFns 200 true [.statement, .statement] (newParser twoStmts)) = (none, 1) := by
  decide +kernel

/-- The hypotheses of `C72_stepwise` are met, with and without a semicolon after the statement: in the second case the
two calls succeed and `ParseSQL` does not. -/
example : KwOK twoStmts ∧ 3 * twoStmts.length + 3 ≤ 200 ∧ (newParser twoStmts).peek ≠ none ∧
    (newParser twoStmts).atSemi = false ∧
    tags (session sampleFns 200 false [.sql] (newParser twoStmts)) = (some [2], 17) ∧
    tags (session sampleFns 200 false [.statement, .sql] (newParser twoStmts)) = (some [1000, 1], 17) ∧
    tags (session sampleFns 200 false [.sql] (newParser part0)) = (none, 1) ∧
    tags (session sampleFns 200 false [.statement, .sql] (newParser part0)) = (some [1000, 0], part0.length) :=
  ⟨kwOK_of_b (by decide +kernel), by decide +kernel⟩

/-- A parser that has read a statement of 5 tokens skips 5 tokens of the next text: `DELETE FROM t` leaves nothing of
`DELETE FROM u`, and `SELECT 1, ` is lost from a longer one. -/
example : part0.length = 5 ∧
    tags (session sampleFns 200 false [.statement, .setTokens part0, .sql] (newParser part0)) =
      (some [1000, 1003, 0], 5) ∧
    tags (session sampleFns 200 false [.statement, .setTokens (textToks (str% "SELECT 1, DELETE FROM t;")), .sql]
      (newParser part0)) = (some [1000, 1003, 1], 11) := by
  decide +kernel

/-- astprinter on two statements prints the first; a string that is not closed makes it panic, even behind the first
statement. -/
example : (match astPrinter sampleFns 100 200 (str% "DELETE FROM t; DELETE FROM u") with
      | .printed _ text => text == str% "DELETE FROM t"
      | _ => false) = true ∧
    (match astPrinter sampleFns 100 200 (str% "DELETE FROM t; 'x") with | .panic => true | _ => false) = true ∧
    (match astPrinter sampleFns 100 200 (str% "1") with | .fatal => true | _ => false) = true := by
  decide +kernel

end Verif
