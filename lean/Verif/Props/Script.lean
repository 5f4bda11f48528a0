import Verif.Proofs.BarrierRun
import Verif.Proofs.NodePos
import Verif.Props.RoundTrip
import Verif.Props.Stream
/-
Property theorems C61 and C62: what a statement of a script depends on.
-/
set_option linter.unusedVariables false
namespace Verif

/-! ### C61 -/

theorem outcome_run (p : P α) (mode : Bool) (s : PState) (hs : s.idx ≤ s.toks.length) :
    (p.run mode s).outcome = (p.runZ s.before s.after).outcome := by
  rw [← outcome_mapState _ PState.view, run_view mode p s hs]

/-- C61: what `ParseStatement`, `ParseExpr` and `ParseDataType` do on tokens followed by a semicolon does not
depend on the tokens behind the semicolon; whether they return a tree, report an error or panic. -/
theorem C61_barrier (fns : FloatFns) (n : Nat) (mode : Bool) (a rest : List Token) (sem : Token)
    (hs : sem.isSym .Semicolon = true) :
    runStatement fns n mode (a ++ sem :: rest) = runStatement fns n mode (a ++ [sem]) ∧
    runExpr fns n mode (a ++ sem :: rest) = runExpr fns n mode (a ++ [sem]) ∧
    runDataType fns n mode (a ++ sem :: rest) = runDataType fns n mode (a ++ [sem]) := by
  obtain ⟨s, f, g, rfl⟩ := isSemi_eq hs
  have hf : ∀ rest, (a ++ (⟨.sym .Semicolon s, f, g⟩ : Token) :: rest).filter Token.sig =
      a.filter Token.sig ++ ⟨.sym .Semicolon s, f, g⟩ :: rest.filter Token.sig := by
    intro rest
    rw [List.filter_append, List.filter_cons_of_pos rfl]
  have E : Rim (a.filter Token.sig ++ [⟨.sym .Semicolon s, f, g⟩]) (a.filter Token.sig).length true :=
    ⟨by simp, (fun h => by cases h), fun _ => ⟨s, f, g, by simp⟩⟩
  have H := bar_at (lo := 0) fns E n
  have key : ∀ {α} {p : P α}, (bw (a.filter Token.sig ++ [⟨.sym .Semicolon s, f, g⟩]) 0 (a.filter Token.sig).length true
      p 0 fun _ j => 1 ≤ j ∧ j ≤ (a.filter Token.sig).length) →
      (p.run mode (newParser (a ++ ⟨.sym .Semicolon s, f, g⟩ :: rest))).outcome =
        (p.run mode (newParser (a ++ [⟨.sym .Semicolon s, f, g⟩]))).outcome := by
    intro α p hb
    rw [outcome_runZ, outcome_runZ, hf, hf, (runZ_future hb ⟨s, f, g, rfl⟩ _).1, outcome_mapState]
    rfl
  have h0 := Nat.zero_le (a.filter Token.sig).length
  exact ⟨key (H.statement 0 h0 (Nat.le_refl _)), key (bar_parseExpr E H h0 (Nat.le_refl _)),
    key (bar_parseDataType E H h0 (Nat.le_refl _))⟩

/-- C61: a statement never swallows a semicolon: after a successful `ParseStatement` the cursor stands before
every semicolon of the token list that it had not passed at the beginning. -/
theorem C61_stops (fns : FloatFns) (n : Nat) (mode : Bool) (a rest : List Token) (sem : Token)
    (hs : sem.isSym .Semicolon = true) (x : Stmt) (st : PState)
    (h : (Parsers.at fns n).statement.run mode (newParser (a ++ sem :: rest)) = .ok x st) :
    st.idx ≤ a.length := by
  obtain ⟨s, f, g, rfl⟩ := isSemi_eq hs
  have hv := run_view mode (Parsers.at fns n).statement (newParser (a ++ ⟨.sym .Semicolon s, f, g⟩ :: rest))
    (Nat.zero_le _)
  rw [h] at hv
  have e1 : (newParser (a ++ (⟨.sym .Semicolon s, f, g⟩ : Token) :: rest)).after =
      a.filter Token.sig ++ ⟨.sym .Semicolon s, f, g⟩ :: rest.filter Token.sig := by
    simp only [PState.after, newParser, List.drop_zero]
    rw [List.filter_append, List.filter_cons_of_pos rfl]
  have e2 : (newParser (a ++ (⟨.sym .Semicolon s, f, g⟩ : Token) :: rest)).before = [] := rfl
  rw [e1, e2] at hv
  obtain ⟨h1, h2⟩ := statement_future fns n (a := a.filter Token.sig) hs (rest.filter Token.sig)
  rw [h1] at hv
  cases hz : (Parsers.at fns n).statement.runZ [] (a.filter Token.sig ++ [⟨.sym .Semicolon s, f, g⟩]) with
  | ok y st' =>
    obtain ⟨b1, a1⟩ := st'
    obtain ⟨used, left, -, hu, rfl, rfl⟩ := h2 _ _ _ hz
    rw [hz] at hv
    simp only [Res.mapState, Res.ok.injEq, PState.view, Prod.mk.injEq] at hv
    obtain ⟨-, hb, -⟩ := hv
    have ht : st.toks = a ++ (⟨.sym .Semicolon s, f, g⟩ : Token) :: rest :=
      (run_toks mode _ _ (Nat.zero_le _) _ _ h).1
    unfold PState.before at hb
    rw [ht] at hb
    rcases Nat.lt_or_ge a.length st.idx with hlt | hge
    · exfalso
      have hlen := congrArg List.length hb
      obtain ⟨k, hk⟩ : ∃ k, st.idx = a.length + (k + 1) := ⟨st.idx - a.length - 1, by omega⟩
      rw [hk, List.take_length_add_append, List.take_succ_cons, List.filter_append,
        List.filter_cons_of_pos rfl] at hlen
      have := congrArg List.length hu
      simp at hlen this
      omega
    · exact hge
  | err => rw [hz] at hv; cases hv
  | panic => rw [hz] at hv; cases hv
  | oof => rw [hz] at hv; cases hv

/-- C61: `ParseSQL` on a script is `ParseSQL` on the part up to any of its semicolons, and then on the part from this
semicolon on: for all token lists and all outcomes. -/
theorem C61_script (fns : FloatFns) (n : Nat) (mode : Bool) (a rest : List Token) (sem : Token)
    (hs : sem.isSym .Semicolon = true) (hk : KwOK (a ++ sem :: rest)) (hn : 3 * (a ++ sem :: rest).length + 3 ≤ n) :
    runSQL fns n mode (a ++ sem :: rest) =
      andThen (runSQL fns n mode (a ++ [sem])) (runSQL fns n mode (sem :: rest)) := by
  obtain ⟨s, f, g, he⟩ := isSemi_eq hs
  have hsig : sem.sig = true := by rw [he]; rfl
  simp only [List.length_append, List.length_cons] at hn
  have h1 := List.length_filter_le Token.sig a
  have h2 := List.length_filter_le Token.sig rest
  rw [runSQL_loopOut, runSQL_loopOut, runSQL_loopOut, List.filter_append, List.filter_append,
    List.filter_cons_of_pos hsig, List.filter_cons_of_pos hsig]
  refine loop_law fns n hs (fun t ht => ?_) (by omega) n _ false (by omega)
  rcases List.mem_cons.1 ht with rfl | ht
  · exact hk _ (by simp)
  · exact hk t (List.mem_append_right _ (List.mem_cons_of_mem _ (List.mem_filter.1 ht).1))

theorem scriptOf_append (first g : List Token) : ∀ ps, scriptOf (first ++ g) ps = first ++ scriptOf g ps
  | [] => rfl
  | (sem, g') :: ps => by simp [scriptOf]

theorem scriptOf_head (sem : Token) (g : List Token) (ps : List (Token × List Token)) :
    scriptOf (sem :: g) ps = sem :: scriptOf g ps := scriptOf_append [sem] g ps

/-- C61, the same for all semicolons at once: the outcome of `ParseSQL` is that of its parts, each taken with the
semicolons around it, one after the other. -/
theorem C61_pieces (fns : FloatFns) (n : Nat) (mode : Bool) : ∀ (ps : List (Token × List Token)) (first : List Token),
    (∀ p ∈ ps, p.1.isSym .Semicolon = true) → KwOK (scriptOf first ps) → 3 * (scriptOf first ps).length + 3 ≤ n →
    runSQL fns n mode (scriptOf first ps) =
      ((piecesOf first ps).map (runSQL fns n mode)).foldr andThen (.ok [] ())
  | [], first, _, _, _ => by
    show _ = andThen (runSQL fns n mode first) (.ok [] ())
    simp only [scriptOf]
    cases runSQL fns n mode first <;> simp [andThen]
  | (sem, g) :: ps, first, hs, hk, hn => by
    simp only [scriptOf, scriptOf_head] at hk hn ⊢
    have ih := C61_pieces fns n mode ps (sem :: g) (fun p hp => hs p (by simp [hp]))
      (by rw [scriptOf_head]; exact fun t ht => hk t (List.mem_append_right _ ht))
      (by rw [scriptOf_head]; simp only [List.length_append, List.length_cons] at hn ⊢; omega)
    rw [C61_script fns n mode first (scriptOf g ps) sem (hs (sem, g) (by simp)) hk hn, ← scriptOf_head, ih]
    rfl

/-! ### C62 -/

/-- C62: the outcome of a call does not depend on the tokens read before it: a parser that stands anywhere in a token list
does what a fresh parser does on the tokens from there on. -/
theorem C62_context (fns : FloatFns) (n : Nat) (mode : Bool) (s : PState) (hs : s.idx ≤ s.toks.length) :
    ((Parsers.at fns n).statement.run mode s).outcome = runStatement fns n mode (s.toks.drop s.idx) ∧
    ((parseExpr (Parsers.at fns n)).run mode s).outcome = runExpr fns n mode (s.toks.drop s.idx) ∧
    ((parseDataType (Parsers.at fns n)).run mode s).outcome = runDataType fns n mode (s.toks.drop s.idx) ∧
    ((parseSQL mode (Parsers.at fns n) n).run mode s).outcome = runSQL fns n mode (s.toks.drop s.idx) := by
  have E : Rim s.after s.after.length false := ⟨Nat.le_refl _, fun _ => rfl, fun h => by cases h⟩
  have H := bar_at (lo := 0) fns E n
  have key : ∀ {α} {p : P α}, p.within s.after 0 s.after.length false 0 →
      (p.run mode s).outcome = (p.run mode (newParser (s.toks.drop s.idx))).outcome := by
    intro α p hw
    rw [outcome_run p mode s hs, outcome_runZ, runZ_history hw s.before, outcome_mapState]
    rfl
  have h0 := Nat.zero_le s.after.length
  exact ⟨key (H.statement 0 h0 (Nat.le_refl _)).1, key (bar_parseExpr E H h0 (Nat.le_refl _)).1,
    key (bar_parseDataType E H h0 (Nat.le_refl _)).1,
    key (bar_parseSQLLoop E H mode n false 0 h0 (Nat.le_refl _)).1⟩

/-- C62: no run calls `prevToken` before the first token, where it would dereference nil. -/
theorem C62_never_backs_out (fns : FloatFns) (n m : Nat) (mode : Bool) (s : PState) (hs : s.idx ≤ s.toks.length) :
    (Parsers.at fns n).statement.backsOut mode s = false ∧
    (parseExpr (Parsers.at fns n)).backsOut mode s = false ∧
    (parseDataType (Parsers.at fns n)).backsOut mode s = false ∧
    (parseSQL mode (Parsers.at fns n) m).backsOut mode s = false := by
  have E : Rim (s.before.reverse ++ s.after) (s.before.reverse ++ s.after).length false :=
    ⟨Nat.le_refl _, fun _ => rfl, fun h => by cases h⟩
  have hb : s.before = ((s.before.reverse ++ s.after).take s.before.length).reverse := by
    rw [List.take_left' (by simp)]; simp
  have ha : s.after = (s.before.reverse ++ s.after).drop s.before.length := (List.drop_left' (by simp)).symm
  have hl : s.before.length ≤ (s.before.reverse ++ s.after).length := by simp
  have H := bar_at (lo := 0) fns E n
  have key : ∀ {α} {p : P α}, p.within (s.before.reverse ++ s.after) 0 (s.before.reverse ++ s.after).length false
      s.before.length → p.backsOut mode s = false :=
    fun hw => (within_state mode E _ s _ hl hs hb ha hw).1
  exact ⟨key (H.statement _ hl (Nat.zero_le _)).1, key (bar_parseExpr E H hl (Nat.zero_le _)).1,
    key (bar_parseDataType E H hl (Nat.zero_le _)).1,
    key (bar_parseSQLLoop E H mode m false _ hl (Nat.zero_le _)).1⟩

/-- C62: if a semicolon is still to come, `ParseStatement`, `ParseExpr` and `ParseDataType` never ask for a token beyond the end,
where many functions dereference nil. -/
theorem C62_semicolon_guards_end (fns : FloatFns) (n : Nat) (mode : Bool) (s : PState) (hs : s.idx ≤ s.toks.length)
    (sem : Token) (hsem : sem.isSym .Semicolon = true) (hmem : sem ∈ s.toks.drop s.idx) :
    (Parsers.at fns n).statement.asksEnd mode s = false ∧
    (parseExpr (Parsers.at fns n)).asksEnd mode s = false ∧
    (parseDataType (Parsers.at fns n)).asksEnd mode s = false := by
  obtain ⟨c, f, g, rfl⟩ := isSemi_eq hsem
  have hmem : (⟨.sym .Semicolon c, f, g⟩ : Token) ∈ s.after := List.mem_filter.2 ⟨hmem, rfl⟩
  obtain ⟨k, hk⟩ := List.mem_iff_getElem?.1 hmem
  have hkl := (List.getElem?_eq_some_iff.1 hk).1
  have hb : s.before = ((s.before.reverse ++ s.after).take s.before.length).reverse := by
    rw [List.take_left' (by simp)]; simp
  have ha : s.after = (s.before.reverse ++ s.after).drop s.before.length := (List.drop_left' (by simp)).symm
  have hl : s.before.length ≤ (s.before.reverse ++ s.after).length := by simp
  have E : Rim (s.before.reverse ++ s.after) (s.before.length + k) true :=
    ⟨by simp; omega, (fun h => by cases h), fun _ => ⟨c, f, g, by
      rw [List.getElem?_append_right (by simp)]; simpa using hk⟩⟩
  have H := bar_at (lo := 0) fns E n
  have key : ∀ {α} {p : P α}, p.within (s.before.reverse ++ s.after) 0 (s.before.length + k) true
      s.before.length → p.asksEnd mode s = false :=
    fun hw => (within_state mode E _ s _ hl hs hb ha hw).2 rfl
  have h0 : s.before.length ≤ s.before.length + k := by omega
  exact ⟨key (H.statement _ h0 (Nat.zero_le _)).1, key (bar_parseExpr E H h0 (Nat.zero_le _)).1,
    key (bar_parseDataType E H h0 (Nat.zero_le _)).1⟩

/-! ### Examples -/

/-- The tokens of a text. -/
def textToks (s : Str) : List Token :=
  match tokenize genericDialect true 200 s with
  | .ok ts => ts
  | _ => []

/-- `KwOK`, to be evaluated. -/
def kwOKb (ts : List Token) : Bool :=
  ts.all fun t => match t.tok with
    | .word w => w.keyword == upper w.value
    | _ => true

theorem kwOK_of_b {ts : List Token} (h : kwOKb ts = true) : KwOK ts := by
  intro t ht w hw
  have := List.all_eq_true.1 h t ht
  rw [hw] at this
  exact eq_of_beq this

/-- How a run ends: the number of statements read, or the way it fails. -/
def sqlEnds (ts : List Token) : Option Nat × Nat :=
  match runSQL sampleFns 200 true ts with
  | .ok ss _ => (some ss.length, 0)
  | .err => (none, 1)
  | .panic => (none, 2)
  | .oof => (none, 3)

def stmtEnds (ts : List Token) : Nat :=
  match runStatement sampleFns 200 true ts with
  | .ok _ _ => 0
  | .err => 1
  | .panic => 2
  | .oof => 3

/-- The parts of the script `DELETE FROM t; SELECT 'a' FROM u WHERE x; ; DELETE`, and a semicolon. -/
def part0 : List Token := textToks (str% "DELETE FROM t")
def part1 : List Token := textToks (str% " SELECT 'a' FROM u WHERE x")
def part2 : List Token := textToks (str% " ")
def part3 : List Token := textToks (str% " DELETE")
def aSemi : Token := ⟨.sym .Semicolon (str% ";"), Pos.zero, Pos.zero⟩

/-- The hypotheses of C61 are met by a script of three parts (one of them empty) that is read, … -/
example : KwOK (scriptOf part0 [(aSemi, part1), (aSemi, part2)]) ∧
    3 * (scriptOf part0 [(aSemi, part1), (aSemi, part2)]).length + 3 ≤ 200 ∧
    sqlEnds (scriptOf part0 [(aSemi, part1), (aSemi, part2)]) = (some 2, 0) ∧
    (piecesOf part0 [(aSemi, part1), (aSemi, part2)]).map sqlEnds = [(some 1, 0), (some 1, 0), (some 0, 0)] :=
  ⟨kwOK_of_b (by decide +kernel), by decide +kernel⟩

/-- … by one whose last part is bad, … -/
example : KwOK (scriptOf part0 [(aSemi, part1), (aSemi, part3)]) ∧
    3 * (scriptOf part0 [(aSemi, part1), (aSemi, part3)]).length + 3 ≤ 200 ∧
    sqlEnds (scriptOf part0 [(aSemi, part1), (aSemi, part3)]) =
      sqlEnds (aSemi :: part3) ∧
    (piecesOf part0 [(aSemi, part1), (aSemi, part3)]).map sqlEnds =
      [(some 1, 0), (some 1, 0), sqlEnds (aSemi :: part3)] ∧ (sqlEnds (aSemi :: part3)).2 ≠ 0 :=
  ⟨kwOK_of_b (by decide +kernel), by decide +kernel⟩

/-- … and by one in which a part lacks its semicolon: the semicolon before a part belongs to it (without it the part
`x DELETE …` would be read differently). -/
example : sqlEnds (part0 ++ part1 ++ [aSemi]) ≠ (some 2, 0) ∧
    sqlEnds (part0 ++ [aSemi]) = (some 1, 0) ∧ sqlEnds (part1 ++ [aSemi]) = (some 1, 0) := by
  decide +kernel

/-- The tokens behind the semicolon matter to no outcome: a statement that is read and one that panics. -/
example : stmtEnds (part0 ++ aSemi :: part3) = 0 ∧ stmtEnds (part0 ++ [aSemi]) = 0 ∧
    stmtEnds (part3 ++ aSemi :: part0) = stmtEnds (part3 ++ [aSemi]) ∧ stmtEnds (part3 ++ [aSemi]) ≠ 0 := by
  decide +kernel

/-- A parser that stands before the second statement of a script; it meets the hypotheses of C62. -/
def midState : PState := ⟨part0 ++ aSemi :: part1 ++ aSemi :: part3, part0.length + 1, []⟩

example : midState.idx ≤ midState.toks.length ∧ 0 < midState.idx ∧ aSemi ∈ midState.toks.drop midState.idx ∧
    (match (Parsers.at sampleFns 200).statement.run true midState with
      | .ok (.query _) s => s.idx == (part0 ++ aSemi :: part1).length
      | _ => false) = true := by
  decide +kernel

/-- Without a semicolon to come a statement can ask beyond the end, and there it can panic; before a semicolon the same
tokens are rejected with an error. -/
example : (Parsers.at sampleFns 200).statement.asksEnd true (newParser (textToks (str% "UPDATE t SET"))) = true ∧
    stmtEnds (textToks (str% "UPDATE t SET")) = 2 ∧ stmtEnds (textToks (str% "UPDATE t SET;")) = 1 := by
  decide +kernel

end Verif
