import Verif.Proofs.GrammarStmt
import Verif.Props.Soundness
/-
Property theorems C50 and part of C29: the input is a sentence of the grammar of Verif/Spec/Grammar.lean for the tree
that the parser returns.

`Expr.lang fns q e`, `Stmt.lang fns q s`, … are the token sequences that the grammar has for a tree.  `q` says which of
two irregularities of the parser are allowed: `q.cross`, that joins before a CROSS JOIN are lost (C29), and `q.as`, that
an AS at the very end of the input is lost.
-/
set_option maxRecDepth 100000
namespace Verif
open Spec

/-- The tokens without spaces and comments. -/
def significant (toks : List Token) : List Token := toks.filter Token.sig

/-! ### The result of a run -/

/-- The postcondition of a function at the beginning of the input. -/
theorem outcome_pc0 {p : P α} {mode : Bool} {toks : List Token} {x : α} {Q : α → Nat → Prop}
    (h : (p.run mode (newParser toks)).outcome = .ok x ()) (hp : pc (toks.filter Token.sig) p 0 Q) : ∃ j, Q x j := by
  obtain ⟨s, hs⟩ := outcome_ok h
  have := (run_runI (s := newParser toks) (Nat.zero_le _) hs).2.2
  simp only [newParser, List.take_zero, List.filter_nil, List.length_nil] at this
  exact ⟨_, hp _ _ this⟩

theorem prefix_of_span {T : List Token} {j : Nat} {L : Lang} (h : Span T 0 j L) :
    ∃ read rest, T = read ++ rest ∧ L read := by
  refine ⟨between T 0 j, T.drop j, ?_, h.2⟩
  simp only [between, List.drop_zero, Nat.sub_zero, List.take_append_drop]

theorem all_of_span {T : List Token} {j : Nat} {L : Lang} (h : Span T 0 j L) (hj : T.length ≤ j) :
    L T := by
  have := h.2
  rwa [between, List.drop_zero, Nat.sub_zero, List.take_of_length_le hj] at this

/-- What the loop of ParseSQL reads. -/
def loopLang (fns : FloatFns) (q : Quirks) (b : Bool) (ss : List Stmt) : Lang :=
  (if b then sym .Semicolon else opt (sym .Semicolon)) ⬝ concat (ss.map fun s => s.lang fns q ⬝ sym .Semicolon)

theorem gr_parseSQLLoop {T : List Token} {fns : FloatFns} {q : Quirks} {r : Parsers} (H : Gr T fns q r) (mode : Bool) :
    ∀ (n : Nat) (b : Bool) (i : Nat), pc T (parseSQLLoop mode r n b) i fun ss j =>
      Span T i j (loopLang fns q b ss) ∧ T.length ≤ j
  | 0, _, _ => fun _ _ h => by cases h
  | n + 1, b, i => by
    unfold parseSQLLoop
    have rest : ∀ k, Span T i k (if b then sym .Semicolon else opt (sym .Semicolon)) → pc T (do
        let t ← if mode then nextToken else peekToken
        match t with
        | none => pure []
        | some _ => do
          if mode then prevToken
          let s ← r.statement
          let ss ← parseSQLLoop mode r n true
          pure (s :: ss)) k fun ss j => Span T i j (loopLang fns q b ss) ∧ T.length ≤ j := by
      intro k hk
      have key : pc T (do
          let s ← r.statement
          let ss ← parseSQLLoop mode r n true
          pure (s :: ss)) k fun ss j => Span T i j (loopLang fns q b ss) ∧ T.length ≤ j := by
        refine pc_seq (H.statement k) fun s m hs => pc_seq (gr_parseSQLLoop H mode n true m) fun ss j hss => ?_
        refine pc_pure ⟨hk.cat ((hs.cat hss.1).mono ?_), hss.2⟩
        rintro _ ⟨x, _, rfl, hx, y, z, rfl, hy, hz⟩
        exact ⟨x ++ y, z, by simp, ⟨x, y, rfl, hx, hy⟩, hz⟩
      have done : T.length ≤ k → pc T (pure []) k fun ss j => Span T i j (loopLang fns q b ss) ∧ T.length ≤ j :=
        fun hl => pc_pure ⟨hk.cat Span.eps, hl⟩
      cases mode
      · simp only [Bool.false_eq_true, if_false]
        exact pc_bindOf (wp_peekToken (fun t ht _ => key) done)
      · simp only [if_true]
        exact pc_bindOf (wp_nextToken (fun t ht _ => pg_prev key) done)
    refine pc_bindOf (wp_consumeToken (fun t ht hs _ => ?_) ?_)
    · simp only [Bool.not_true, Bool.false_and, Bool.false_eq_true, if_false]
      refine rest _ ?_
      cases b
      · exact (span_sym ht hs).P.opt
      · exact (span_sym ht hs).P
    · cases b
      · simp only [Bool.not_false, Bool.and_false, Bool.false_eq_true, if_false]
        exact rest _ Span.optNone
      · exact pc_err

/-- All quirks are allowed. -/
theorem quirks_all (T : List Token) : QuirksOK T ⟨true, true, true⟩ := ⟨by simp, by simp, rfl⟩

/-- A list of statements ends with a semicolon. -/
theorem script_last {fns : FloatFns} {q : Quirks} {ss : List Stmt} {ts : List Token} (h : scriptLang fns q ss ts) :
    ts = [] ∨ ∃ us t s, ts = us ++ [t] ∧ t.tok = .sym .Semicolon s := by
  have hc : ∀ (ss : List Stmt) ts, concat (ss.map fun s => s.lang fns q ⬝ sym .Semicolon) ts →
      ts = [] ∨ ∃ us t s, ts = us ++ [t] ∧ t.tok = .sym .Semicolon s := by
    intro ss
    induction ss with
    | nil => intro ts h; exact .inl h
    | cons s ss ih =>
      rintro _ ⟨_, b, rfl, ⟨x, y, rfl, hx, t, p, rfl, ht⟩, hb⟩
      rcases ih b hb with rfl | ⟨us, t', p', rfl, ht'⟩
      · exact .inr ⟨x, t, p, by simp, ht⟩
      · exact .inr ⟨_, t', p', by rw [← List.append_assoc], ht'⟩
  obtain ⟨a, b, rfl, ha, hb⟩ := h
  rcases hc ss b hb with rfl | ⟨us, t, p, rfl, ht⟩
  · rcases ha with rfl | ⟨t, p, rfl, ht⟩
    · exact .inl rfl
    · exact .inr ⟨[], t, p, rfl, ht⟩
  · exact .inr ⟨_, t, p, by rw [← List.append_assoc], ht⟩

/-! ### C50 -/

/-- C50: if `ParseStatement` returns a statement, the input begins with a sentence of the grammar for it. -/
theorem C50_statement_grammar (fns : FloatFns) (n : Nat) (mode : Bool) (toks : List Token) (hk : KwOK toks) (s : Stmt)
    (h : runStatement fns n mode toks = .ok s ()) :
    ∃ read rest, significant toks = read ++ rest ∧ s.lang fns ⟨true, true, true⟩ read := by
  obtain ⟨j, hj⟩ := outcome_pc0 h ((gr_at fns hk.filter (quirks_all _) n).statement 0)
  exact prefix_of_span hj

/-- C50 for `ParseExpr`. -/
theorem C50_expr_grammar (fns : FloatFns) (n : Nat) (mode : Bool) (toks : List Token) (hk : KwOK toks) (e : Expr)
    (h : runExpr fns n mode toks = .ok e ()) :
    ∃ read rest, significant toks = read ++ rest ∧ e.lang fns ⟨true, true, true⟩ read := by
  obtain ⟨j, hj⟩ := outcome_pc0 h (gr_parseExpr (gr_at fns hk.filter (quirks_all _) n) 0)
  exact prefix_of_span hj

/-- C50 for `ParseDataType`. -/
theorem C50_dataType_grammar (fns : FloatFns) (n : Nat) (mode : Bool) (toks : List Token) (hk : KwOK toks) (t : DataType)
    (h : runDataType fns n mode toks = .ok t ()) :
    ∃ read rest, significant toks = read ++ rest ∧ t.lang read := by
  obtain ⟨j, hj⟩ := outcome_pc0 h (gr_parseDataType hk.filter (gr_at fns hk.filter (quirks_all _) n) 0)
  exact prefix_of_span hj

theorem script_lang {fns : FloatFns} {n : Nat} {mode : Bool} {toks : List Token} (hk : KwOK toks) {ss : List Stmt}
    (h : runSQL fns n mode toks = .ok ss ()) {q : Quirks} (hq : QuirksOK (toks.filter Token.sig) q) :
    scriptLang fns q ss (significant toks) := by
  obtain ⟨j, hj⟩ := outcome_pc0 h (gr_parseSQLLoop (gr_at fns hk.filter hq n) mode n false 0)
  exact all_of_span hj.1 hj.2

theorem quirks_as {fns : FloatFns} {n : Nat} {mode : Bool} {toks : List Token} (hk : KwOK toks) {ss : List Stmt}
    (h : runSQL fns n mode toks = .ok ss ()) (t : Token) (ht : (toks.filter Token.sig).getLast? = some t) :
    t.matchesKw KW.AS.str = false := by
  have h1 := script_last (script_lang hk h (quirks_all _))
  have h2 : (significant toks).getLast? = some t := ht
  rcases h1 with h1 | ⟨us, t', p, h1, ht'⟩
  · rw [h1] at h2; cases h2
  · rw [h1, List.getLast?_append] at h2
    simp only [List.getLast?_singleton, Option.some_or, Option.some.injEq] at h2
    simp [Token.matchesKw, ← h2, ht']

/-- C50 for `ParseSQL`: the whole input is a sentence of the grammar for the list of statements. -/
theorem C50_script_grammar (fns : FloatFns) (n : Nat) (mode : Bool) (toks : List Token) (hk : KwOK toks)
    (ss : List Stmt) (h : runSQL fns n mode toks = .ok ss ()) :
    scriptLang fns ⟨true, false, true⟩ ss (significant toks) :=
  script_lang hk h ⟨by simp, fun _ => quirks_as hk h, rfl⟩

/-- C50 for `ParseFile`, applied to the tokens of a text. -/
theorem C50_file_grammar (fns : FloatFns) (n fuel : Nat) (mode : Bool) (d : Dialect) (src : Str) (toks : List Token)
    (ht : tokenize d true fuel src = .ok toks) (f : File) (s : PState)
    (h : parseFile fns n mode (newParser toks) = .ok f s) :
    scriptLang fns ⟨true, false, true⟩ f.stmts (significant toks) := by
  refine C50_script_grammar fns n mode toks (tokenizeFrom_kwOK ht) f.stmts ?_
  unfold parseFile at h
  split at h
  · rename_i stmts s' hs
    cases h
    simp only [runSQL, hs, Res.outcome]
  all_goals cases h

/-- Hypotheses met. -/
example (fns : FloatFns) : ∃ toks s, KwOK toks ∧ runStatement fns (3 * toks.length + 3) false toks = .ok s () := by
  obtain ⟨toks, s, h1, h2, -⟩ := soundStmt_ok fns
  exact ⟨toks, s, tokenizeFrom_kwOK h1, h2⟩

example (fns : FloatFns) : ∃ toks e, KwOK toks ∧ runExpr fns (3 * toks.length + 3) false toks = .ok e () := by
  obtain ⟨toks, s, h1, h2, -⟩ := soundExpr_ok fns
  exact ⟨toks, s, tokenizeFrom_kwOK h1, h2⟩

example (fns : FloatFns) : ∃ toks ss, KwOK toks ∧ runSQL fns (3 * toks.length + 3) false toks = .ok ss () := by
  obtain ⟨toks, s, h1, h2, -⟩ := soundList_ok fns
  exact ⟨toks, s, tokenizeFrom_kwOK h1, h2⟩

example (fns : FloatFns) : ∃ toks t, KwOK toks ∧ runDataType fns (3 * toks.length + 3) false toks = .ok t () := by
  obtain ⟨toks, t, h1, h2, -⟩ := readAs_some (run := fun n => runDataType fns n false)
    (src := str% "timestamp with time zone") (p := fun _ => true) (by kernel_rfl)
  exact ⟨toks, t, tokenizeFrom_kwOK h1, h2⟩

/-! ### C29 -/

/-- C29, in part: without the keyword CROSS no join is lost. -/
theorem C29_no_cross_partial (fns : FloatFns) (n : Nat) (mode : Bool) (toks : List Token) (hk : KwOK toks)
    (hc : ∀ t ∈ toks, t.kw? ≠ some .CROSS) (ss : List Stmt) (h : runSQL fns n mode toks = .ok ss ()) :
    scriptLang fns ⟨false, false, true⟩ ss (significant toks) :=
  script_lang hk h ⟨fun _ t ht => hc t (List.mem_filter.1 ht).1, fun _ => quirks_as hk h, rfl⟩

/-- Hypotheses met. -/
example (fns : FloatFns) : ∃ toks ss, KwOK toks ∧ (∀ t ∈ toks, t.kw? ≠ some .CROSS) ∧
    runSQL fns (3 * toks.length + 3) false toks = .ok ss () := by
  have h : ((readAs (fun n => runSQL fns n false)
      (str% "SELECT a FROM t x JOIN u y ON b LEFT OUTER JOIN v z USING (c, d), w;")).map
        fun x => x.1.all fun t => t.kw? != some .CROSS) = some true := by kernel_rfl
  unfold readAs at h
  split at h
  · rename_i toks ht
    split at h
    · rename_i x _ hx
      refine ⟨toks, x, tokenizeFrom_kwOK ht, ?_, hx⟩
      simpa using h
    · cases h
  · cases h

/-! ### The grammar tells inputs apart -/

/-- The grammar is not satisfied by everything: the one-word sentence for an identifier is that identifier, and no other
tree of the grammar for names has it. -/
example (fns : FloatFns) (q : Quirks) (i : Ident) (ts : List Token) (h : (Expr.ident i).lang fns q ts) :
    ∃ w, ts = [⟨.word w, i.from_, i.to_⟩] ∧ w.string = i.value := by
  obtain ⟨⟨tok, f, t⟩, w, rfl, hw, h2, rfl, rfl, -⟩ := h
  cases hw
  exact ⟨w, rfl, h2⟩

end Verif
