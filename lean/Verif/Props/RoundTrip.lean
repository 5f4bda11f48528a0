import Verif.Proofs.ParseStmt
import Verif.Proofs.EraseIdem
import Verif.Proofs.PrintSep
import Verif.Proofs.Statements
import Verif.Props.Param
import Verif.Props.Findings
import Verif.Props.Termination
import Verif.Proofs.Samples
/-
Property theorems C23-C26 and C48: printing a tree, tokenizing the text and parsing the tokens gives the tree
back, up to positions.

`wf` (Verif/Spec/WellFormed.lean) says which trees are meant: those the grammar can express, without the
constructs that the code is known to print in a way it cannot read (see C27 for those).  `erase`
(Verif/Spec/Erase.lean) forgets positions.
-/
set_option maxRecDepth 100000
namespace Verif
open Spec

/-- Tokenizing `src` and running a parser function on the tokens succeeds with a result that is `good`.  The
budgets are those of C05 and C20: they always suffice. -/
def Reads (d : Dialect) (src : Str) (run : Nat → List Token → Res Unit α) (good : α → Prop) : Prop :=
  ∃ toks, tokenize d true (src.length + 1) src = .ok toks ∧
    ∀ n, 3 * toks.length + 3 ≤ n → ∃ x, run n toks = .ok x () ∧ good x

/-! ### From tokens without positions to source text -/

theorem filter_sig_tok (ts : List Token) : (ts.filter Token.sig).map (·.tok) = sg (ts.map (·.tok)) := by
  induction ts with
  | nil => rfl
  | cons t ts ih =>
    have : Token.sig t = !t.tok.insignificant := rfl
    simp only [List.filter_cons, sg, List.map_cons, this]
    cases t.tok.insignificant <;> simp [ih, sg]

theorem sg_sg (ts : List Tok) : sg (sg ts) = sg ts := by simp [sg]

theorem Z_tok (ts : List Tok) : (Z ts).map (·.tok) = ts := by
  simp [Z, zt, List.map_map, Function.comp_def]

theorem Z_filter (ts : List Tok) : (Z (sg ts)).filter Token.sig = Z (sg ts) := by
  simp only [List.filter_eq_self, Z, List.mem_map]
  rintro _ ⟨t, ht, rfl⟩
  simp only [sg, List.mem_filter] at ht
  exact ht.2

theorem mapVal_ok {r : Res Unit α} {f : α → β} {y : β} (h : r.mapVal f = .ok y ()) : ∃ x, r = .ok x () ∧ f x = y := by
  cases r with
  | ok x s => cases h; exact ⟨x, rfl, rfl⟩
  | err => cases h
  | panic => cases h
  | oof => cases h

/-- Tokens that are spelled with blanks between them and that a parser function reads to `x` when they have no
positions: the text of the tokens is read to `x` up to positions. -/
theorem reads_of_parses [Erases α] {d : Dialect} (hd : BuiltIn d) {ts : List Tok} (hs : Spaced d ts)
    {p : Nat → P α} {x : α} (hsim : ∀ n, P.Sim (p n) (p n)) (mode : Bool)
    (hb : ∀ toks : List Token, KwOK toks → ∀ n n', 3 * toks.length + 3 ≤ n → n ≤ n' →
      ((p n).run mode (newParser toks)).outcome = ((p n').run mode (newParser toks)).outcome)
    (hp : Ev fun m => ((p m).runZ [] (Z (sg ts))).outcome = .ok x ()) :
    Reads d (txt ts) (fun n toks => ((p n).run mode (newParser toks)).outcome) fun y => er y = er x := by
  obtain ⟨fuel, toks, ht, htok⟩ := C15_render_tokenize hd.sane (hs.separated hd)
  have hlen : tokenize d true ((txt ts).length + 1) (txt ts) = .ok toks := by
    rcases tokenize_outcome hd.sane true (txt ts) with ⟨_, out, -, h2⟩ | ⟨_, _, e, -, -, h2⟩ | ⟨us, rest, h1, h2, h3⟩
    · rw [← C05_fuel_irrelevant (by rw [show txt ts = ts.flatMap spell from rfl, ht]; simp)
        (by rw [h2 _ (Nat.lt_succ_self _)]; simp)]
      exact ht
    · rw [← C05_fuel_irrelevant (by rw [show txt ts = ts.flatMap spell from rfl, ht]; simp)
        (by rw [h2 _ (Nat.lt_succ_self _)]; simp)]
      exact ht
    · exfalso
      have := (C05_diverges_iff hd.sane true (txt ts)).2 ⟨us, rest, h1, h2⟩ fuel
      rw [show txt ts = ts.flatMap spell from rfl, ht] at this
      cases this
  refine ⟨toks, hlen, fun n hn => ?_⟩
  obtain ⟨n0, hn0⟩ := hp
  have hkw := tokenizeFrom_kwOK ht
  have h1 : ((p (max n n0)).run mode (newParser (Z (sg ts)))).outcome = .ok x () := by
    rw [outcome_runZ, Z_filter]
    exact hn0 _ (Nat.le_max_right ..)
  have h2 := same_outcome (hsim (max n n0)) mode (toks := toks) (toks' := Z (sg ts))
    (by rw [filter_sig_tok, filter_sig_tok, Z_tok, htok, sg_sg])
  rw [h1, ← hb toks hkw n _ hn (Nat.le_max_left ..)] at h2
  exact mapVal_ok h2

theorem Reads.mono {d : Dialect} {src : Str} {run : Nat → List Token → Res Unit α} {g g' : α → Prop}
    (h : Reads d src run g) (hg : ∀ x, g x → g' x) : Reads d src run g' := by
  obtain ⟨toks, h1, h2⟩ := h
  refine ⟨toks, h1, fun n hn => ?_⟩
  obtain ⟨x, h3, h4⟩ := h2 n hn
  exact ⟨x, h3, hg x h4⟩

/-! ### C23 -/

/-- C23: the text of a well-formed expression is read to the same expression, up to positions. -/
theorem C23_expr_roundtrip_partial {d : Dialect} (hd : BuiltIn d) (fns : FloatFns) (mode : Bool) {e : Expr}
    (he : e.wf d fns = true) :
    Reads d (Node.toSQLString fns (.expr e)) (fun n => runExpr fns n mode) fun e' => e'.erase = e.erase := by
  rw [Node.toSQLString_eq, show (Node.expr e).wt fns = e.wt fns from rfl, Expr.text_eq e he]
  have := reads_of_parses hd (Expr.spaced hd e he) (fun n => (sim_at fns n).subexpr 0) mode
    (fun toks hk n n' hn hn' => (budget_le fns mode toks hk hn hn').2.1) (x := e.erase) ?_
  · refine this.mono fun e' h => ?_
    have : e'.erase = e.erase.erase := h
    rw [this, Expr.erase_erase]
  · refine ((Expr.parses e he).expr he).mono fun m hm => ?_
    have := hm [] [] (by rfl)
    rw [List.append_nil] at this
    rw [this]
    rfl

/-- Hypotheses met: operators of all levels, IN, BETWEEN, CASE and a subquery. -/
example (fns : FloatFns) : Sample.expr.wf genericDialect fns = true := Sample.expr_wf fns

/-! ### C24 and C25 -/

theorem stmt_reads {d : Dialect} (hd : BuiltIn d) (fns : FloatFns) (mode : Bool) {s : Stmt} (hs : s.wf d fns = true) :
    Reads d (Node.toSQLString fns (.stmt s) ++ str% ";") (fun n => runStatement fns n mode)
      fun s' => s'.erase = s.erase := by
  have ht : Node.toSQLString fns (.stmt s) ++ str% ";" = txt (s.toks fns ++ [semi]) := by
    rw [Node.toSQLString_eq, show (Node.stmt s).wt fns = s.wt fns from rfl, Stmt.text_eq s hs, txt_append]; rfl
  rw [ht]
  have := reads_of_parses hd (Spaced.append (Stmt.spaced hd s hs) (Spaced.semi Spaced.nil) rfl)
    (fun n => (sim_at fns n).statement) mode
    (fun toks hk n n' hn hn' => (budget_le fns mode toks hk hn hn').1) (x := s.erase) ?_
  · refine this.mono fun s' h => ?_
    have : s'.erase = s.erase.erase := h
    rw [this, Stmt.erase_erase]
  · refine (Stmt.parses s hs).mono fun m hm => ?_
    rw [sg_append, hm [] (sg [semi]) (by rfl)]
    rfl

/-- C24: the text of a well-formed query, followed by a semicolon, is read by `ParseStatement` to the same
query, up to positions.  (Without the semicolon the parser panics, see C21.) -/
theorem C24_query_roundtrip_partial {d : Dialect} (hd : BuiltIn d) (fns : FloatFns) (mode : Bool) {q : QueryStmt}
    (hq : q.wf d fns = true) (hs : q.startsSelect = true) :
    Reads d (Node.toSQLString fns (.query q) ++ str% ";") (fun n => runStatement fns n mode)
      fun s => ∃ q', s = .query q' ∧ q'.erase = q.erase := by
  have ht : Node.toSQLString fns (.query q) = Node.toSQLString fns (.stmt (.query q)) := by
    rw [Node.toSQLString_eq, Node.toSQLString_eq]; rfl
  rw [ht]
  refine (stmt_reads hd fns mode (s := .query q) (by simp [Stmt.wf, hq, hs])).mono fun s h => ?_
  cases s <;> simp only [Stmt.erase, Stmt.query.injEq, reduceCtorEq] at h
  exact ⟨_, rfl, h⟩

/-- Hypotheses met: WITH, UNION ALL, JOIN, GROUP BY, HAVING, ORDER BY and LIMIT. -/
example (fns : FloatFns) : Sample.query.wf genericDialect fns = true ∧ Sample.query.startsSelect = true :=
  ⟨Sample.query_wf fns, rfl⟩

/-- C25: the text of a well-formed statement, followed by a semicolon, is read by `ParseStatement` to the same
statement, up to positions. -/
theorem C25_statement_roundtrip_partial {d : Dialect} (hd : BuiltIn d) (fns : FloatFns) (mode : Bool) {s : Stmt}
    (hs : s.wf d fns = true) :
    Reads d (Node.toSQLString fns (.stmt s) ++ str% ";") (fun n => runStatement fns n mode)
      fun s' => s'.erase = s.erase := stmt_reads hd fns mode hs

/-- Hypotheses met, by a table definition, an INSERT and an UPDATE. -/
example (fns : FloatFns) : Sample.createTable.wf genericDialect fns = true ∧
    Sample.insert.wf genericDialect fns = true ∧ Sample.update.wf genericDialect fns = true :=
  ⟨Sample.createTable_wf fns, Sample.insert_wf fns, Sample.update_wf fns⟩

/-- C25 for the types: the text of a type, followed by a semicolon, is read by `ParseDataType` to the same
type. -/
theorem C25_type_roundtrip_partial {d : Dialect} (hd : BuiltIn d) (fns : FloatFns) (mode : Bool) {t : DataType}
    (ht : t.wf d = true) :
    Reads d (Node.toSQLString fns (.dataType t) ++ str% ";") (fun n => runDataType fns n mode)
      fun t' => t'.erase = t.erase := by
  have hx : Node.toSQLString fns (.dataType t) ++ str% ";" = txt (t.toks ++ [semi]) := by
    rw [Node.toSQLString_eq, show (Node.dataType t).wt fns = t.wt from rfl, DataType.text_eq ht, txt_append]; rfl
  rw [hx]
  have := reads_of_parses hd (Spaced.append (DataType.spaced hd ht) (Spaced.semi Spaced.nil) rfl)
    (fun n => sim_parseDataType (sim_at fns n)) mode
    (fun toks hk n n' hn hn' => (budget_le fns mode toks hk hn hn').2.2.1) (x := t.erase) ?_
  · refine this.mono fun s' h => ?_
    have : s'.erase = t.erase.erase := h
    rw [this, DataType.erase_erase]
  · refine (parse_dataType fns ht).mono fun m hm => ?_
    rw [sg_append, hm [] (sg [semi]) (by rfl)]
    rfl

/-- Hypotheses met: `numeric(10,2) unsigned`. -/
example : (DataType.decimal (some 10) (some 2) Pos.zero Pos.zero true Pos.zero).wf genericDialect = true := by
  kernel_rfl

/-! ### C48 -/

/-- C48: the printed text of a tree does not depend on the positions in it. -/
theorem C48_text_ignores_positions (fns : FloatFns) :
    (∀ e e' : Expr, e.erase = e'.erase → Node.toSQLString fns (.expr e) = Node.toSQLString fns (.expr e')) ∧
    (∀ q q' : QueryStmt, q.erase = q'.erase → Node.toSQLString fns (.query q) = Node.toSQLString fns (.query q')) ∧
    (∀ t t' : DataType, t.erase = t'.erase →
      Node.toSQLString fns (.dataType t) = Node.toSQLString fns (.dataType t')) ∧
    (∀ s s' : Stmt, s.erase = s'.erase → Node.toSQLString fns (.stmt s) = Node.toSQLString fns (.stmt s')) := by
  refine ⟨fun x x' h => ?_, fun x x' h => ?_, fun x x' h => ?_, fun x x' h => ?_⟩ <;>
    rw [Node.toSQLString_eq, Node.toSQLString_eq] <;> simp only [Node.wt]
  · rw [← Expr.wt_erase, h, Expr.wt_erase]
  · rw [← QueryStmt.wt_erase, h, QueryStmt.wt_erase]
  · rw [← DataType.wt_erase, h, DataType.wt_erase]
  · rw [← Stmt.wt_erase, h, Stmt.wt_erase]

/-- Hypotheses met by two trees that are not equal. -/
example : (Expr.ident ⟨str% "a", ⟨1, 1⟩, ⟨1, 2⟩⟩).erase = (Expr.ident ⟨str% "a", ⟨4, 2⟩, ⟨4, 3⟩⟩).erase ∧
    Expr.ident ⟨str% "a", ⟨1, 1⟩, ⟨1, 2⟩⟩ ≠ Expr.ident ⟨str% "a", ⟨4, 2⟩, ⟨4, 3⟩⟩ := ⟨rfl, by simp⟩

/-- Hence printing, parsing and printing again gives the same text. -/
theorem C48_reprint {d : Dialect} (hd : BuiltIn d) (fns : FloatFns) (mode : Bool) {s : Stmt} (hs : s.wf d fns = true) :
    Reads d (Node.toSQLString fns (.stmt s) ++ str% ";") (fun n => runStatement fns n mode)
      fun s' => Node.toSQLString fns (.stmt s') = Node.toSQLString fns (.stmt s) :=
  (stmt_reads hd fns mode hs).mono fun _ h => (C48_text_ignores_positions fns).2.2.2 _ _ h

example (fns : FloatFns) : Sample.createTable.wf genericDialect fns = true := Sample.createTable_wf fns

/-! ### C26 -/

/-- C26, exactly what `ParseSQL` accepts: after at most one leading semicolon, statements each of which ends,
as `ParseStatement` reads it, at a semicolon. -/
theorem C26_splits (fns : FloatFns) (mode : Bool) (toks : List Token) (hk : KwOK toks) (n : Nat)
    (hn : 3 * toks.length + 3 ≤ n) (ss : List Stmt) :
    runSQL fns n mode toks = .ok ss () ↔
      ∃ lead a, toks.filter Token.sig = lead ++ a ∧ LeadSemi lead ∧
        (lead = [] → NotSym .Semicolon a) ∧ Splits (Parsers.at fns n).statement lead a ss := by
  have hm : runSQL fns n mode toks = ((parseSQLLoop false (Parsers.at fns n) n false).runZ []
      (toks.filter Token.sig)).outcome := by
    cases mode
    · unfold runSQL; rw [outcome_runZ]; rfl
    · rw [(C17_entry_points fns n toks).2.2.2.1]; unfold runSQL; rw [outcome_runZ]; rfl
  have hl : (toks.filter Token.sig).length ≤ toks.length := List.length_filter_le ..
  rw [hm]
  constructor
  · intro h
    obtain ⟨st, hst⟩ := outcome_ok h
    obtain ⟨n, rfl⟩ : ∃ m, n = m + 1 := ⟨n - 1, by omega⟩
    have H := term_at fns hk.filter (n + 1)
    cases hT : toks.filter Token.sig with
    | nil =>
      rw [hT] at hst
      rw [loop_nosemi (by intro t ht; cases ht)] at hst
      cases hst
      exact ⟨[], [], rfl, .inl rfl, fun _ _ h => by simp at h, .nil _⟩
    | cons t T =>
      rw [hT] at hst H hl
      simp only [List.length_cons] at hl
      by_cases hs : t.isSym .Semicolon = true
      · rw [loop_semi hs] at hst
        refine ⟨[t], T, rfl, .inr ⟨t, rfl, hs⟩, fun h => by simp at h, ?_⟩
        exact splits_of_body H n 1 ss st (by simp) (by simp; omega) hst
      · have hno : NotSym .Semicolon (t :: T) := by intro x hx; cases hx; simpa using hs
        rw [loop_nosemi hno, if_neg (by simp)] at hst
        refine ⟨[], t :: T, rfl, .inl rfl, fun _ => hno, ?_⟩
        exact splits_of_body H n 0 ss st (by simp) (by simp; omega) hst
  · rintro ⟨lead, a, h1, h2, h3, h4⟩
    have := h4.length
    have hla : a.length ≤ (toks.filter Token.sig).length := by rw [h1]; simp
    obtain ⟨st, hst⟩ := h4.sql h2 h3 n (by omega)
    rw [h1, hst]; rfl

/-- `;DELETE FROM t;` -/
def leadToks : List Token := [zt semi, zt (kT .DELETE), zt (kT .FROM), zt (identTok (str% "t")), zt semi]

/-- Both sides hold for a list with a leading semicolon. -/
example (fns : FloatFns) : runSQL fns 18 true leadToks =
      .ok [.delete Pos.zero ⟨[⟨str% "t", Pos.zero, Pos.zero⟩]⟩ none] () ∧
    leadToks.filter Token.sig = [zt semi] ++ leadToks.tail ∧ LeadSemi [zt semi] ∧
    Splits (Parsers.at fns 18).statement [zt semi] leadToks.tail
      [.delete Pos.zero ⟨[⟨str% "t", Pos.zero, Pos.zero⟩]⟩ none] :=
  ⟨by kernel_rfl, rfl, .inr ⟨_, rfl, rfl⟩,
    .cons (seg := [zt (kT .DELETE), zt (kT .FROM), zt (identTok (str% "t"))]) (by simp) rfl (by kernel_rfl) (.nil _)⟩

theorem Splits.last {p : P Stmt} {b a : List Token} {ss : List Stmt} (h : Splits p b a ss) :
    a = [] ∨ ∃ pre t, a = pre ++ [t] ∧ t.isSym .Semicolon = true := by
  induction h with
  | nil => exact .inl rfl
  | @cons b seg rest sem s ss h1 h2 h3 h4 ih =>
    right
    rcases ih with rfl | ⟨pre, t, rfl, ht⟩
    · exact ⟨seg, sem, rfl, h2⟩
    · exact ⟨seg ++ sem :: pre, t, by simp, ht⟩

/-- C26: a list whose last statement lacks its semicolon is not accepted. -/
theorem C26_last_semicolon (fns : FloatFns) (mode : Bool) (toks : List Token) (hk : KwOK toks) (n : Nat)
    (hn : 3 * toks.length + 3 ≤ n) (pre : List Token) (t : Token) (ht : toks.filter Token.sig = pre ++ [t])
    (hs : t.isSym .Semicolon = false) (ss : List Stmt) : runSQL fns n mode toks ≠ .ok ss () := by
  rw [ne_eq, C26_splits fns mode toks hk n hn ss]
  rintro ⟨lead, a, h1, h2, h3, h4⟩
  rw [h1] at ht
  rcases h4.last with rfl | ⟨pre', t', rfl, ht'⟩
  · rcases h2 with rfl | ⟨x, rfl, hx⟩
    · simp at ht
    · rw [List.append_nil] at ht
      have := congrArg List.getLast? ht
      simp at this
      subst this
      rw [hx] at hs; cases hs
  · have := congrArg List.getLast? ht
    simp at this
    subst this
    rw [ht'] at hs; cases hs

/-- Hypotheses met: the same list without its last semicolon. -/
example : leadToks.dropLast.filter Token.sig = [zt semi, zt (kT .DELETE), zt (kT .FROM)] ++ [zt (identTok (str% "t"))] ∧
    (zt (identTok (str% "t"))).isSym .Semicolon = false := ⟨rfl, rfl⟩

/-- The texts of statements, each followed by a semicolon. -/
def statementsText (fns : FloatFns) (ss : List Stmt) : Str :=
  ss.flatMap fun s => Node.toSQLString fns (.stmt s) ++ str% ";"

theorem statements_spaced {d : Dialect} (hd : BuiltIn d) {fns : FloatFns} : ∀ {ss : List Stmt},
    (∀ s ∈ ss, s.wf d fns = true) → Spaced d (ss.flatMap fun s => s.toks fns ++ [semi])
  | [], _ => Spaced.nil
  | s :: ss, h => by
    have := Spaced.append (Stmt.spaced hd s (h s (by simp))) (Spaced.semi (statements_spaced hd (ss := ss)
      fun s hs => h s (List.mem_cons_of_mem _ hs))) rfl
    simpa using this

theorem statements_splits {d : Dialect} {fns : FloatFns} : ∀ {ss : List Stmt}, (∀ s ∈ ss, s.wf d fns = true) →
    Ev fun m => ∀ b : List Token, Splits (Parsers.at fns m).statement b (Z (sg (ss.flatMap fun s => s.toks fns ++ [semi])))
      (ss.map Stmt.erase)
  | [], _ => Ev.of fun _ b => .nil b
  | s :: ss, h => by
    refine ((Stmt.parses s (h s (by simp))).and (statements_splits (ss := ss)
      fun s hs => h s (List.mem_cons_of_mem _ hs))).mono ?_
    intro m hm b
    have hp := hm.1 b (semi :: sg (ss.flatMap fun s => s.toks fns ++ [semi])) rfl
    have hne : Z (sg (s.toks fns)) ≠ [] := by
      have := hm.1 [] [semi] rfl
      intro h0
      have h0' : sg (s.toks fns) = [] := by simpa [Z] using h0
      rw [h0'] at this
      cases m with
      | zero => cases this
      | succ m => cases this
    have heq : Z (sg ((s :: ss).flatMap fun s => s.toks fns ++ [semi])) =
        Z (sg (s.toks fns)) ++ zt semi :: Z (sg (ss.flatMap fun s => s.toks fns ++ [semi])) := by
      simp [sg_append, Z, sg_semi]
    rw [heq]
    refine .cons hne rfl ?_ (hm.2 _)
    have hz : ∀ ts us, Z (ts ++ us) = Z ts ++ Z us := by simp [Z]
    rw [hz, Z_cons, R] at hp
    exact hp

theorem statement_semi {fns : FloatFns} {m : Nat} {t : Token} {b a : List Token} (h : t.isSym .Semicolon = true) :
    ∀ s st, (Parsers.at fns m).statement.runZ b (t :: a) ≠ .ok s st := by
  intro s st
  cases m with
  | zero => intro h; cases h
  | succ m =>
    have hw : t.word? = none := by
      obtain ⟨k, f, to⟩ := t
      cases k <;> first | rfl | simp [Token.isSym] at h
    show (statementF (Parsers.at fns m)).runZ b (t :: a) ≠ _
    simp only [statementF, runZ_bindM, runZ_nextOrErr_cons, Res.bind_ok, hw, runZ_err]
    intro h; cases h

theorem splits_start {fns : FloatFns} {m : Nat} {b a : List Token} {ss : List Stmt}
    (h : Splits (Parsers.at fns m).statement b a ss) : NotSym .Semicolon a := by
  intro t ht
  cases h with
  | nil => cases ht
  | @cons b seg rest sem s ss h1 h2 h3 h4 =>
    cases seg with
    | nil => exact absurd rfl h1
    | cons x seg =>
      cases ht
      cases hx : t.isSym .Semicolon with
      | false => rfl
      | true => exact absurd h3 (statement_semi hx _ _)

/-- C26: `ParseSQL` on the texts of well-formed statements, each followed by a semicolon, returns these
statements in order, up to positions. -/
theorem C26_statements_roundtrip {d : Dialect} (hd : BuiltIn d) (fns : FloatFns) (mode : Bool) {ss : List Stmt}
    (hs : ∀ s ∈ ss, s.wf d fns = true) :
    Reads d (statementsText fns ss) (fun n => runSQL fns n mode) fun ss' =>
      ss'.map Stmt.erase = ss.map Stmt.erase := by
  have ht : statementsText fns ss = txt (ss.flatMap fun s => s.toks fns ++ [semi]) := by
    unfold statementsText
    induction ss with
    | nil => rfl
    | cons s ss ih =>
      simp only [List.flatMap_cons, ih (fun s h => hs s (by simp [h])), txt_append]
      rw [Node.toSQLString_eq, show (Node.stmt s).wt fns = s.wt fns from rfl, Stmt.text_eq s (hs s (by simp))]
      rfl
  rw [ht]
  have := reads_of_parses (α := List Stmt) hd (statements_spaced hd hs)
    (p := fun n => parseSQL mode (Parsers.at fns n) n) (fun n => sim_parseSQLLoop (sim_at fns n) mode n false) mode
    (fun toks hk n n' hn hn' => (budget_le fns mode toks hk hn hn').2.2.2) (x := ss.map Stmt.erase) ?_
  · refine this.mono fun s' h => ?_
    have h : s'.map Stmt.erase = (ss.map Stmt.erase).map Stmt.erase := h
    rw [h, map_erase_erase _ Stmt.erase_erase]
  · obtain ⟨n0, hn0⟩ := statements_splits hs
    refine ⟨n0 + ss.length + 1, fun m hm => ?_⟩
    have h1 := hn0 m (by omega) []
    have h2 := splits_start h1
    obtain ⟨st, hst⟩ := h1.sql (.inl rfl) (fun _ => h2) m (by simp; omega)
    rw [List.nil_append] at hst
    show ((parseSQLLoop mode _ m false).runZ [] _).outcome = _
    cases mode
    · rw [hst]; rfl
    · rw [parseSQLLoop_mode, hst]; rfl

/-- Hypotheses met by five statements of different kinds. -/
example (fns : FloatFns) : Sample.statements.length = 5 ∧ ∀ s ∈ Sample.statements, s.wf genericDialect fns = true :=
  ⟨rfl, Sample.statements_wf fns⟩

end Verif
