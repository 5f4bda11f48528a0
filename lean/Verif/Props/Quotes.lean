import Verif.Proofs.Quotes
import Verif.Props.Atoms
import Verif.Props.Survive
import Verif.Props.Tokenizer
import Verif.Props.Findings
/-
Property theorems C60: a tree with a quote in a string literal never survives.  The printer writes such a
literal without doubling the quote (sqlast/value.go), and the theorem says that whatever else is in the tree, and
however the quotes of several literals might happen to pair up, the printed text is never read as the same tree.  The
proof counts quotes: a text from which the tree is read has more of them than the printer writes.

`fns.format` stands for `strconv.FormatFloat`; the only thing asked of it is that it writes no quote.
-/
set_option maxRecDepth 100000
namespace Verif
open Spec

/-- A text has at least the quotes that are needed for what is read from it. -/
theorem needed_le_quotes {d : Dialect} {fuel : Nat} {src : Str} {toks : List Token} {fns : FloatFns} {b : Bool}
    (ht : tokenize d true fuel src = .ok toks) {as : List Atom} {read rest : List Token}
    (hs : significant toks = read ++ rest) (hc : Covers fns b as read) : needed as ≤ quotes src := by
  obtain ⟨tps, h1, h2, h3⟩ := C01_tokenize_lossless ht
  have h4 := tokens_quotes tps h3
  rw [← h1, ← h2] at h4
  have h5 : (read.map tokenQuotes).sum ≤ (toks.map tokenQuotes).sum :=
    sum_sublist ((List.sublist_append_left read rest).trans (hs ▸ List.filter_sublist))
  exact Nat.le_trans hc.needed (Nat.le_trans h5 h4)

theorem statementsText_erase (fns : FloatFns) (ss : List Stmt) :
    statementsText fns (ss.map Stmt.erase) = statementsText fns ss := by
  simp only [statementsText, Node.toSQLString_eq, Node.wt, List.flatMap_map, Stmt.wt_erase]

theorem scriptArrangements_erase (ss : List Stmt) :
    scriptArrangements (ss.map Stmt.erase) = (scriptArrangements ss).map (·.map Atom.erase) := by
  rw [scriptArrangements, scriptArrangements, ← arrange_erase]
  simp only [List.map_map, Function.comp_def, Stmt.arrangements_erase]

theorem script_alike (ss : List Stmt) : Alike (scriptArrangements ss) := by
  refine alike_arrange _ fun p hp => ?_
  obtain ⟨s, -, rfl⟩ := List.mem_map.1 hp
  exact s.alike

theorem script_quotes {fns : FloatFns} (hf : ∀ v, quotes (fns.format v) = 0) : ∀ ss : List Stmt,
    ∀ as ∈ scriptArrangements ss, quotes (statementsText fns ss) = printed as
  | [], as, h => by rw [List.mem_singleton.1 h]; rfl
  | s :: ss, as, h => by
    simp only [scriptArrangements, List.map_cons, arrange, List.mem_flatMap, List.mem_map] at h
    obtain ⟨a, ha, bs, hb, rfl⟩ := h
    have h1 := Stmt.quotes_text hf s a ha
    have h2 := script_quotes hf ss bs (by simpa [scriptArrangements] using hb)
    have h3 : quotes (str% ";") = 0 := rfl
    simp only [statementsText, List.flatMap_cons, quotes_append, Node.toSQLString_eq, Node.wt, printed_append] at h2 ⊢
    omega

/-- C60: an expression that is printed to a text that is read as the same expression has no quote in its string
literals. -/
theorem C60_expr_no_quotes {d : Dialect} (fns : FloatFns) (hf : ∀ v, '\'' ∉ fns.format v) (mode : Bool) {e : Expr}
    (h : CanRead d (Node.toSQLString fns (.expr e)) (fun n => runExpr fns n mode) fun e' => e'.erase = e.erase) :
    ∀ a ∈ e.atoms, ∀ s, a.text = some s → '\'' ∉ s := by
  obtain ⟨fuel, toks, n, e', ht, h, he⟩ := h
  have hf : ∀ v, quotes (fns.format v) = 0 := fun v => List.count_eq_zero.2 (hf v)
  obtain ⟨read, rest, h1, h2⟩ := C59_expr fns n mode toks (tokenizeFrom_kwOK ht) e' h
  have h3 := needed_le_quotes ht h1 h2
  have hw : (e'.wt fns) = (e.wt fns) := by rw [← Expr.wt_erase fns e', he, Expr.wt_erase]
  rw [Node.toSQLString_eq, Node.wt, ← hw, Expr.quotes_text hf] at h3
  have ha : e'.atoms.map Atom.erase = e.atoms.map Atom.erase := by rw [← Expr.atoms_erase, he, Expr.atoms_erase]
  refine quoteFree_erase (ha ▸ fun a hm => ?_)
  obtain ⟨a', hm', rfl⟩ := List.mem_map.1 hm
  intro s hs
  exact needed_le h3 a' hm' s (by cases a' <;> simp_all [Atom.text, Atom.erase])

/-- C60 for statements. -/
theorem C60_statement_no_quotes {d : Dialect} (fns : FloatFns) (hf : ∀ v, '\'' ∉ fns.format v) (mode : Bool) {s : Stmt}
    (h : CanRead d (Node.toSQLString fns (.stmt s) ++ str% ";") (fun n => runStatement fns n mode)
      fun s' => s'.erase = s.erase) :
    ∀ as ∈ s.arrangements, ∀ a ∈ as, ∀ t, a.text = some t → '\'' ∉ t := by
  obtain ⟨fuel, toks, n, s', ht, h, he⟩ := h
  have hf : ∀ v, quotes (fns.format v) = 0 := fun v => List.count_eq_zero.2 (hf v)
  obtain ⟨read, rest, h1, as', hm, h2⟩ := C59_statement fns n mode toks (tokenizeFrom_kwOK ht) s' h
  have h3 := needed_le_quotes ht h1 h2
  have hw : (s'.wt fns) = (s.wt fns) := by rw [← Stmt.wt_erase fns s', he, Stmt.wt_erase]
  rw [quotes_append, Node.toSQLString_eq, Node.wt, ← hw, Stmt.quotes_text hf s' as' hm] at h3
  have ha : s'.arrangements.map (·.map Atom.erase) = s.arrangements.map (·.map Atom.erase) := by
    rw [← Stmt.arrangements_erase, he, Stmt.arrangements_erase]
  obtain ⟨as, hm', hb⟩ := List.mem_map.1 (ha ▸ List.mem_map_of_mem hm)
  have : ∀ a ∈ as, a.quoteFree := by
    refine quoteFree_erase (hb ▸ fun a hm => ?_)
    obtain ⟨a', hm'', rfl⟩ := List.mem_map.1 hm
    intro t hs
    exact needed_le h3 a' hm'' t (by cases a' <;> simp_all [Atom.text, Atom.erase])
  intro bs hbs a ha
  exact this a ((s.alike _ hbs _ hm').mem_iff.1 ha)

/-- C60: so a string literal with a quote, anywhere in an expression, is enough. -/
theorem C60_quote_never_survives {d : Dialect} (fns : FloatFns) (hf : ∀ v, '\'' ∉ fns.format v) (mode : Bool) {e : Expr}
    {f t : Pos} {s : Str} (hm : Atom.single f t s ∈ e.atoms ∨ Atom.national f t s ∈ e.atoms) (hs : '\'' ∈ s) :
    ¬ CanRead d (Node.toSQLString fns (.expr e)) (fun n => runExpr fns n mode) fun e' => e'.erase = e.erase := by
  intro h
  rcases hm with hm | hm <;> exact C60_expr_no_quotes fns hf mode h _ hm s rfl hs

/-- C60 for lists of statements, each followed by a semicolon. -/
theorem C60_statements_no_quotes {d : Dialect} (fns : FloatFns) (hf : ∀ v, '\'' ∉ fns.format v) (mode : Bool)
    {ss : List Stmt} (h : CanRead d (statementsText fns ss) (fun n => runSQL fns n mode)
      fun ss' => ss'.map Stmt.erase = ss.map Stmt.erase) :
    ∀ as ∈ scriptArrangements ss, ∀ a ∈ as, ∀ t, a.text = some t → '\'' ∉ t := by
  obtain ⟨fuel, toks, n, ss', ht, h, he⟩ := h
  have hf : ∀ v, quotes (fns.format v) = 0 := fun v => List.count_eq_zero.2 (hf v)
  obtain ⟨as', hm, h2⟩ := C59_script fns n mode toks (tokenizeFrom_kwOK ht) ss' h
  have h3 := needed_le_quotes ht (List.append_nil _).symm h2
  rw [← statementsText_erase fns ss, ← he, statementsText_erase, script_quotes hf ss' as' hm] at h3
  have ha : (scriptArrangements ss').map (·.map Atom.erase) = (scriptArrangements ss).map (·.map Atom.erase) := by
    rw [← scriptArrangements_erase, he, scriptArrangements_erase]
  obtain ⟨as, hm', hb⟩ := List.mem_map.1 (ha ▸ List.mem_map_of_mem hm)
  have : ∀ a ∈ as, a.quoteFree := by
    refine quoteFree_erase (hb ▸ fun a hm => ?_)
    obtain ⟨a', hm'', rfl⟩ := List.mem_map.1 hm
    intro t hs
    exact needed_le h3 a' hm'' t (by cases a' <;> simp_all [Atom.text, Atom.erase])
  intro bs hbs a ha
  exact this a ((script_alike ss _ hbs _ hm').mem_iff.1 ha)

/-- C60 and C27: if `ParseSQL` accepts a text without the word CROSS and no statement in it defines a column, and there
is a quote in a string literal of the text, the printed statements are not read as the same statements. -/
theorem C60_text_with_quote {d : Dialect} (fns : FloatFns) (hf : ∀ v, '\'' ∉ fns.format v) (mode mode' : Bool)
    {fuel n : Nat} {src : Str} {toks : List Token} (ht : tokenize d true fuel src = .ok toks)
    (hc : ∀ t ∈ toks, t.kw? ≠ some .CROSS) {ss : List Stmt} (hs : ∀ s ∈ ss, s.hasColumns = false)
    (h : runSQL fns n mode toks = .ok ss ()) {v : Str} (hv : v ∈ (significant toks).filterMap stringOf) (hq : '\'' ∈ v) :
    ¬ CanRead d (statementsText fns ss) (fun n => runSQL fns n mode')
      fun ss' => ss'.map Stmt.erase = ss.map Stmt.erase := by
  obtain ⟨as, ha, h2⟩ := C59_strings_kept fns n mode toks (tokenizeFrom_kwOK ht) hc ss hs h
  intro hr
  rw [← h2] at hv
  obtain ⟨a, ha', hv⟩ := List.mem_filterMap.1 hv
  exact C60_statements_no_quotes fns hf mode' hr as ha a ha' v hv hq

/-! ### Examples -/

/-- `'it''s' IS NULL` meets the hypotheses of `C60_quote_never_survives`. -/
example : Atom.single Pos.zero Pos.zero (str% "it's") ∈ (Expr.isNull
      (.singleQuoted Pos.zero Pos.zero (str% "it's"))).atoms ∧ '\'' ∈ str% "it's" := by
  simp [Expr.atoms]

/-- The text meets the hypotheses of `C60_text_with_quote`. -/
def quotedText (fns : FloatFns) (src : Str) : Bool :=
  match readAs (fun n => runSQL fns n false) src with
  | some (toks, ss) => toks.all (fun t => t.kw? != some .CROSS) && ss.all (fun s => !s.hasColumns) &&
      ((significant toks).filterMap stringOf).any (·.contains '\'')
  | none => false

/-- The quotes of the two literals pair up when they are printed: `'a'b' = 'c'd'`. -/
example (fns : FloatFns) : quotedText fns (str% "SELECT 'a''b' = 'c''d';") = true := by kernel_rfl

/-- A statement without quotes in its strings that does survive. -/
example (fns : FloatFns) : quotedText fns (str% "SELECT 'ab';") = false ∧
    reprint fns (str% "SELECT 'ab';") = some (.ok [str% "SELECT 'ab'"] ()) := by
  constructor <;> kernel_rfl

end Verif
