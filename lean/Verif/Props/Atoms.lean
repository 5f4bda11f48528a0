import Verif.Proofs.Atoms
import Verif.Props.Grammar
import Verif.Props.Tokenizer
/-
Property theorems C59: the names and literals of the tree are the words, strings and numbers of the text, in the same
order, each read from a token of its own.

`Covers fns lossy as ts` (Verif/Spec/Atoms.lean) says that the tokens `ts` are those of the names and literals `as`, in
this order, with other tokens between them, among which there is a string or a number only if `lossy`.
-/
set_option maxRecDepth 100000
namespace Verif
open Spec

/-! ### The order -/

/-- C59 for `ParseExpr`: the names and literals of the expression are read from different tokens, in their order. -/
theorem C59_expr (fns : FloatFns) (n : Nat) (mode : Bool) (toks : List Token) (hk : KwOK toks) (e : Expr)
    (h : runExpr fns n mode toks = .ok e ()) :
    ∃ read rest, significant toks = read ++ rest ∧ Covers fns true e.atoms read := by
  obtain ⟨read, rest, h1, h2⟩ := C50_expr_grammar fns n mode toks hk e h
  exact ⟨read, rest, h1, cov_expr (fun _ => rfl) e read h2⟩

/-- C59 for `ParseDataType`: no size is lost. -/
theorem C59_dataType (fns : FloatFns) (n : Nat) (mode : Bool) (toks : List Token) (hk : KwOK toks) (t : DataType)
    (h : runDataType fns n mode toks = .ok t ()) :
    ∃ read rest, significant toks = read ++ rest ∧ Covers fns false t.atoms read := by
  obtain ⟨read, rest, h1, h2⟩ := C50_dataType_grammar fns n mode toks hk t h
  exact ⟨read, rest, h1, cov_dataType t read h2⟩

/-- C59 for `ParseStatement`. -/
theorem C59_statement (fns : FloatFns) (n : Nat) (mode : Bool) (toks : List Token) (hk : KwOK toks) (s : Stmt)
    (h : runStatement fns n mode toks = .ok s ()) :
    ∃ read rest, significant toks = read ++ rest ∧ ∃ as ∈ s.arrangements, Covers fns true as read := by
  obtain ⟨read, rest, h1, h2⟩ := C50_statement_grammar fns n mode toks hk s h
  exact ⟨read, rest, h1, cov_stmt (fun _ => rfl) s (fun _ _ => rfl) read h2⟩

/-- C59 for `ParseSQL`: the whole input. -/
theorem C59_script (fns : FloatFns) (n : Nat) (mode : Bool) (toks : List Token) (hk : KwOK toks) (ss : List Stmt)
    (h : runSQL fns n mode toks = .ok ss ()) : ∃ as ∈ scriptArrangements ss, Covers fns true as (significant toks) :=
  cov_script (fun _ => rfl) ss (fun _ _ _ _ => rfl) _ (C50_script_grammar fns n mode toks hk ss h)

/-! ### No string and no number is lost, without CROSS and column definitions -/

/-- C59 for `ParseExpr`: without CROSS no literal between the tokens read is missing in the tree. -/
theorem C59_expr_kept (fns : FloatFns) (n : Nat) (mode : Bool) (toks : List Token) (hk : KwOK toks)
    (hc : ∀ t ∈ toks, t.kw? ≠ some .CROSS) (e : Expr) (h : runExpr fns n mode toks = .ok e ()) :
    ∃ read rest, significant toks = read ++ rest ∧ Covers fns false e.atoms read := by
  have hq : QuirksOK (toks.filter Token.sig) ⟨false, true, true⟩ :=
    ⟨fun _ t ht => hc t (List.mem_filter.1 ht).1, by simp, rfl⟩
  obtain ⟨j, hj⟩ := outcome_pc0 h (gr_parseExpr (gr_at fns hk.filter hq n) 0)
  obtain ⟨read, rest, h1, h2⟩ := prefix_of_span hj
  exact ⟨read, rest, h1, cov_expr (by simp) e read h2⟩

/-- C59 for `ParseStatement`, likewise, for statements that define no column. -/
theorem C59_statement_kept (fns : FloatFns) (n : Nat) (mode : Bool) (toks : List Token) (hk : KwOK toks)
    (hc : ∀ t ∈ toks, t.kw? ≠ some .CROSS) (s : Stmt) (hs : s.hasColumns = false)
    (h : runStatement fns n mode toks = .ok s ()) :
    ∃ read rest, significant toks = read ++ rest ∧ ∃ as ∈ s.arrangements, Covers fns false as read := by
  have hq : QuirksOK (toks.filter Token.sig) ⟨false, true, true⟩ :=
    ⟨fun _ t ht => hc t (List.mem_filter.1 ht).1, by simp, rfl⟩
  obtain ⟨j, hj⟩ := outcome_pc0 h ((gr_at fns hk.filter hq n).statement 0)
  obtain ⟨read, rest, h1, h2⟩ := prefix_of_span hj
  exact ⟨read, rest, h1, cov_stmt (by simp) s (by simp [hs]) read h2⟩

/-- C59 for `ParseSQL`, likewise. -/
theorem C59_script_kept (fns : FloatFns) (n : Nat) (mode : Bool) (toks : List Token) (hk : KwOK toks)
    (hc : ∀ t ∈ toks, t.kw? ≠ some .CROSS) (ss : List Stmt) (hs : ∀ s ∈ ss, s.hasColumns = false)
    (h : runSQL fns n mode toks = .ok ss ()) : ∃ as ∈ scriptArrangements ss, Covers fns false as (significant toks) :=
  cov_script (by simp) ss (fun s hm hx => by simp [hs s hm] at hx) _ (C29_no_cross_partial fns n mode toks hk hc ss h)

/-! ### What this shows -/

theorem Spec.Covers.mem {fns : FloatFns} {b : Bool} {as : List Atom} {ts : List Token} (h : Covers fns b as ts) :
    ∀ a ∈ as, ∃ t ∈ ts, a.of fns t := by
  induction h with
  | nil => simp
  | skip t _ _ ih =>
    intro a ha
    obtain ⟨u, h1, h2⟩ := ih a ha
    exact ⟨u, List.mem_cons_of_mem _ h1, h2⟩
  | take b t hb _ ih =>
    intro a ha
    rcases List.mem_cons.1 ha with rfl | ha
    · exact ⟨t, List.mem_cons_self, hb⟩
    · obtain ⟨u, h1, h2⟩ := ih a ha
      exact ⟨u, List.mem_cons_of_mem _ h1, h2⟩

theorem place_of {fns : FloatFns} {a : Atom} {t : Token} (h : a.of fns t) {p : Pos × Pos} (hp : a.place = some p) :
    t.from_ = p.1 ∧ t.to_ = p.2 := by
  cases a <;> simp only [Atom.place, Option.some.injEq, reduceCtorEq] at hp <;> subst hp <;> simp only [Atom.of] at h
  · obtain ⟨w, rfl, -⟩ := h; exact ⟨rfl, rfl⟩
  · subst h; exact ⟨rfl, rfl⟩
  · subst h; exact ⟨rfl, rfl⟩
  · obtain ⟨w, rfl, -⟩ := h; exact ⟨rfl, rfl⟩
  · obtain ⟨w, rfl, -⟩ := h; exact ⟨rfl, rfl⟩
  · obtain ⟨w, n, rfl, -⟩ := h; exact ⟨rfl, rfl⟩

/-- C59: the places of the names and literals of a script, in the order of the tree, increase strictly; each is the place
of one token.  So no two of them are read from one token. -/
theorem C59_places (fns : FloatFns) (n fuel : Nat) (mode : Bool) (d : Dialect) (src : Str) (toks : List Token)
    (ht : tokenize d true fuel src = .ok toks) (ss : List Stmt) (h : runSQL fns n mode toks = .ok ss ()) :
    ∃ as ∈ scriptArrangements ss, Covers fns true as (significant toks) ∧
      (as.filterMap Atom.place).Pairwise (fun p q => comparePos p.1 q.1 = -1) ∧
      ∀ p ∈ as.filterMap Atom.place, ∃ t ∈ toks, t.from_ = p.1 ∧ t.to_ = p.2 := by
  obtain ⟨as, ha, hc⟩ := C59_script fns n mode toks (tokenizeFrom_kwOK ht) ss h
  have hp : (significant toks).Pairwise (fun a b => comparePos a.from_ b.from_ = -1) :=
    (C03_positions_increase ht).2.sublist List.filter_sublist
  refine ⟨as, ha, hc, ?_⟩
  have hsub : ∀ t ∈ significant toks, t ∈ toks := fun t ht => (List.mem_filter.1 ht).1
  generalize significant toks = ts at hc hp hsub
  clear ha h ht
  refine ⟨?_, fun p hp => ?_⟩
  · clear hsub
    induction hc with
    | nil => simp
    | skip t _ _ ih => exact ih hp.of_cons
    | @take a t as ts ha hc ih =>
      have := ih hp.of_cons
      rw [List.filterMap_cons]
      split
      · exact this
      · rename_i p hpa
        refine List.pairwise_cons.2 ⟨fun r hr => ?_, this⟩
        obtain ⟨x, hx, hxr⟩ := List.mem_filterMap.1 hr
        obtain ⟨u, hu, hxu⟩ := hc.mem x hx
        rw [← (place_of ha hpa).1, ← (place_of hxu hxr).1]
        exact (List.pairwise_cons.1 hp).1 u hu
  · obtain ⟨x, hx, hxr⟩ := List.mem_filterMap.1 hp
    obtain ⟨u, hu, hxu⟩ := hc.mem x hx
    exact ⟨u, hsub u hu, place_of hxu hxr⟩

theorem text_of {fns : FloatFns} {a : Atom} {t : Token} (h : a.of fns t) : a.text = stringOf t := by
  cases a <;> simp only [Atom.of] at h
  · obtain ⟨w, rfl, -⟩ := h; rfl
  · subst h; rfl
  · subst h; rfl
  · obtain ⟨w, rfl, -⟩ := h; rfl
  · obtain ⟨w, rfl, -⟩ := h; rfl
  · obtain ⟨w, n, rfl, -⟩ := h; rfl
  · obtain ⟨w, n, h, -⟩ := h; simp only [stringOf, h, Atom.text]

theorem named_of {fns : FloatFns} {a : Atom} {t : Token} (h : a.of fns t) : a.named = wordOf t := by
  cases a <;> simp only [Atom.of] at h
  · obtain ⟨w, rfl, hw⟩ := h; simp only [Atom.named, wordOf, hw]
  · subst h; rfl
  · subst h; rfl
  · obtain ⟨w, rfl, -⟩ := h; rfl
  · obtain ⟨w, rfl, -⟩ := h; rfl
  · obtain ⟨w, n, rfl, -⟩ := h; rfl
  · obtain ⟨w, n, h, -⟩ := h; simp only [wordOf, h, Atom.named]

theorem Spec.Covers.filterMap {fns : FloatFns} {b : Bool} {as : List Atom} {ts : List Token} (h : Covers fns b as ts)
    {β : Type} {f : Atom → Option β} {g : Token → Option β} (hfg : ∀ a t, a.of fns t → f a = g t) :
    (as.filterMap f).Sublist (ts.filterMap g) := by
  induction h with
  | nil => exact .slnil
  | skip t _ _ ih =>
    rw [List.filterMap_cons]
    split
    · exact ih
    · exact ih.cons _
  | take a t ha _ ih =>
    rw [List.filterMap_cons, List.filterMap_cons, hfg a t ha]
    split
    · exact ih
    · exact ih.cons_cons _

/-- C59: the names in the tree, in its order, are words of the text in the same order, and the strings are strings of the
text. -/
theorem C59_names_and_strings (fns : FloatFns) (n : Nat) (mode : Bool) (toks : List Token) (hk : KwOK toks)
    (ss : List Stmt) (h : runSQL fns n mode toks = .ok ss ()) : ∃ as ∈ scriptArrangements ss,
      (as.filterMap Atom.named).Sublist ((significant toks).filterMap wordOf) ∧
      (as.filterMap Atom.text).Sublist ((significant toks).filterMap stringOf) := by
  obtain ⟨as, ha, hc⟩ := C59_script fns n mode toks hk ss h
  exact ⟨as, ha, hc.filterMap fun _ _ => named_of, hc.filterMap fun _ _ => text_of⟩

theorem Spec.Covers.strings {fns : FloatFns} {as : List Atom} {ts : List Token} (h : Covers fns false as ts) :
    as.filterMap Atom.text = ts.filterMap stringOf := by
  induction h with
  | nil => rfl
  | skip t ht _ ih =>
    have : stringOf t = none := by
      rcases ht with ht | ht
      · cases ht
      · unfold isLiteral at ht
        unfold stringOf
        split at ht <;> simp_all
    rw [List.filterMap_cons, this, ih]
  | take a t ha _ ih => rw [List.filterMap_cons, List.filterMap_cons, text_of ha, ih]

/-- C59: without CROSS and column definitions the strings in the tree are exactly those of the text, in the same order. -/
theorem C59_strings_kept (fns : FloatFns) (n : Nat) (mode : Bool) (toks : List Token) (hk : KwOK toks)
    (hc : ∀ t ∈ toks, t.kw? ≠ some .CROSS) (ss : List Stmt) (hs : ∀ s ∈ ss, s.hasColumns = false)
    (h : runSQL fns n mode toks = .ok ss ()) : ∃ as ∈ scriptArrangements ss,
      as.filterMap Atom.text = (significant toks).filterMap stringOf := by
  obtain ⟨as, ha, hc⟩ := C59_script_kept fns n mode toks hk hc ss hs h
  exact ⟨as, ha, hc.strings⟩

/-! ### Strings are lost in joins before CROSS JOIN and in column definitions -/

/-- The text is accepted, the tokens and statements have a property, and the strings of no arrangement are those of the
text. -/
def losesStrings (fns : FloatFns) (src : Str) (p : List Token → List Stmt → Bool) : Bool :=
  match readAs (fun n => runSQL fns n false) src with
  | some (toks, ss) => p toks ss &&
      (scriptArrangements ss).all fun as => as.filterMap Atom.text != (significant toks).filterMap stringOf
  | none => false

theorem lost_of {fns : FloatFns} {src : Str} {p : List Token → List Stmt → Bool} (h : losesStrings fns src p = true) :
    ∃ toks ss, tokenize genericDialect true (src.length + 1) src = .ok toks ∧
      runSQL fns (3 * toks.length + 3) false toks = .ok ss () ∧ p toks ss = true ∧ ∀ as ∈ scriptArrangements ss,
        ¬ as.filterMap Atom.text = (significant toks).filterMap stringOf := by
  unfold losesStrings at h
  split at h
  · rename_i toks ss hr
    unfold readAs at hr
    split at hr
    · rename_i toks' ht
      split at hr
      · rename_i x _ hx
        cases hr
        rw [Bool.and_eq_true] at h
        refine ⟨toks, ss, ht, hx, h.1, fun as ha => ?_⟩
        simpa using List.all_eq_true.1 h.2 as ha
      · cases hr
    · cases hr
  · cases h

/-- C59 is false of the code without these conditions: the join before a CROSS JOIN is lost with its strings, and the
first of two DEFAULT clauses of a column is lost with its strings. -/
theorem C59_kept_false (fns : FloatFns) :
    (∃ src toks ss, tokenize genericDialect true (src.length + 1) src = .ok toks ∧
      runSQL fns (3 * toks.length + 3) false toks = .ok ss () ∧ (∀ s ∈ ss, s.hasColumns = false) ∧
      ∀ as ∈ scriptArrangements ss, ¬ as.filterMap Atom.text = (significant toks).filterMap stringOf) ∧
    (∃ src toks ss, tokenize genericDialect true (src.length + 1) src = .ok toks ∧
      runSQL fns (3 * toks.length + 3) false toks = .ok ss () ∧ (∀ t ∈ toks, t.kw? ≠ some .CROSS) ∧
      ∀ as ∈ scriptArrangements ss, ¬ as.filterMap Atom.text = (significant toks).filterMap stringOf) := by
  constructor
  · have h : losesStrings fns (str% "SELECT a FROM t JOIN u ON b = 'x' CROSS JOIN v WHERE c = 'y';")
        (fun _ ss => ss.all fun s => !s.hasColumns) = true := by kernel_rfl
    obtain ⟨toks, ss, h1, h2, h3, h4⟩ := lost_of h
    exact ⟨_, toks, ss, h1, h2, by simpa using h3, h4⟩
  · have h : losesStrings fns (str% "CREATE TABLE t (a int DEFAULT 'x' DEFAULT 'y');")
        (fun toks _ => toks.all fun t => t.kw? != some .CROSS) = true := by kernel_rfl
    obtain ⟨toks, ss, h1, h2, h3, h4⟩ := lost_of h
    exact ⟨_, toks, ss, h1, h2, by simpa using h3, h4⟩

/-! ### Hypotheses met -/

/-- A script with strings, numbers, quoted names and column definitions in both orders. -/
example (fns : FloatFns) : ∃ toks ss, tokenize genericDialect true 200 (str% "CREATE TABLE t (a varchar(10) DEFAULT 'x' CHECK (a <> 'z'), b int CHECK (b > 1) DEFAULT 2); UPDATE t SET a = N'y' WHERE \"b\" = 3;")
      = .ok toks ∧ runSQL fns (3 * toks.length + 3) false toks = .ok ss () ∧ ss.length = 2 := by
  have h : (match tokenize genericDialect true 200 (str% "CREATE TABLE t (a varchar(10) DEFAULT 'x' CHECK (a <> 'z'), b int CHECK (b > 1) DEFAULT 2); UPDATE t SET a = N'y' WHERE \"b\" = 3;") with
      | .ok toks =>
        match runSQL fns (3 * toks.length + 3) false toks with
        | .ok ss _ => ss.length == 2
        | _ => false
      | _ => false) = true := by kernel_rfl
  split at h
  · rename_i toks ht
    split at h
    · rename_i ss _ hs
      exact ⟨toks, ss, ht, hs, by simpa using h⟩
    · cases h
  · cases h

/-- A script without CROSS and column definitions, with strings. -/
example (fns : FloatFns) : ∃ toks ss, KwOK toks ∧ (∀ t ∈ toks, t.kw? ≠ some .CROSS) ∧ (∀ s ∈ ss, s.hasColumns = false) ∧
    runSQL fns (3 * toks.length + 3) false toks = .ok ss () ∧
    (significant toks).filterMap stringOf = [str% "x", str% "it's", str% "n"] := by
  have h : ((readAs (fun n => runSQL fns n false)
      (str% "SELECT a, 'x' FROM t JOIN u ON b = 'it''s'; DELETE FROM v WHERE c IN (N'n', 15);")).map
        fun x => (x.1.all fun t => t.kw? != some .CROSS) && (x.2.all fun s => !s.hasColumns) &&
          ((significant x.1).filterMap stringOf == [str% "x", str% "it's", str% "n"])) = some true := by kernel_rfl
  unfold readAs at h
  split at h
  · rename_i toks ht
    split at h
    · rename_i x _ hx
      simp only [Option.map_some, Option.some.injEq, Bool.and_eq_true] at h
      exact ⟨toks, x, tokenizeFrom_kwOK ht, by simpa using h.1.1, by simpa using h.1.2, hx, by simpa using h.2⟩
    · cases h
  · cases h

/-- An expression, a type and a statement. -/
example (fns : FloatFns) : (∃ toks e, KwOK toks ∧ (∀ t ∈ toks, t.kw? ≠ some .CROSS) ∧
      runExpr fns (3 * toks.length + 3) false toks = .ok e () ∧ 4 ≤ e.atoms.length) ∧
    (∃ toks t, KwOK toks ∧ runDataType fns (3 * toks.length + 3) false toks = .ok t () ∧ t.atoms.length = 2) ∧
    (∃ toks s, KwOK toks ∧ (∀ t ∈ toks, t.kw? ≠ some .CROSS) ∧ s.hasColumns = false ∧
      runStatement fns (3 * toks.length + 3) false toks = .ok s () ∧ s.arrangements.map List.length = [4]) := by
  refine ⟨?_, ?_, ?_⟩
  · have h : ((readAs (fun n => runExpr fns n false) (str% "a + f(b, 'x') * 3")).map
        fun x => (x.1.all fun t => t.kw? != some .CROSS) && decide (4 ≤ x.2.atoms.length)) = some true := by kernel_rfl
    unfold readAs at h
    split at h
    · rename_i toks ht
      split at h
      · rename_i x _ hx
        simp only [Option.map_some, Option.some.injEq, Bool.and_eq_true] at h
        exact ⟨toks, x, tokenizeFrom_kwOK ht, by simpa using h.1, hx, by simpa using h.2⟩
      · cases h
    · cases h
  · have h : ((readAs (fun n => runDataType fns n false) (str% "numeric(10, 2)")).map
        fun x => x.2.atoms.length == 2) = some true := by kernel_rfl
    obtain ⟨toks, x, h1, h2, h3⟩ := readAs_some (p := fun x : DataType => x.atoms.length == 2) h
    exact ⟨toks, x, tokenizeFrom_kwOK h1, h2, by simpa using h3⟩
  · have h : ((readAs (fun n => runStatement fns n false) (str% "DELETE FROM s.t WHERE a = 'x';")).map
        fun x => (x.1.all fun t => t.kw? != some .CROSS) && !x.2.hasColumns &&
          (x.2.arrangements.map List.length == [4])) = some true := by kernel_rfl
    unfold readAs at h
    split at h
    · rename_i toks ht
      split at h
      · rename_i x _ hx
        simp only [Option.map_some, Option.some.injEq, Bool.and_eq_true] at h
        exact ⟨toks, x, tokenizeFrom_kwOK ht, by simpa using h.1.1, by simpa using h.1.2, hx, by simpa using h.2⟩
      · cases h
    · cases h

end Verif
