import Verif.Proofs.PanicRun
import Verif.Props.Script
import Verif.Props.Findings
/-
C65: which inputs make the parser panic.  `C21_panic_false` (Props/Findings.lean) shows that the parser does panic;
the theorems here say where: at the end of the input, at a keyword that is written with a dotless i, or at a place
of the tables `sites` and `readSites` (Spec/Panic.lean), where one of a few tokens is required and something else
follows.
If a semicolon is still to come, the end of the input is not a reason.
-/
set_option maxRecDepth 100000
namespace Verif
open Spec

/-- `P.panicAt` gives a state exactly if the run panics. -/
theorem C65_panicAt (mode : Bool) (p : P α) (s : PState) :
    p.run mode s = .panic ↔ ∃ s', p.panicAt mode s = some s' := by
  have h := panicAt_none mode p s
  cases hp : p.panicAt mode s with
  | none => rw [hp] at h; simp [h.1 rfl]
  | some s' =>
    rw [hp] at h
    simp only [reduceCtorEq, ne_eq, false_iff, Classical.not_not] at h
    simp [h]

/-- C65, where a panic happens: at the end of the input, at a keyword written with a dotless i, or at a place of
the table.  `ParseExpr` also panics if the input does not begin with an expression. -/
theorem C65_causes (fns : FloatFns) (n m : Nat) (mode : Bool) (s s' : PState) (hs : s.idx ≤ s.toks.length) :
    ((Parsers.at fns n).statement.panicAt mode s = some s' → s'.after = [] ∨ s'.explained) ∧
    ((parseSQL mode (Parsers.at fns n) m).panicAt mode s = some s' → s'.after = [] ∨ s'.explained) ∧
    ((parseDataType (Parsers.at fns n)).panicAt mode s = some s' → s'.after = [] ∨ s'.explained) ∧
    ((∀ t, s.after.head? = some t → ∃ a ∈ exprStart, a.is t = true) →
      (parseExpr (Parsers.at fns n)).panicAt mode s = some s' → s'.after = [] ∨ s'.explained) := by
  have hat := s.at_self hs
  have H := pan_at (T := s.before.reverse ++ s.after) (z := false) fns n
  have key : ∀ {α} {p : P α} {Q : α → Nat → Prop}, pw (s.before.reverse ++ s.after) false p s.before.length Q →
      p.panicAt mode s = some s' → s'.after = [] ∨ s'.explained := by
    intro α p Q hp h
    obtain ⟨j, h1, h2⟩ := (panic_view _ mode p s _ hat).2 s' h
    rcases bad_state h2 (pw_reason hp (fun h => by cases h) j h1) with h | h
    · exact .inl h.2
    · exact .inr h
  refine ⟨key (H.statement _), key (pan_parseSQLLoop H mode m false _), key (pan_parseDataType H), fun h0 => key
    (pan_parseExpr H ?_)⟩
  intro t ht hn
  obtain ⟨a, ha, h1⟩ := h0 t (by rw [hat.2.1, List.head?_drop, ht])
  rw [hn a ha] at h1
  cases h1

/-- C65: if a semicolon is still to come, the end of the input is not a reason. -/
theorem C65_semicolon (fns : FloatFns) (n : Nat) (mode : Bool) (s s' : PState) (hs : s.idx ≤ s.toks.length)
    (sem : Token) (hsem : sem.isSym .Semicolon = true) (hmem : sem ∈ s.toks.drop s.idx) :
    ((Parsers.at fns n).statement.panicAt mode s = some s' → s'.explained) ∧
    ((parseDataType (Parsers.at fns n)).panicAt mode s = some s' → s'.explained) ∧
    ((∀ t, s.after.head? = some t → ∃ a ∈ exprStart, a.is t = true) →
      (parseExpr (Parsers.at fns n)).panicAt mode s = some s' → s'.explained) := by
  obtain ⟨a1, a2, a3⟩ := C62_semicolon_guards_end fns n mode s hs sem hsem hmem
  have hat := s.at_self hs
  have H := pan_at (T := s.before.reverse ++ s.after) (z := true) fns n
  have key : ∀ {α} {p : P α} {Q : α → Nat → Prop}, pw (s.before.reverse ++ s.after) true p s.before.length Q →
      p.asksEnd mode s = false → p.panicAt mode s = some s' → s'.explained := by
    intro α p Q hp ha h
    obtain ⟨h0, h3⟩ := panic_view _ mode p s _ hat
    obtain ⟨j, h1, h2⟩ := h3 s' h
    exact explained_of h2 (pw_reason hp (fun _ => by rw [← h0]; exact ha) j h1)
  refine ⟨key (H.statement _) a1, key (pan_parseDataType H) a3, fun h0 => key (pan_parseExpr H ?_) a2⟩
  intro t ht hn
  obtain ⟨a, ha, h1⟩ := h0 t (by rw [hat.2.1, List.head?_drop, ht])
  rw [hn a ha] at h1
  cases h1

/-- C65: likewise for `ParseSQL` if the last significant token is a semicolon. -/
theorem C65_terminated (fns : FloatFns) (n m : Nat) (mode : Bool) (s s' : PState) (hs : s.idx ≤ s.toks.length)
    (sem : Token) (hsem : sem.isSym .Semicolon = true) (hlast : s.after.getLast? = some sem)
    (h : (parseSQL mode (Parsers.at fns n) m).panicAt mode s = some s') : s'.explained := by
  obtain ⟨c, f, g, rfl⟩ := isSemi_eq hsem
  have hat := s.at_self hs
  obtain ⟨l, hl⟩ := List.getLast?_eq_some_iff.1 hlast
  have hlen : (s.before.reverse ++ s.after).length = s.before.length + l.length + 1 := by simp [hl]; omega
  have E : Rim (s.before.reverse ++ s.after) (s.before.length + l.length) true :=
    ⟨by omega, (fun h => by cases h), fun _ => ⟨c, f, g, by
      rw [List.getElem?_append_right (by simp), hl]; simp⟩⟩
  obtain ⟨j, h1, h2⟩ := (panic_view _ mode _ s _ hat).2 s' h
  exact explained_of h2 ((pz_parseSQLLoop fns n hlen E mode m false _).1 j h1)

/-- A state reached by a run on `toks` has the tokens of `toks`. -/
theorem panicAt_toks (mode : Bool) (p : P α) (s s' : PState) (hs : s.idx ≤ s.toks.length)
    (h : p.panicAt mode s = some s') : s'.before.reverse ++ s'.after = s.before.reverse ++ s.after := by
  obtain ⟨j, -, h1, h2, -, -⟩ := (panic_view _ mode p s _ (s.at_self hs)).2 s' h
  rw [h1, h2, List.reverse_reverse, List.take_append_drop]

/-- C65: a keyword on which the field `Keyword` and `parseKeyword` disagree contains a dotless i, if the tokens
come from the tokenizer. -/
theorem C65_mismatch {ks : List KW} {s : PState} {toks : List Token}
    (hk : ∀ t ∈ toks, ∀ w, t.tok = .word w → w.keyword = upper w.value)
    (hs : ∀ t ∈ s.before.reverse ++ s.after, t ∈ toks) (h : mismatch ks s) :
    ∃ t ∈ toks, ∃ w, t.tok = .word w ∧ 'ı' ∈ w.value ∧ ∃ k ∈ ks, upper w.value = k.str := by
  obtain ⟨t, k, ht, hk', h1, h2⟩ := h
  have hm : t ∈ toks := by
    apply hs
    rcases ht with ht | ht
    · exact List.mem_append_right _ (List.mem_of_mem_head? ht)
    · exact List.mem_append_left _ (List.mem_reverse.2 (List.mem_of_mem_head? ht))
  obtain ⟨w, hw, hkw⟩ := kwOf_kw h1
  refine ⟨t, hm, w, hw, ?_, k, hk', ?_⟩
  · refine Classical.byContradiction fun hi => ?_
    rw [kw_matches h1 (hk t hm) (fun w' hw' => by rw [hw] at hw'; cases hw'; exact hi)] at h2
    cases h2
  · rw [kwOf_eq_some] at hkw
    rw [← hk t hm w hw, hkw]

/-- C65 for source texts: if the text ends with a semicolon and no word in it has a dotless i, the only places
where `ParseSQL` can panic are those of the table. -/
theorem C65_source (d : Dialect) (keep : Bool) (fuel : Nat) (src : Str) (toks : List Token)
    (ht : tokenize d keep fuel src = .ok toks) (sem : Token) (hsem : sem.isSym .Semicolon = true)
    (hlast : (toks.filter Token.sig).getLast? = some sem)
    (hi : ∀ t ∈ toks, ∀ w, t.tok = .word w → 'ı' ∉ w.value)
    (fns : FloatFns) (n : Nat) (mode : Bool) (s' : PState)
    (h : (parseSQL mode (Parsers.at fns n) n).panicAt mode (newParser toks) = some s') :
    s'.misplaced := by
  rcases C65_terminated fns n n mode (newParser toks) s' (Nat.zero_le _) sem hsem hlast h with hm | hm
  · have hk : KwOK toks := tokenizeFrom_kwOK ht
    obtain ⟨t, h1, w, h2, h3, -⟩ := C65_mismatch (toks := toks) hk (fun t h' => by
      rw [panicAt_toks mode _ _ _ (Nat.zero_le _) h] at h'
      simp only [PState.before, PState.after, newParser, List.take_zero, List.filter_nil, List.reverse_nil,
        List.nil_append, List.drop_zero] at h'
      exact (List.mem_filter.1 h').1) hm
    exact absurd h3 (hi t h1 w h2)
  · exact hm

/-- C21, a condition under which nothing panics: the text ends with a semicolon, no word has a dotless i, and at no
place between two tokens does a row of the tables hold. -/
theorem C21_safe_partial (d : Dialect) (keep : Bool) (fuel : Nat) (src : Str) (toks : List Token)
    (ht : tokenize d keep fuel src = .ok toks) (sem : Token) (hsem : sem.isSym .Semicolon = true)
    (hlast : (toks.filter Token.sig).getLast? = some sem)
    (hi : ∀ t ∈ toks, ∀ w, t.tok = .word w → 'ı' ∉ w.value)
    (hsafe : ∀ before after, toks.filter Token.sig = before.reverse ++ after → 
      ∀ c ∈ sites ++ readSites, ¬ c.holds before after)
    (fns : FloatFns) (n : Nat) (mode : Bool) : runSQL fns n mode toks ≠ .panic := by
  intro h
  have h : (parseSQL mode (Parsers.at fns n) n).run mode (newParser toks) = .panic := by
    unfold runSQL at h
    cases hr : (parseSQL mode (Parsers.at fns n) n).run mode (newParser toks) <;> rw [hr] at h <;>
      simp_all [Res.outcome]
  obtain ⟨s', h⟩ := (C65_panicAt _ _ _).1 h
  have he := panicAt_toks mode _ _ _ (Nat.zero_le _) h
  simp only [PState.before, PState.after, newParser, List.take_zero, List.filter_nil, List.reverse_nil,
    List.nil_append, List.drop_zero] at he
  rcases C65_source d keep fuel src toks ht sem hsem hlast hi fns n mode s' h with
    ⟨c, hc, h1⟩ | ⟨c, hc, t, rest, h2, h1⟩
  · exact hsafe s'.before s'.after (by rw [← he]; rfl) c (List.mem_append_left _ hc) h1
  · refine hsafe rest (t :: s'.after) ?_ c (List.mem_append_right _ hc) h1
    rw [← he]
    show s'.before.reverse ++ s'.after = _
    rw [h2]
    simp

/-! ### The rows of the tables -/

/-- `Site.holds` as a test. -/
def Site.holdsB (c : Site) (before after : List Token) : Bool :=
  (match c.seen with
    | none => true
    | some a => (if c.prev = [] then before else before.tail).any a.like) &&
  (c.prev.isEmpty || match before with
    | [] => false
    | t :: _ => c.prev.any (·.like t)) &&
  match after with
  | [] => false
  | t :: _ => c.need.all fun a => !a.is t

theorem Site.holdsB_iff (c : Site) (before after : List Token) :
    c.holdsB before after = true ↔ c.holds before after := by
  unfold Site.holdsB Site.holds
  rw [Bool.and_eq_true, Bool.and_eq_true, and_assoc]
  refine and_congr ?_ (and_congr ?_ ?_)
  · cases c.seen with
    | none => simp
    | some a => simp
  · cases before with
    | nil => simp
    | cons t l => simp
  · cases after with
    | nil => simp
    | cons t l => simp

/-- `mismatch twice` as a test. -/
def oddB (s : PState) : Bool :=
  let odd : Option Token → Bool := fun
    | none => false
    | some t => twice.any fun k => t.kw? == some k && !t.matchesKw k.str
  odd s.after.head? || odd s.before.head?

theorem oddB_of {s : PState} (h : mismatch twice s) : oddB s = true := by
  obtain ⟨t, k, ht, hk, h1, h2⟩ := h
  have h3 : (twice.any fun k => t.kw? == some k && !t.matchesKw k.str) = true :=
    List.any_eq_true.2 ⟨k, hk, by simp [h1, h2]⟩
  unfold oddB
  rcases ht with ht | ht <;> simp [ht, h3]

/-- The rows that hold in a state. -/
def heldAt (s : PState) : List Nat :=
  (List.range sites.length).filter fun n => match sites[n]? with
    | some c => c.holdsB s.before s.after
    | none => false

/-- The rows of the second table that hold just behind the last token. -/
def heldRead (s : PState) : List Nat :=
  (List.range readSites.length).filter fun n => match readSites[n]?, s.before with
    | some c, t :: rest => c.holdsB rest (t :: s.after)
    | _, _ => false

/-- `ParseSQL` panics on the text, which ends with a semicolon, in that state. -/
def Crashes (fns : FloatFns) (src : Str) (s : PState) : Prop :=
  ∃ toks sem, tokenize genericDialect true (src.length + 1) src = .ok toks ∧ sem.isSym .Semicolon = true ∧
    (toks.filter Token.sig).getLast? = some sem ∧
    (parseSQL false (Parsers.at fns (3 * toks.length + 3)) (3 * toks.length + 3)).panicAt false (newParser toks) = some s

/-- The state in which the text crashes, if it does. -/
def crash (fns : FloatFns) (src : Str) : Option PState :=
  match tokenize genericDialect true (src.length + 1) src with
  | .ok toks =>
    match (toks.filter Token.sig).getLast? with
    | some sem =>
      if sem.isSym .Semicolon then
        (parseSQL false (Parsers.at fns (3 * toks.length + 3)) (3 * toks.length + 3)).panicAt false (newParser toks)
      else none
    | none => none
  | _ => none

theorem crashes_of {fns : FloatFns} {src : Str} {s : PState} (h : crash fns src = some s) : Crashes fns src s := by
  unfold crash at h
  split at h
  · rename_i toks ht
    split at h
    · rename_i sem hl
      split at h
      · rename_i hs
        exact ⟨toks, sem, ht, hs, hl, h⟩
      · cases h
    · cases h
  · cases h

/-- For each row of `sites`, a text. -/
def rowTexts : List Str := [
  str% "CREATE x;",
  str% "CREATE MATERIALIZED x;",
  str% "CREATE VIEW x y;",
  str% "CREATE INDEX x y;",
  str% "DELETE x;",
  str% "INSERT x;",
  str% "ALTER x;",
  str% "DROP x;",
  str% "UPDATE t = 1;",
  str% "UPDATE t SET a SET;",
  str% "CREATE TABLE t (CONSTRAINT a);",
  str% "CREATE TABLE t (a int, UNIQUE);",
  str% "CREATE TABLE t (a int, PRIMARY);",
  str% "CREATE TABLE t (a int, PRIMARY KEY);",
  str% "CREATE TABLE t (FOREIGN KEY (a));",
  str% "CREATE TABLE t (FOREIGN KEY (a) REFERENCES b);",
  str% "ALTER TABLE t ADD COLUMN a double b;",
  str% "ALTER TABLE t ADD COLUMN a timestamp with b;",
  str% "ALTER TABLE t ADD COLUMN a timestamp with time AS;",
  str% "ALTER TABLE t ADD COLUMN a text[1];",
  str% "SELECT EXISTS ();",
  str% "CREATE VIEW v AS AS;",
  str% "INSERT INTO t b;",
  str% "WITH a AS (SELECT 1));",
  str% "SELECT 1 UNION b;",
  str% "SELECT 1 UNION ALL b;",
  str% "WITH time zone;",
  str% "WITH time AS AS;",
  str% "SELECT 1 FROM a CROSS b;",
  str% "SELECT 1 FROM a LEFT b;",
  str% "SELECT 1 FROM a JOIN b USING c;",
  str% "SELECT 1 FROM a JOIN b USING (c, d e);",
  str% "SELECT 1 NOT b;",
  str% "SELECT 1 IN b;",
  str% "SELECT 1 BETWEEN 1 b;",
  str% "SELECT CASE 1 b;",
  str% "SELECT CASE WHEN 1 WHEN 2;",
  str% "SELECT CAST(1 + 1);",
  str% "SELECT f() OVER (PARTITION BY a ORDER);",
  str% "SELECT f() OVER (ROWS 1);"]

/-- For each row of `readSites`, a text. -/
def readTexts : List Str := [
  str% "ALTER TABLE t ADD COLUMN 1;",
  str% "CREATE TABLE t (a int b);",
  str% "CREATE TABLE t (FOREIGN KEY (a) REFERENCES 1);",
  str% "SELECT 1 AS 1;",
  str% "SELECT , a;"]

/-- The text crashes; in the first table only row `n` holds, in the second at most that of table elements. -/
def rowOK (fns : FloatFns) (n : Nat) (src : Str) : Bool :=
  match crash fns src with
  | some s => heldAt s == [n] && (heldRead s).all (· == 1) && !oddB s
  | none => false

/-- Likewise for a row of the second table. -/
def readOK (fns : FloatFns) (n : Nat) (src : Str) : Bool :=
  match crash fns src with
  | some s => heldAt s == [] && (heldRead s).contains n && (heldRead s).all (fun m => m == n || m == 1) && !oddB s
  | none => false

theorem rowTexts_ok (fns : FloatFns) :
    ((List.range sites.length).all fun n => match rowTexts[n]? with
      | some src => rowOK fns n src
      | none => false) = true := by kernel_rfl

theorem readTexts_ok (fns : FloatFns) :
    ((List.range readSites.length).all fun n => match readTexts[n]? with
      | some src => readOK fns n src
      | none => false) = true := by kernel_rfl

theorem heldAt_mem {s : PState} {c : Site} {n : Nat} (hn : sites[n]? = some c) :
    n ∈ heldAt s ↔ c.holds s.before s.after := by
  unfold heldAt
  rw [List.mem_filter, hn, Site.holdsB_iff]
  have := (List.getElem?_eq_some_iff.1 hn).1
  simp [this]

theorem heldRead_mem {s : PState} {c : Site} {n : Nat} (hn : readSites[n]? = some c) :
    n ∈ heldRead s ↔ ∃ t rest, s.before = t :: rest ∧ c.holds rest (t :: s.after) := by
  unfold heldRead
  have := (List.getElem?_eq_some_iff.1 hn).1
  rw [List.mem_filter, hn]
  cases s.before with
  | nil => simp
  | cons t rest =>
    simp only [Site.holdsB_iff, List.mem_range, this, true_and]
    constructor
    · intro h; exact ⟨t, rest, rfl, h⟩
    · rintro ⟨t', rest', h, h'⟩; cases h; exact h'

/-- The row of table elements, which holds behind nearly every token of a table definition. -/
def elementRow : Site := ⟨some (.kw .TABLE), [], [.sym .RParen, .sym .Comma]⟩

/-- C65, every row is needed: for each row of the first table there is a text, ending with a semicolon, on which
`ParseSQL` panics and which is explained by that row and by no other, except that of table elements; likewise for
each row of the second table. -/
theorem C65_table (fns : FloatFns) :
    (∀ c ∈ sites, ∃ src s, Crashes fns src s ∧ ¬ mismatch twice s ∧ c.holds s.before s.after ∧
      (∀ c' ∈ sites, c'.holds s.before s.after → c' = c) ∧
      ∀ c' ∈ readSites, (∃ t rest, s.before = t :: rest ∧ c'.holds rest (t :: s.after)) → c' = elementRow) ∧
    ∀ c ∈ readSites, ∃ src s, Crashes fns src s ∧ ¬ mismatch twice s ∧
      (∃ t rest, s.before = t :: rest ∧ c.holds rest (t :: s.after)) ∧
      (∀ c' ∈ sites, ¬ c'.holds s.before s.after) ∧
      ∀ c' ∈ readSites, (∃ t rest, s.before = t :: rest ∧ c'.holds rest (t :: s.after)) → c' = c ∨ c' = elementRow := by
  constructor
  · intro c hc
    obtain ⟨n, hn⟩ := List.mem_iff_getElem?.1 hc
    have h := List.all_eq_true.1 (rowTexts_ok fns) n (List.mem_range.2 (List.getElem?_eq_some_iff.1 hn).1)
    split at h
    · rename_i src hsrc
      unfold rowOK at h
      split at h
      · rename_i s hs
        simp only [Bool.and_eq_true, beq_iff_eq, Bool.not_eq_true'] at h
        obtain ⟨⟨h1, h2⟩, h3⟩ := h
        refine ⟨src, s, crashes_of hs, (fun hm => by rw [oddB_of hm] at h3; cases h3), ?_, ?_, ?_⟩
        · exact (heldAt_mem hn).1 (by rw [h1]; simp)
        · intro c' hc' hh
          obtain ⟨m, hm⟩ := List.mem_iff_getElem?.1 hc'
          have := (heldAt_mem hm).2 hh
          rw [h1, List.mem_singleton] at this
          subst this
          rw [hn] at hm
          exact (Option.some.inj hm).symm
        · intro c' hc' hh
          obtain ⟨m, hm⟩ := List.mem_iff_getElem?.1 hc'
          have := List.all_eq_true.1 h2 m ((heldRead_mem hm).2 hh)
          rw [beq_iff_eq] at this
          subst this
          exact (Option.some.inj hm).symm
      · cases h
    · cases h
  · intro c hc
    obtain ⟨n, hn⟩ := List.mem_iff_getElem?.1 hc
    have h := List.all_eq_true.1 (readTexts_ok fns) n (List.mem_range.2 (List.getElem?_eq_some_iff.1 hn).1)
    split at h
    · rename_i src hsrc
      unfold readOK at h
      split at h
      · rename_i s hs
        simp only [Bool.and_eq_true, beq_iff_eq, Bool.not_eq_true', List.contains_iff_mem] at h
        obtain ⟨⟨⟨h1, h2⟩, h3⟩, h4⟩ := h
        refine ⟨src, s, crashes_of hs, (fun hm => by rw [oddB_of hm] at h4; cases h4), (heldRead_mem hn).1 h2, ?_, ?_⟩
        · intro c' hc' hh
          obtain ⟨m, hm⟩ := List.mem_iff_getElem?.1 hc'
          have := (heldAt_mem hm).2 hh
          rw [h1] at this
          cases this
        · intro c' hc' hh
          obtain ⟨m, hm⟩ := List.mem_iff_getElem?.1 hc'
          have := List.all_eq_true.1 h3 m ((heldRead_mem hm).2 hh)
          rw [Bool.or_eq_true, beq_iff_eq, beq_iff_eq] at this
          rcases this with rfl | rfl
          · rw [hn] at hm
            exact .inl (Option.some.inj hm).symm
          · exact .inr (Option.some.inj hm).symm
      · cases h
    · cases h

/-! ### Cases that meet the hypotheses -/

theorem of_map_some {o : Option α} {f : α → β} {b : β} (h : o.map f = some b) : ∃ a, o = some a ∧ f a = b := by
  cases o with
  | none => cases h
  | some a => exact ⟨a, rfl, Option.some.inj h⟩

/-- `SELECT 1`, without semicolon, panics at the end of the input. -/
example (fns : FloatFns) : ∃ s s' : PState, s.idx ≤ s.toks.length ∧
    (Parsers.at fns 9).statement.panicAt false s = some s' ∧ s'.after = [] :=
  have ⟨s', h⟩ := of_map_some (o := (Parsers.at fns 9).statement.panicAt false (newParser (textToks (str% "SELECT 1"))))
    (f := PState.after) (b := []) (by kernel_rfl)
  ⟨_, s', Nat.zero_le _, h⟩

/-- `"WıTH"` is taken for a keyword and then not read: the reason is the keyword, not a row of the tables. -/
example (fns : FloatFns) : ∃ s', Crashes fns (str% "\"WıTH\" a;") s' ∧ mismatch twice s' := by
  have h := of_map_some (o := crash fns (str% "\"WıTH\" a;"))
    (f := fun s => s.after.head?.map (fun t => (t.kw?, t.matchesKw KW.WITH.str))) (b := some (some .WITH, false))
    (by kernel_rfl)
  obtain ⟨s', h1, h2⟩ := h
  refine ⟨s', crashes_of h1, ?_⟩
  cases h3 : s'.after.head? with
  | none => rw [h3] at h2; cases h2
  | some t =>
    rw [h3] at h2
    simp only [Option.map_some, Option.some.injEq, Prod.mk.injEq] at h2
    exact ⟨t, .WITH, .inl h3, by decide, h2.1, h2.2⟩

/-- The hypotheses of `C21_safe_partial` as a test. -/
def safeB (toks : List Token) : Bool :=
  let l := toks.filter Token.sig
  (match l.getLast? with | some t => t.isSym .Semicolon | none => false) &&
  toks.all (fun t => match t.tok with | .word w => !w.value.contains 'ı' | _ => true) &&
  (List.range (l.length + 1)).all fun n => (sites ++ readSites).all fun c => !c.holdsB (l.take n).reverse (l.drop n)

theorem safe_of {src : Str} {toks : List Token} (ht : tokenize genericDialect true (src.length + 1) src = .ok toks)
    (h : safeB toks = true) (fns : FloatFns) (n : Nat) (mode : Bool) : runSQL fns n mode toks ≠ .panic := by
  unfold safeB at h
  simp only [Bool.and_eq_true, List.all_eq_true, Bool.not_eq_true', List.mem_range] at h
  obtain ⟨⟨h1, h2⟩, h3⟩ := h
  split at h1
  · rename_i sem hl
    refine C21_safe_partial _ _ _ _ _ ht sem h1 hl ?_ ?_ fns n mode
    · intro t ht w hw hi
      have := h2 t ht
      rw [hw] at this
      simp [hi] at this
    · intro before after he c hc hh
      have := h3 before.length (by rw [he]; simp; omega) c hc
      rw [he, ← List.length_reverse, List.take_left, List.drop_left, List.reverse_reverse,
        (Site.holdsB_iff _ _ _).2 hh] at this
      cases this
  · cases h1

example (fns : FloatFns) (n : Nat) (mode : Bool) :
    runSQL fns n mode (textToks (str% "SELECT a, -b AS c FROM t LEFT JOIN u ON a = 1 WHERE b LIKE c ORDER BY a FROM;")) ≠ .panic :=
  safe_of (src := str% "SELECT a, -b AS c FROM t LEFT JOIN u ON a = 1 WHERE b LIKE c ORDER BY a FROM;")
    (by kernel_rfl) (by kernel_rfl) fns n mode

end Verif
