import Verif.Proofs.ReadStmt3
import Verif.Props.RoundTrip
import Verif.Props.Grammar
/-
Property theorems C54: every sentence of the grammar of Verif/Spec/Grammar.lean (without the rules marked as quirks that
need `q.cross`, `q.as` or `q.odd`) is read by the parser as the tree it is a sentence of.  This is the converse of C50.

`shape freeWord` (Verif/Spec/Shape.lean) says which trees are meant: those whose nodes are such as the parser makes them
and whose names are not keywords, but for 66 keywords for which the parser does not look where a name may stand (`KW.free`).  The parser stores a wrong position in one place (a BIGINT
carries the position of the token that follows it, see DESIGN.md section 5), so the trees agree up to positions; C50
describes the positions.
-/
set_option maxRecDepth 100000
namespace Verif
open Spec

/-! ### Letters -/

/-- Three letters beyond ASCII belong, for one of Go's two ways to ignore case, to an ASCII letter: the dotless i, the
long s and the Kelvin sign. -/
def oddLetter (c : Char) : Bool := c == 'ı' || c == 'ſ' || c == 'K'

/-- No word of the input contains one of these letters. -/
def NoOddLetters (toks : List Token) : Prop := ∀ t ∈ toks, ∀ w, t.tok = .word w → ∀ c ∈ w.value, oddLetter c = false

theorem fold_iff_upper {c k : Char} (hc : oddLetter c = false) (hk : k.toNat < 128 ∧ ¬ (97 ≤ k.toNat ∧ k.toNat ≤ 122)) :
    foldC c = foldC k ↔ upperC c = k := by
  have table : ∀ i < 128, ∀ j < 128, ¬ (97 ≤ j ∧ j ≤ 122) →
      (foldC (Char.ofNat i) = foldC (Char.ofNat j) ↔ upperC (Char.ofNat i) = Char.ofNat j) := by decide +kernel
  by_cases h : c.toNat < 128
  · have := table c.toNat h k.toNat hk.1 hk.2
    rwa [Char.ofNat_toNat, Char.ofNat_toNat] at this
  · have small : ∀ j < 128, (foldC (Char.ofNat j)).toNat < 128 := by decide +kernel
    have hs := small k.toNat hk.1
    rw [Char.ofNat_toNat] at hs
    simp only [oddLetter, Bool.or_eq_false_iff, beq_eq_false_iff_ne] at hc
    have hA : ¬ ('A' ≤ c ∧ c ≤ 'Z') := by
      intro hx; have : c.toNat ≤ 90 := hx.2; omega
    have ha : ¬ ('a' ≤ c ∧ c ≤ 'z') := by
      intro hx; have : c.toNat ≤ 122 := hx.2; omega
    rw [foldC, upperC, if_neg hA, if_neg hc.1.2, if_neg hc.2, if_neg ha, if_neg hc.1.1, if_neg hc.1.2]
    constructor
    · intro h'; rw [← h'] at hs; omega
    · intro h'; subst h'; exact absurd hk.1 h

theorem kw_letters (k : KW) : ∀ c ∈ k.str, c.toNat < 128 ∧ ¬ (97 ≤ c.toNat ∧ c.toNat ≤ 122) := by
  have : ∀ k ∈ KW.all, ∀ c ∈ k.str, c.toNat < 128 ∧ ¬ (97 ≤ c.toNat ∧ c.toNat ≤ 122) := by decide +kernel
  exact this k (KW.mem_all k)

theorem equalFold_iff_upper : ∀ {v k : Str}, (∀ c ∈ v, oddLetter c = false) →
    (∀ c ∈ k, c.toNat < 128 ∧ ¬ (97 ≤ c.toNat ∧ c.toNat ≤ 122)) → (equalFold v k = true ↔ upper v = k)
  | [], [], _, _ => by simp [equalFold, upper]
  | [], _ :: _, _, _ => by simp [equalFold, upper]
  | _ :: _, [], _, _ => by simp [equalFold, upper]
  | c :: v, x :: k, hv, hk => by
    have h1 := fold_iff_upper (hv c (by simp)) (hk x (by simp))
    have h2 := equalFold_iff_upper (v := v) (k := k) (fun c h => hv c (by simp [h])) (fun c h => hk c (by simp [h]))
    simp only [equalFold, beq_iff_eq, upper, List.map_cons, List.cons.injEq] at h2 ⊢
    rw [h1, h2]

theorem regular_of {toks : List Token} (hk : KwOK toks) (ho : NoOddLetters toks) : ∀ t ∈ significant toks, Regular t.tok := by
  intro t ht w hw
  have ht := (List.mem_filter.1 ht).1
  exact ⟨hk t ht w hw, fun k => equalFold_iff_upper (ho t ht w hw) (kw_letters k)⟩

/-! ### From the tokens without positions to the tokens -/

theorem run_of_runZ [Erases α] {toks : List Token} (hk : KwOK toks) {p : Nat → P α} {x : α} (hsim : ∀ n, P.Sim (p n) (p n)) (mode : Bool)
    (hb : ∀ toks : List Token, KwOK toks → ∀ n n', 3 * toks.length + 3 ≤ n → n ≤ n' →
      ((p n).run mode (newParser toks)).outcome = ((p n').run mode (newParser toks)).outcome)
    (hp : Ev fun m => ((p m).runZ [] (Z ((significant toks).map (·.tok)))).outcome = .ok x ()) {n : Nat} (hn : 3 * toks.length + 3 ≤ n) :
    ∃ y, ((p n).run mode (newParser toks)).outcome = .ok y () ∧ er y = er x := by
  obtain ⟨n0, hn0⟩ := hp
  rw [show (significant toks).map (·.tok) = sg (toks.map (·.tok)) from filter_sig_tok toks] at hn0
  have h1 : ((p (max n n0)).run mode (newParser (Z (sg (toks.map (·.tok)))))).outcome = .ok x () := by
    rw [outcome_runZ, Z_filter]
    exact hn0 _ (Nat.le_max_right ..)
  have h2 := same_outcome (hsim (max n n0)) mode (toks := toks) (toks' := Z (sg (toks.map (·.tok))))
    (by rw [filter_sig_tok, filter_sig_tok, Z_tok, sg_sg])
  rw [h1, ← hb toks hk n _ hn (Nat.le_max_left ..)] at h2
  exact mapVal_ok h2

/-- The sentence of a statement is not empty. -/
theorem Stmt.reads_ne {fns : FloatFns} {s : Stmt} {ks : List Tok} (h : ReadsSt fns s ks) : ks ≠ [] := by
  rintro rfl
  obtain ⟨n, hn⟩ := h
  have := hn (n + 1) (by omega) [] [semi] rfl
  exact absurd this (by
    simp only [List.nil_append, Z_cons]
    exact statement_semi (t := zt semi) rfl _ _)

theorem read_statements {fns : FloatFns} : ∀ {ss : List Stmt}, (∀ s ∈ ss, s.shape freeWord = true) → ∀ {ks : List Tok},
    K (concat (ss.map fun s => s.lang fns clean ⬝ sym .Semicolon)) ks →
    Ev fun m => ∀ b : List Token, Splits (Parsers.at fns m).statement b (Z ks) (ss.map Stmt.erase)
  | [], _, ks, h => by
    simp only [List.map_nil, concat] at h
    drop_ h with -
    exact Ev.of fun _ b => .nil b
  | s :: ss, hw, ks, h => by
    simp only [List.map_cons, concat] at h
    replace h := K.assoc h
    obtain ⟨k1, v, rfl, h1, h'⟩ := K.cat h
    obtain ⟨t, k2, rfl, ⟨x, rfl⟩, h''⟩ := K.eat h'
    have hs := Stmt.reads s (hw s (by simp)) _ h1
    have hne := Stmt.reads_ne hs
    refine (hs.and (read_statements (ss := ss) (fun s hs => hw s (by simp [hs])) h'')).mono ?_
    intro m hm b
    have hp := hm.1 b (.sym .Semicolon x :: k2) rfl
    have hz : ∀ ts us, Z (ts ++ us) = Z ts ++ Z us := by simp [Z]
    rw [hz, Z_cons] at hp ⊢
    rw [R] at hp
    exact .cons (by simpa [Z] using hne) rfl hp (hm.2 _)

theorem read_sql {fns : FloatFns} {ss : List Stmt} (hw : ∀ s ∈ ss, s.shape freeWord = true) {ks : List Tok}
    (h : K (scriptLang fns clean ss) ks) (mode : Bool) :
    Ev fun m => ((parseSQL mode (Parsers.at fns m) m).runZ [] (Z ks)).outcome = .ok (ss.map Stmt.erase) () := by
  obtain ⟨k1, k2, rfl, hl, h⟩ := K.cat h
  obtain ⟨n0, hn0⟩ := read_statements hw h
  have hlead : LeadSemi (Z k1) := by
    rcases K.opt hl with rfl | hl
    · exact .inl rfl
    · obtain ⟨t, rfl, x, rfl⟩ := K.eat1 hl
      exact .inr ⟨_, rfl, rfl⟩
  refine ⟨n0 + ss.length + 1, fun m hm => ?_⟩
  have h1 := hn0 m (by omega) (Z k1)
  have h2 := splits_start h1
  obtain ⟨st, hst⟩ := h1.sql hlead (fun _ => h2) m (by simp; omega)
  have hz : ∀ ts us, Z (ts ++ us) = Z ts ++ Z us := by simp [Z]
  rw [hz]
  show ((parseSQLLoop mode _ m false).runZ [] _).outcome = _
  cases mode
  · rw [hst]; rfl
  · rw [parseSQLLoop_mode, hst]; rfl

/-! ### C54 -/

/-- C54: `ParseSQL` reads every list of statements that the grammar allows as the statements it consists of. -/
theorem C54_script_complete (fns : FloatFns) (mode : Bool) (toks : List Token) (hk : KwOK toks) (ho : NoOddLetters toks)
    (ss : List Stmt) (hs : ∀ s ∈ ss, s.shape freeWord = true)
    (h : scriptLang fns ⟨false, false, false⟩ ss (significant toks)) (n : Nat) (hn : 3 * toks.length + 3 ≤ n) :
    ∃ ss', runSQL fns n mode toks = .ok ss' () ∧ ss'.map Stmt.erase = ss.map Stmt.erase := by
  obtain ⟨y, h1, h2⟩ := run_of_runZ (α := List Stmt) hk (p := fun n => parseSQL mode (Parsers.at fns n) n)
    (fun n => sim_parseSQLLoop (sim_at fns n) mode n false) mode
    (fun toks hk n n' hn hn' => (budget_le fns mode toks hk hn hn').2.2.2)
    (read_sql hs ⟨_, h, regular_of hk ho, rfl⟩ mode) hn
  refine ⟨y, h1, ?_⟩
  have h2 : y.map Stmt.erase = (ss.map Stmt.erase).map Stmt.erase := h2
  rw [h2, map_erase_erase _ Stmt.erase_erase]

/-- C54 for `ParseStatement`: the statement may be followed by anything that begins with a semicolon. -/
theorem C54_statement_complete (fns : FloatFns) (mode : Bool) (toks : List Token) (hk : KwOK toks) (ho : NoOddLetters toks)
    (s : Stmt) (hs : s.shape freeWord = true) (read rest : List Token) (semi : Token) (x : Str) (hsemi : semi.tok = .sym .Semicolon x)
    (hr : significant toks = read ++ semi :: rest) (h : s.lang fns ⟨false, false, false⟩ read) (n : Nat) (hn : 3 * toks.length + 3 ≤ n) :
    ∃ s', runStatement fns n mode toks = .ok s' () ∧ s'.erase = s.erase := by
  have hreg := regular_of hk ho
  obtain ⟨y, h1, h2⟩ := run_of_runZ (α := Stmt) hk (p := fun n => (Parsers.at fns n).statement)
    (fun n => (sim_at fns n).statement) mode
    (fun toks hk n n' hn hn' => (budget_le fns mode toks hk hn hn').1) (x := s.erase) (by
      refine (Stmt.reads s hs _ ⟨_, h, fun t ht => hreg t (by rw [hr]; simp [ht]), rfl⟩).mono fun m hm => ?_
      have := hm [] ((semi :: rest).map (·.tok)) (by simp [hsemi, hd, fk])
      rw [hr, List.map_append, this]
      rfl) hn
  refine ⟨y, h1, ?_⟩
  have h2 : y.erase = s.erase.erase := h2
  rw [h2, Stmt.erase_erase]

/-- C54 for `ParseExpr`.  (The semicolon is needed because the parser fails at the end of the input after a type, as in
`a::int`.) -/
theorem C54_expr_complete (fns : FloatFns) (mode : Bool) (toks : List Token) (hk : KwOK toks) (ho : NoOddLetters toks)
    (e : Expr) (he : e.shape freeWord = true) (read rest : List Token) (semi : Token) (x : Str) (hsemi : semi.tok = .sym .Semicolon x)
    (hr : significant toks = read ++ semi :: rest) (h : e.lang fns ⟨false, false, false⟩ read) (n : Nat) (hn : 3 * toks.length + 3 ≤ n) :
    ∃ e', runExpr fns n mode toks = .ok e' () ∧ e'.erase = e.erase := by
  have hreg := regular_of hk ho
  obtain ⟨y, h1, h2⟩ := run_of_runZ (α := Expr) hk (p := fun n => (Parsers.at fns n).subexpr 0)
    (fun n => (sim_at fns n).subexpr 0) mode
    (fun toks hk n n' hn hn' => (budget_le fns mode toks hk hn hn').2.1) (x := e.erase) (by
      refine (Expr.readsE he _ ⟨_, h, fun t ht => hreg t (by rw [hr]; simp [ht]), rfl⟩).mono fun m hm => ?_
      have := hm [] ((semi :: rest).map (·.tok)) (by simp [hsemi, hd, fk]; rfl)
      rw [hr, List.map_append, this]
      rfl) hn
  refine ⟨y, h1, ?_⟩
  have h2 : y.erase = e.erase.erase := h2
  rw [h2, Expr.erase_erase]

/-- C54 for `ParseDataType`: the type is followed by a semicolon. -/
theorem C54_dataType_complete (fns : FloatFns) (mode : Bool) (toks : List Token) (hk : KwOK toks) (ho : NoOddLetters toks)
    (t : DataType) (hs : t.shape freeWord = true) (read rest : List Token) (semi : Token) (x : Str) (hsemi : semi.tok = .sym .Semicolon x)
    (hr : significant toks = read ++ semi :: rest) (h : t.lang read) (n : Nat) (hn : 3 * toks.length + 3 ≤ n) :
    ∃ t', runDataType fns n mode toks = .ok t' () ∧ t'.erase = t.erase := by
  have hreg := regular_of hk ho
  obtain ⟨y, h1, h2⟩ := run_of_runZ (α := DataType) hk (p := fun n => parseDataType (Parsers.at fns n))
    (fun n => sim_parseDataType (sim_at fns n)) mode
    (fun toks hk n n' hn hn' => (budget_le fns mode toks hk hn hn').2.2.1) (x := t.erase) (by
      refine (read_dataType (fns := fns) hs ⟨_, h, fun t ht => hreg t (by rw [hr]; simp [ht]), rfl⟩).mono fun m hm => ?_
      have := hm [] ((semi :: rest).map (·.tok)) (by simp [hsemi, hd, fk]; rfl)
      rw [hr, List.map_append, this]
      rfl) hn
  refine ⟨y, h1, ?_⟩
  have h2 : y.erase = t.erase.erase := h2
  rw [h2, DataType.erase_erase]

/-- C54, the grammar is unambiguous: two lists of statements with a sentence in common are equal up to positions. -/
theorem C54_unambiguous (fns : FloatFns) (toks : List Token) (hk : KwOK toks) (ho : NoOddLetters toks) (ss ss' : List Stmt)
    (hs : ∀ s ∈ ss, s.shape freeWord = true) (hs' : ∀ s ∈ ss', s.shape freeWord = true)
    (h : scriptLang fns ⟨false, false, false⟩ ss (significant toks))
    (h' : scriptLang fns ⟨false, false, false⟩ ss' (significant toks)) : ss.map Stmt.erase = ss'.map Stmt.erase := by
  obtain ⟨x, h1, h2⟩ := C54_script_complete fns false toks hk ho ss hs h _ (Nat.le_refl _)
  obtain ⟨y, h3, h4⟩ := C54_script_complete fns false toks hk ho ss' hs' h' _ (Nat.le_refl _)
  rw [h1] at h3
  cases h3
  rw [← h2, ← h4]

/-- C54 for `ParseFile` and the text of a file. -/
theorem C54_file_complete (fns : FloatFns) (mode : Bool) (d : Dialect) (fuel : Nat) (src : Str) (toks : List Token)
    (ht : tokenize d true fuel src = .ok toks) (ho : NoOddLetters toks) (ss : List Stmt) (hs : ∀ s ∈ ss, s.shape freeWord = true)
    (h : scriptLang fns ⟨false, false, false⟩ ss (significant toks)) (n : Nat) (hn : 3 * toks.length + 3 ≤ n) :
    ∃ f st, parseFile fns n mode (newParser toks) = .ok f st ∧ f.stmts.map Stmt.erase = ss.map Stmt.erase := by
  obtain ⟨ss', h1, h2⟩ := C54_script_complete fns mode toks (tokenizeFrom_kwOK ht) ho ss hs h n hn
  unfold runSQL at h1
  obtain ⟨st, hst⟩ := outcome_ok h1
  unfold parseFile
  rw [hst]
  exact ⟨_, _, rfl, h2⟩

/-! ### A case that meets the hypotheses -/

theorem cat_cons {a b : Lang} {t : Token} {ts : List Token} (ha : a [t]) (hb : b ts) : (a ⬝ b) (t :: ts) :=
  ⟨[t], ts, rfl, ha, hb⟩

/-- A text with words in lower case, spaces and a quoted name. -/
def deleteText : Str := str% "delete FROM t WHERE a AND \"b\";"

def deleteToks : List Token :=
  [⟨.word ⟨str% "delete", none, str% "DELETE"⟩, ⟨1, 1⟩, ⟨1, 7⟩⟩, ⟨.whitespace [' '], ⟨1, 7⟩, ⟨1, 8⟩⟩,
   ⟨.word ⟨str% "FROM", none, str% "FROM"⟩, ⟨1, 8⟩, ⟨1, 12⟩⟩, ⟨.whitespace [' '], ⟨1, 12⟩, ⟨1, 13⟩⟩,
   ⟨.word ⟨str% "t", none, str% "T"⟩, ⟨1, 13⟩, ⟨1, 14⟩⟩, ⟨.whitespace [' '], ⟨1, 14⟩, ⟨1, 15⟩⟩,
   ⟨.word ⟨str% "WHERE", none, str% "WHERE"⟩, ⟨1, 15⟩, ⟨1, 20⟩⟩, ⟨.whitespace [' '], ⟨1, 20⟩, ⟨1, 21⟩⟩,
   ⟨.word ⟨str% "a", none, str% "A"⟩, ⟨1, 21⟩, ⟨1, 22⟩⟩, ⟨.whitespace [' '], ⟨1, 22⟩, ⟨1, 23⟩⟩,
   ⟨.word ⟨str% "AND", none, str% "AND"⟩, ⟨1, 23⟩, ⟨1, 26⟩⟩, ⟨.whitespace [' '], ⟨1, 26⟩, ⟨1, 27⟩⟩,
   ⟨.word ⟨str% "b", some '"', str% "B"⟩, ⟨1, 27⟩, ⟨1, 30⟩⟩, ⟨.sym .Semicolon [';'], ⟨1, 30⟩, ⟨1, 31⟩⟩]

def deleteCond : Expr :=
  .binary (.ident ⟨str% "a", ⟨1, 21⟩, ⟨1, 22⟩⟩) ⟨.And, ⟨1, 23⟩, ⟨1, 26⟩⟩ (.ident ⟨str% "\"b\"", ⟨1, 27⟩, ⟨1, 30⟩⟩)

def deleteStmt : Stmt := .delete ⟨1, 1⟩ ⟨[⟨str% "t", ⟨1, 13⟩, ⟨1, 14⟩⟩]⟩ (some deleteCond)

theorem deleteText_toks : tokenize genericDialect true 40 deleteText = .ok deleteToks := by decide +kernel

theorem deleteCond_lang (fns : FloatFns) (q : Quirks) : deleteCond.lang fns q ((significant deleteToks).drop 4 |>.take 3) :=
  cat_cons ⟨_, _, rfl, rfl, rfl, rfl, rfl, by decide⟩
    (cat_cons ⟨⟨⟨_, _, rfl, rfl, .inr rfl⟩, [], _, rfl, rfl⟩, _, [], rfl, rfl⟩ ⟨_, _, rfl, rfl, rfl, rfl, rfl, by decide⟩)

theorem deleteStmt_lang (fns : FloatFns) (q : Quirks) : deleteStmt.lang fns q ((significant deleteToks).take 7) :=
  cat_cons ⟨⟨_, _, rfl, rfl, .inr rfl⟩, _, _, rfl, rfl⟩ (cat_cons ⟨_, _, rfl, rfl, .inr rfl⟩
    (cat_cons ⟨_, _, rfl, rfl, rfl, rfl, rfl, by simp⟩ (cat_cons ⟨_, _, rfl, rfl, .inr rfl⟩ (deleteCond_lang fns q))))

theorem deleteToks_letters : NoOddLetters deleteToks := by
  have : deleteToks.all (fun t => match t.tok with
    | .word w => w.value.all fun c => !oddLetter c
    | _ => true) = true := by decide +kernel
  intro t ht w hw
  have := List.all_eq_true.1 this t ht
  rw [hw] at this
  simpa using this

/-- The hypotheses of all theorems above are met by the text. -/
example (fns : FloatFns) : tokenize genericDialect true 40 deleteText = .ok deleteToks ∧ NoOddLetters deleteToks ∧
    (∀ s ∈ [deleteStmt], s.shape freeWord = true) ∧ scriptLang fns ⟨false, false, false⟩ [deleteStmt] (significant deleteToks) ∧
    deleteStmt.lang fns ⟨false, false, false⟩ ((significant deleteToks).take 7) ∧
    significant deleteToks = (significant deleteToks).take 7 ++ ⟨.sym .Semicolon [';'], ⟨1, 30⟩, ⟨1, 31⟩⟩ :: [] :=
  ⟨deleteText_toks, deleteToks_letters, by simp; decide +kernel,
    ⟨[], _, rfl, .inl rfl, _, [], (List.append_nil _).symm, ⟨_, [_], rfl, deleteStmt_lang fns _, _, _, rfl, rfl⟩, rfl⟩,
    deleteStmt_lang fns _, rfl⟩

/-- The same for an expression: `a AND "b";` -/
example (fns : FloatFns) : deleteCond.shape freeWord = true ∧
    significant (deleteToks.drop 8) = ((significant deleteToks).drop 4 |>.take 3) ++ [⟨.sym .Semicolon [';'], ⟨1, 30⟩, ⟨1, 31⟩⟩] ∧
    deleteCond.lang fns ⟨false, false, false⟩ ((significant deleteToks).drop 4 |>.take 3) :=
  ⟨by decide +kernel, rfl, deleteCond_lang fns _⟩

/-- And for a type: `double precision;` -/
example : DataType.lang (.double ⟨1, 1⟩ ⟨1, 17⟩) [⟨.word ⟨str% "double", none, str% "DOUBLE"⟩, ⟨1, 1⟩, ⟨1, 7⟩⟩,
    ⟨.word ⟨str% "precision", none, str% "PRECISION"⟩, ⟨1, 8⟩, ⟨1, 17⟩⟩] ∧
    DataType.shape freeWord (.double ⟨1, 1⟩ ⟨1, 17⟩) = true :=
  ⟨cat_cons ⟨⟨_, _, rfl, rfl, .inr rfl⟩, _, _, rfl, rfl⟩ ⟨⟨_, _, rfl, rfl, .inr rfl⟩, [], _, rfl, rfl⟩, rfl⟩

end Verif
