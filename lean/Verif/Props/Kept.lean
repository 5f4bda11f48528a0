import Verif.Proofs.Kept
import Verif.Proofs.Floats
import Verif.Props.Quotes
import Verif.Props.Complete
import Verif.Props.Grammar
import Verif.Props.Script
import Verif.Props.Strconv
/-
Property theorem C78: printing invents nothing.

A character that the printer does not write on its own (`own` in Verif/Spec/Kept.lean lists those that it does) occurs
in what is printed for an accepted text at most as often as in the text.
-/
set_option maxRecDepth 100000
namespace Verif
open Spec

/-- No number is printed with more of these characters than it was written with.  (True of `strconv`: `goFloats_keeps`.) -/
def FloatFns.Keeps (fns pns : FloatFns) (c : Char) : Prop :=
  ∀ s v, '.' ∈ s → fns.parse s = some v → (pns.format v).count c ≤ s.count c

/-! ### The tokens of a text -/

section
variable {κ : Kept}

theorem cnt_escape : ∀ s : Str, κ.cnt s ≤ κ.cnt (escape s)
  | [] => Nat.le_refl _
  | c :: cs => by
    have := cnt_escape cs
    unfold escape
    split
    · rename_i h; subst h; simp only [cnt_cons]; omega
    · simp only [cnt_cons]; omega

theorem tokCnt_le {d : Dialect} {t : Tok} {piece : Str} (h : Spells d t piece) : tokCnt κ t ≤ κ.cnt piece := by
  cases h with
  | word c w => simp only [tokCnt, SQLWord.string]; omega
  | delim q w =>
    simp only [tokCnt, SQLWord.string, cnt_cons, cnt_append]
    split <;> simp only [cnt_cons, cnt_append, cnt_nil] <;> omega
  | number c w => exact Nat.le_refl _
  | single s =>
    have := cnt_escape (κ := κ) s
    simp only [tokCnt, cnt_cons, cnt_append, cnt_nil]; omega
  | national s =>
    have := cnt_escape (κ := κ) s
    simp only [tokCnt, cnt_cons, cnt_append, cnt_nil]; omega
  | sym k text h =>
    cases k <;> simp [symText] at h <;> (try rcases h with rfl | rfl) <;> (try subst h) <;>
      simp [tokCnt, Kept.sym]
  | _ => exact Nat.zero_le _

theorem toksCnt_le {d : Dialect} {keep : Bool} {fuel : Nat} {src : Str} {toks : List Token}
    (ht : tokenize d keep fuel src = .ok toks) : toksCnt κ (significant toks) ≤ κ.cnt src := by
  obtain ⟨all, s', h1, h2, rfl⟩ := tokenize_ok_inv ht
  obtain ⟨tps, rfl, i2, i3, -⟩ := h1.pieces
  have hs : src = tps.flatMap (·.2) := by simpa [h2] using i2
  have hsig : significant (filterTok keep (tps.map (·.1))) = significant (tps.map (·.1)) := by
    cases keep <;> simp [filterTok, significant]
  rw [hsig, hs]
  clear h1 h2 i2 hs hsig ht
  induction tps with
  | nil => exact Nat.zero_le _
  | cons x tps ih =>
    have h1 := ih fun y hy => i3 y (by simp [hy])
    have h2 := tokCnt_le (κ := κ) (i3 x (by simp))
    simp only [List.map_cons, List.flatMap_cons, cnt_append, significant, List.filter_cons]
    split
    · simp only [toksCnt, List.map_cons, List.sum_cons] at h1 ⊢
      simp only [significant] at h1
      omega
    · simp only [significant] at h1
      omega

theorem toksCnt_prefix {all read rest : List Token} (h : all = read ++ rest) : toksCnt κ read ≤ toksCnt κ all := by
  rw [h, toksCnt_append]; omega

theorem FloatFns.Keeps.cnt {fns pns : FloatFns} (h : fns.Keeps pns κ.char) :
    ∀ s v, '.' ∈ s → fns.parse s = some v → κ.cnt (pns.format v) ≤ κ.cnt s := by
  intro s v hd hv
  rw [κ.cnt_eq, κ.cnt_eq]
  exact h s v hd hv

end

theorem kept_script {fns pns : FloatFns} {c : Char} (hc : own c = false) (hf : fns.Keeps pns c) (n fuel : Nat)
    (mode keep : Bool) (d : Dialect) (src : Str) (toks : List Token) (ht : tokenize d keep fuel src = .ok toks)
    (ss : List Stmt) (h : runSQL fns n mode toks = .ok ss ()) :
    (ss.map fun s => (((Node.stmt s).toSQLString pns) ++ [';']).count c).sum ≤ src.count c := by
  have hl := C50_script_grammar fns n mode toks (tokenizeFrom_kwOK ht) ss h
  have h1 := Keeps.statements (κ := ⟨c, hc⟩) _ hf.cnt ss _ hl
  have h2 := toksCnt_le (κ := ⟨c, hc⟩) ht
  rw [← Kept.cnt_eq ⟨c, hc⟩ src]
  refine Nat.le_trans (Nat.le_of_eq ?_) (Nat.le_trans h1 h2)
  congr 1
  refine List.map_congr_left fun s _ => ?_
  rw [← Kept.cnt_eq ⟨c, hc⟩, Node.toSQLString_eq, Node.wt, cnt_append, cnt_cons, cnt_nil]; rfl

theorem kept_statement {fns pns : FloatFns} {c : Char} (hc : own c = false) (hf : fns.Keeps pns c) (n fuel : Nat)
    (mode keep : Bool) (d : Dialect) (src : Str) (toks : List Token) (ht : tokenize d keep fuel src = .ok toks) (s : Stmt)
    (h : runStatement fns n mode toks = .ok s ()) : ((Node.stmt s).toSQLString pns).count c ≤ src.count c := by
  obtain ⟨read, rest, h1, h2⟩ := C50_statement_grammar fns n mode toks (tokenizeFrom_kwOK ht) s h
  have h3 := Stmt.keeps (κ := ⟨c, hc⟩) _ hf.cnt s _ h2
  have h4 := toksCnt_le (κ := ⟨c, hc⟩) ht
  have h5 := toksCnt_prefix (κ := ⟨c, hc⟩) h1
  rw [Node.toSQLString_eq, Node.wt, ← Kept.cnt_eq ⟨c, hc⟩, ← Kept.cnt_eq ⟨c, hc⟩]
  omega

theorem kept_expr {fns pns : FloatFns} {c : Char} (hc : own c = false) (hf : fns.Keeps pns c) (n fuel : Nat)
    (mode keep : Bool) (d : Dialect) (src : Str) (toks : List Token) (ht : tokenize d keep fuel src = .ok toks) (e : Expr)
    (h : runExpr fns n mode toks = .ok e ()) : ((Node.expr e).toSQLString pns).count c ≤ src.count c := by
  obtain ⟨read, rest, h1, h2⟩ := C50_expr_grammar fns n mode toks (tokenizeFrom_kwOK ht) e h
  have h3 := Expr.keeps (κ := ⟨c, hc⟩) _ hf.cnt e _ h2
  have h4 := toksCnt_le (κ := ⟨c, hc⟩) ht
  have h5 := toksCnt_prefix (κ := ⟨c, hc⟩) h1
  rw [Node.toSQLString_eq, Node.wt, ← Kept.cnt_eq ⟨c, hc⟩, ← Kept.cnt_eq ⟨c, hc⟩]
  omega

/-! ### The numbers of Go -/

theorem goFloats_keeps {c : Char} (hc : own c = false) : goFloats.Keeps goFloats c := by
  intro s v hd h
  have hp := (C77_parsed h).1
  obtain ⟨_, _, _, _, _, ht, _⟩ := format_text hp
  obtain ⟨i, f, h1, h2, h3, h4, -, -⟩ := decimalText_iff.1 ht
  have hdig : ∀ l : Str, l.all isDigit = true → l.count c = 0 := by
    intro l hl
    refine List.count_eq_zero.2 fun hm => ?_
    have h5 := List.all_eq_true.1 hl c hm
    simp only [isDigit, Bool.and_eq_true, decide_eq_true_eq] at h5
    have h6 : 48 ≤ c.toNat ∧ c.toNat ≤ 57 := h5
    have : own c = true := by simp [own]; omega
    rw [hc] at this
    cases this
  rcases h4 with ⟨h4, -⟩ | h4
  · rw [h4, hdig i h2]; exact Nat.zero_le _
  · rw [h4]
    have : ('.' :: f).count c = (if '.' = c then 1 else 0) := by
      rw [List.count_cons, hdig f h3]; simp
    rw [List.count_append, hdig i h2, this]
    split
    · rename_i e; subst e
      have := List.count_pos_iff.2 hd
      omega
    · omega

/-! ### C78 -/

/-- C78 for `ParseFile`. -/
theorem C78_file {c : Char} (hc : own c = false) (n fuel : Nat) (mode keep : Bool) (d : Dialect) (src : Str)
    (toks : List Token) (ht : tokenize d keep fuel src = .ok toks) (f : File) (s : PState)
    (h : parseFile goFloats n mode (newParser toks) = .ok f s) :
    ((Node.file f).toSQLString goFloats).count c ≤ src.count c := by
  have hl : scriptLang goFloats ⟨true, false, true⟩ f.stmts (significant toks) := by
    refine C50_script_grammar goFloats n mode toks (tokenizeFrom_kwOK ht) f.stmts ?_
    unfold parseFile at h
    split at h
    · rename_i stmts s' hs
      cases h
      simp only [runSQL, hs, Res.outcome]
    all_goals cases h
  have h1 := Keeps.script (κ := ⟨c, hc⟩) _ (goFloats_keeps hc).cnt f.stmts _ hl
  have h2 := toksCnt_le (κ := ⟨c, hc⟩) ht
  rw [Node.toSQLString_eq, ← Kept.cnt_eq ⟨c, hc⟩, ← Kept.cnt_eq ⟨c, hc⟩]
  simp only [Node.wt, File.wt, Wt.text]
  omega

/-- C78 for `ParseSQL`: all statements together, each with a semicolon behind it. -/
theorem C78_script {c : Char} (hc : own c = false) (n fuel : Nat) (mode keep : Bool) (d : Dialect) (src : Str)
    (toks : List Token) (ht : tokenize d keep fuel src = .ok toks) (ss : List Stmt)
    (h : runSQL goFloats n mode toks = .ok ss ()) :
    (ss.map fun s => (((Node.stmt s).toSQLString goFloats) ++ [';']).count c).sum ≤ src.count c :=
  kept_script hc (goFloats_keeps hc) n fuel mode keep d src toks ht ss h

/-- C78 for `ParseStatement`. -/
theorem C78_statement {c : Char} (hc : own c = false) (n fuel : Nat) (mode keep : Bool) (d : Dialect) (src : Str)
    (toks : List Token) (ht : tokenize d keep fuel src = .ok toks) (s : Stmt)
    (h : runStatement goFloats n mode toks = .ok s ()) : ((Node.stmt s).toSQLString goFloats).count c ≤ src.count c :=
  kept_statement hc (goFloats_keeps hc) n fuel mode keep d src toks ht s h

/-- C78 for `ParseExpr`. -/
theorem C78_expr {c : Char} (hc : own c = false) (n fuel : Nat) (mode keep : Bool) (d : Dialect) (src : Str)
    (toks : List Token) (ht : tokenize d keep fuel src = .ok toks) (e : Expr)
    (h : runExpr goFloats n mode toks = .ok e ()) : ((Node.expr e).toSQLString goFloats).count c ≤ src.count c :=
  kept_expr hc (goFloats_keeps hc) n fuel mode keep d src toks ht e h

/-- C78 for `ParseDataType`. -/
theorem C78_dataType {c : Char} (hc : own c = false) (n fuel : Nat) (mode keep : Bool) (d : Dialect) (src : Str)
    (toks : List Token) (ht : tokenize d keep fuel src = .ok toks) (t : DataType)
    (h : runDataType goFloats n mode toks = .ok t ()) : ((Node.dataType t).toSQLString goFloats).count c ≤ src.count c := by
  obtain ⟨read, rest, h1, h2⟩ := C50_dataType_grammar goFloats n mode toks (tokenizeFrom_kwOK ht) t h
  have h3 := DataType.keeps (κ := ⟨c, hc⟩) t _ h2
  have h4 := toksCnt_le (κ := ⟨c, hc⟩) ht
  have h5 := toksCnt_prefix (κ := ⟨c, hc⟩) h1
  rw [Node.toSQLString_eq, Node.wt, ← Kept.cnt_eq ⟨c, hc⟩, ← Kept.cnt_eq ⟨c, hc⟩]
  omega

/-- So what is printed consists of these characters and characters of the source. -/
theorem C78_mem {c : Char} (n fuel : Nat) (mode keep : Bool) (d : Dialect) (src : Str)
    (toks : List Token) (ht : tokenize d keep fuel src = .ok toks) (f : File) (s : PState)
    (h : parseFile goFloats n mode (newParser toks) = .ok f s) (hm : c ∈ (Node.file f).toSQLString goFloats) :
    own c = true ∨ c ∈ src := by
  cases hc : own c with
  | true => exact .inl rfl
  | false =>
    have := C78_file hc n fuel mode keep d src toks ht f s h
    exact .inr (List.count_pos_iff.1 (Nat.lt_of_lt_of_le (List.count_pos_iff.2 hm) this))

/-! ### Integers written with a point

A literal like `2.0` is printed as `2`.  So the text of a tree with such a literal, anywhere in it, has too few points to be
read as the tree. -/

/-- Print one point for each number. -/
def dotFloats : FloatFns := ⟨goFloats.parse, fun _ => ['.']⟩

def dots : Kept := ⟨'.', by decide⟩

theorem dots_cnt (s : Str) : s.count '.' = dots.cnt s := (Kept.cnt_eq dots s).symm

theorem goFloats_dotFloats : goFloats.Keeps dotFloats '.' := by
  intro s v hd _
  exact List.count_pos_iff.2 hd

theorem format_dots {v : F64} (h : v.plain) : dots.cnt (goFloats.format v) ≤ 1 ∧
    (1 ≤ dots.cnt (goFloats.format v) → ¬ v.integer) := by
  rw [Kept.cnt_eq]
  refine ⟨?_, fun h1 => (C77_point h).1 (List.count_pos_iff.1 h1)⟩
  obtain ⟨_, _, _, _, _, ht, _⟩ := format_text h
  obtain ⟨i, f, h1, h2, h3, h4, -, -⟩ := decimalText_iff.1 ht
  have hdig : ∀ l : Str, l.all isDigit = true → l.count '.' = 0 := fun l hl => List.count_eq_zero.2 (dot_not_mem hl)
  rcases h4 with ⟨h4, -⟩ | h4
  · rw [h4]; exact Nat.le_trans (Nat.le_of_eq (hdig i h2)) (Nat.zero_le _)
  · rw [h4, List.count_append, List.count_cons]
    show List.count '.' i + (List.count '.' f + _) ≤ 1
    rw [hdig i h2, hdig f h3]
    decide

/-- If there are enough points, each number has one. -/
theorem floats_dots {toks : List Token} : ∀ {as : List Atom}, (∀ a ∈ as, ReadFrom toks a) →
    floats dots goFloats as ≤ floats dots dotFloats as ∧ (floats dots dotFloats as ≤ floats dots goFloats as →
      ∀ f t v, Atom.float f t v ∈ as → v.plain ∧ ¬ v.integer)
  | [], _ => ⟨Nat.le_refl _, fun _ f t v h => by cases h⟩
  | a :: as, h => by
    obtain ⟨h1, h2⟩ := floats_dots (as := as) fun a ha => h a (by simp [ha])
    have h3 := h a (by simp)
    cases a with
    | float f t v =>
      obtain ⟨h4, h5⟩ := format_dots h3.1
      have h6 : dots.cnt (dotFloats.format v) = 1 := by rw [Kept.cnt_eq]; rfl
      simp only [floats_cons, floatCnt_float] at *
      refine ⟨by omega, fun h7 f' t' v' hm => ?_⟩
      rcases List.mem_cons.1 hm with hm | hm
      · cases hm
        exact ⟨h3.1, h5 (by omega)⟩
      · exact h2 (by omega) f' t' v' hm
    | _ =>
      refine ⟨by simpa [floats_cons, Atom.floatCnt] using h1, fun h7 f' t' v' hm => ?_⟩
      rcases List.mem_cons.1 hm with hm | hm
      · cases hm
      · exact h2 (by simpa [floats_cons, Atom.floatCnt] using h7) f' t' v' hm

theorem float_erase {as bs : List Atom} (h : as.map Atom.erase = bs.map Atom.erase) {f t : Pos} {v : F64}
    (hm : Atom.float f t v ∈ bs) : ∃ f' t', Atom.float f' t' v ∈ as := by
  have h1 : Atom.erase (Atom.float f t v) ∈ as.map Atom.erase := by rw [h]; exact List.mem_map_of_mem hm
  obtain ⟨a, h2, h3⟩ := List.mem_map.1 h1
  cases a <;> simp [Atom.erase] at h3
  subst h3
  exact ⟨_, _, h2⟩

/-- C78 and C27: an expression that is printed to a text that is read as the same expression has no integer among its
floating point numbers, and none that is negative, infinite or NaN. -/
theorem C78_expr_fractions {d : Dialect} (mode : Bool) {e : Expr}
    (h : CanRead d (Node.toSQLString goFloats (.expr e)) (fun n => runExpr goFloats n mode) fun e' => e'.erase = e.erase) :
    ∀ f t v, Atom.float f t v ∈ e.atoms → v.plain ∧ ¬ v.integer := by
  obtain ⟨fuel, toks, n, e', ht, h, he⟩ := h
  have hr := C77_expr_numbers n mode toks (tokenizeFrom_kwOK ht) e' h
  have h1 := kept_expr (by decide) goFloats_dotFloats n fuel mode true d _ toks ht e' h
  have hw : (e'.wt goFloats) = (e.wt goFloats) := by rw [← Expr.wt_erase goFloats e', he, Expr.wt_erase]
  rw [Node.toSQLString_eq, Node.wt, Node.toSQLString_eq, Node.wt, ← hw, dots_cnt, dots_cnt,
    Expr.floats_text (κ := dots) (fns := goFloats) e', Expr.floats_text (κ := dots) (fns := dotFloats) e'] at h1
  have h2 := (floats_dots hr).2 (by omega)
  have ha : e'.atoms.map Atom.erase = e.atoms.map Atom.erase := by rw [← Expr.atoms_erase, he, Expr.atoms_erase]
  intro f t v hm
  obtain ⟨f', t', hm'⟩ := float_erase ha hm
  exact h2 f' t' v hm'

theorem script_floats {fns : FloatFns} : ∀ ss : List Stmt, ∀ as ∈ scriptArrangements ss,
    dots.cnt (statementsText fns ss) = dots.cnt (statementsText noFloats ss) + floats dots fns as
  | [], as, h => by rw [List.mem_singleton.1 h]; rfl
  | s :: ss, as, h => by
    simp only [scriptArrangements, List.map_cons, arrange, List.mem_flatMap, List.mem_map] at h
    obtain ⟨a, ha, bs, hb, rfl⟩ := h
    have h1 := Stmt.floats_text (κ := dots) (fns := fns) s a ha
    have h2 := script_floats (fns := fns) ss bs (by simpa [scriptArrangements] using hb)
    simp only [statementsText, List.flatMap_cons, cnt_append, Node.toSQLString_eq, Node.wt, floats_append] at h2 ⊢
    omega

theorem statementsText_count (fns : FloatFns) (c : Char) : ∀ ss : List Stmt, (statementsText fns ss).count c =
    (ss.map fun s => (((Node.stmt s).toSQLString fns) ++ [';']).count c).sum
  | [] => rfl
  | s :: ss => by
    have := statementsText_count fns c ss
    simp only [statementsText, List.flatMap_cons, List.count_append, List.map_cons, List.sum_cons] at this ⊢
    omega

/-- The same for lists of statements, each followed by a semicolon. -/
theorem C78_statements_fractions {d : Dialect} (mode : Bool) {ss : List Stmt}
    (h : CanRead d (statementsText goFloats ss) (fun n => runSQL goFloats n mode)
      fun ss' => ss'.map Stmt.erase = ss.map Stmt.erase) :
    ∀ as ∈ scriptArrangements ss, ∀ f t v, Atom.float f t v ∈ as → v.plain ∧ ¬ v.integer := by
  obtain ⟨fuel, toks, n, ss', ht, h, he⟩ := h
  obtain ⟨as', hm, hr⟩ := C77_script_numbers n mode toks (tokenizeFrom_kwOK ht) ss' h
  have h1 := kept_script (by decide) goFloats_dotFloats n fuel mode true d _ toks ht ss' h
  rw [← statementsText_count, dots_cnt, dots_cnt, ← statementsText_erase goFloats ss, ← he,
    statementsText_erase, script_floats (fns := dotFloats) ss' as' hm, script_floats (fns := goFloats) ss' as' hm] at h1
  have h2 := (floats_dots hr).2 (by omega)
  have ha : (scriptArrangements ss').map (·.map Atom.erase) = (scriptArrangements ss).map (·.map Atom.erase) := by
    rw [← scriptArrangements_erase, he, scriptArrangements_erase]
  obtain ⟨as, hm', hb⟩ := List.mem_map.1 (ha ▸ List.mem_map_of_mem hm)
  intro bs hbs f t v hv
  obtain ⟨f', t', hm''⟩ := float_erase hb.symm (((script_alike ss _ hbs _ hm').mem_iff).1 hv)
  exact h2 f' t' v hm''

/-- So a literal like `2.0`, anywhere in an expression, is enough. -/
theorem C78_integer_never_survives {d : Dialect} (mode : Bool) {e : Expr} {f t : Pos} {v : F64}
    (hm : Atom.float f t v ∈ e.atoms) (hv : v.integer) :
    ¬ CanRead d (Node.toSQLString goFloats (.expr e)) (fun n => runExpr goFloats n mode) fun e' => e'.erase = e.erase :=
  fun h => (C78_expr_fractions mode h f t v hm).2 hv

/-- `2.0` in an expression. -/
example : Atom.float Pos.zero Pos.zero 0x4000000000000000#64 ∈ (Expr.isNull (.nested
    (.double Pos.zero Pos.zero 0x4000000000000000#64) Pos.zero Pos.zero)).atoms ∧
    F64.integer 0x4000000000000000#64 := by
  refine ⟨by simp [Expr.atoms], ?_⟩
  show 2 ^ 1074 ∣ _
  decide +kernel

/-! ### Each of these characters is invented -/

/-- The printed text of a file. -/
def printedFile (src : Str) : Option Str :=
  match tokenize genericDialect true (src.length + 1) src with
  | .ok toks => match parseFile goFloats 400 true (newParser toks) with
    | .ok f _ => some ((Node.file f).toSQLString goFloats)
    | _ => none
  | _ => none

/-- Texts and what is printed for them. -/
def inventions : List (Str × Str) :=
  [(str% "select distinct a from b natural join c where d group by e having f order by g;",
    str% "SELECT DISTINCT a FROM b NATURAL JOIN c WHERE d GROUP BY e HAVING f ORDER BY g"),
   (str% "create table if not exists a(b int unique primary key);",
    str% "CREATE TABLE IF NOT EXISTS a (b int UNIQUE PRIMARY KEY)"),
   (str% "CREATE TABLE T(A CHARACTER VARYING,B UUID,C NUMERIC(1),D FLOAT,E TIMESTAMP WITH TIME ZONE,F REGCLASS,G TEXT);",
    str% "CREATE TABLE T (A character varying, B uuid, C numeric(1), D float, E timestamp with time zone, F regclass, G text)"),
   (str% "CREATE TABLE T(A BYTEA);", str% "CREATE TABLE T (A bytea)"),
   (str% "SELECT\t99999999999999999999;", str% "SELECT 9223372036854775807"),
   (str% "SELECT\t88888888888888888888;", str% "SELECT 9223372036854775807"),
   (str% "SELECT 0.099999999999999999999;", str% "SELECT 0.1"),
   (str% "delete from a;delete from b;", str% "DELETE FROM a\nDELETE FROM b"),
   (str% "select a<>b::c;", str% "SELECT a != CAST(b AS c)"),
   (str% "create table a(b int)engine c charset d;", str% "CREATE TABLE a (b int)ENGINE c, CHARSET d")]

theorem inventions_printed : ∀ p ∈ inventions, printedFile p.1 = some p.2 := by
  have : inventions.map (fun p => printedFile p.1) = inventions.map fun p => some p.2 := by kernel_rfl
  intro p hp
  exact List.map_inj_left.1 this p hp

/-- All characters that the printer writes on its own. -/
def ownList : List Char :=
  str% "ABCDEFGHIJKLMNOPQRSTUVWXYabcdefghilmnoprstuvwxyz0123456789\n !(),="

theorem mem_ownList {c : Char} (h : own c = true) : c ∈ ownList := by
  have key : ∀ m : Fin 128, own (Char.ofNat m.val) = true → Char.ofNat m.val ∈ ownList := by decide +kernel
  have hc : c.toNat < 128 := by
    simp only [own, Bool.or_eq_true, Bool.and_eq_true, decide_eq_true_eq, beq_iff_eq] at h
    omega
  have := key ⟨c.toNat, hc⟩
  rw [Char.ofNat_toNat] at this
  exact this h

/-- C78, the list is the least: each of its characters occurs in the text printed for a file whose source has none. -/
theorem C78_least {c : Char} (h : own c = true) : ∃ fuel n src toks f st, tokenize genericDialect true fuel src = .ok toks ∧
    parseFile goFloats n true (newParser toks) = .ok f st ∧ c ∉ src ∧ c ∈ (Node.file f).toSQLString goFloats := by
  have key : ∀ c ∈ ownList, ∃ p ∈ inventions, c ∉ p.1 ∧ c ∈ p.2 := by decide +kernel
  obtain ⟨p, hp, h1, h2⟩ := key c (mem_ownList h)
  have h3 := inventions_printed p hp
  unfold printedFile at h3
  split at h3
  · rename_i toks ht
    split at h3
    · rename_i f st hf
      exact ⟨_, _, _, _, _, _, ht, hf, h1, by rw [Option.some.inj h3]; exact h2⟩
    · cases h3
  · cases h3

/-! ### Cases that meet the hypotheses -/

/-- Characters that are not written by the printer, some of them kept and some lost: the quotes of a string, the brackets of
an array, the signs of operators, and the letters of names. -/
example : printedFile (str% "SELECT 'it''s', \"jkq\"::Z_, e::TEXT[], a*b/c%d+1.50 -- 'é'\n;") =
    some (str% "SELECT 'it's', CAST(\"jkq\" AS Z_), CAST(e AS text[]), a * b / c % d + 1.5") := by
  kernel_rfl

example : ['\'', '\"', 'j', 'k', 'q', 'Z', '_', '[', ']', '*', '/', '%', '+', '-', '.', ';', 'é', '<', '>'].all
    (fun c => !own c) = true := by decide

end Verif
