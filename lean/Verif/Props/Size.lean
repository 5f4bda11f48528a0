import Verif.Proofs.Size
import Verif.Proofs.Concat
import Verif.Props.Complete
import Verif.Props.Grammar
import Verif.Props.Script
/-
Property theorem C76: printing does not amplify.

What is printed for an accepted text is at most 11/3 times as long as the text, in runes and in UTF-8 bytes, and no
smaller factor will do.  `Measure`, `runes` and `bytes` are defined in Verif/Spec/Size.lean.
-/
set_option maxRecDepth 100000
namespace Verif
open Spec

/-- No number is printed longer than it was written with a point.  (True of `strconv`: `goFloats_short` in
Verif/Props/Strconv.lean.  Without a point `99999999999999999999` would be printed with 21 digits.) -/
def FloatFns.Short (fns : FloatFns) (μ : Measure) : Prop :=
  ∀ s v, '.' ∈ s → fns.parse s = some v → μ.size (fns.format v) ≤ μ.size s

/-! ### The tokens of a text -/

theorem size_escape {μ : Measure} : ∀ s : Str, μ.size s ≤ μ.size (escape s)
  | [] => Nat.le_refl _
  | c :: cs => by
    have := size_escape (μ := μ) cs
    unfold escape
    split
    · rename_i h; subst h; simp only [size_cons]; omega
    · simp only [size_cons]; omega

theorem tokSize_le {μ : Measure} {d : Dialect} {t : Tok} {piece : Str} (h : Spells d t piece) : tokSize μ t ≤ μ.size piece := by
  cases h with
  | word c w =>
    have := μ.pos c
    simp only [tokSize, SQLWord.string, size_cons]; omega
  | delim q w =>
    have := μ.pos q
    have := μ.pos (matchingEndQuote q)
    simp only [tokSize, SQLWord.string, size_cons, size_append]
    split <;> simp only [size_cons, size_append, size_nil] <;> omega
  | number c w =>
    have := μ.pos c
    simp only [tokSize, size_cons]; omega
  | single s =>
    have := size_escape (μ := μ) s
    simp only [tokSize, size_cons, size_append, size_nil, μ.ascii '\'' (by decide)]; omega
  | national s =>
    have := size_escape (μ := μ) s
    simp only [tokSize, size_cons, size_append, size_nil, μ.ascii '\'' (by decide), μ.ascii 'N' (by decide)]; omega
  | sym k text h =>
    cases k <;> simp [symText] at h <;> (try rcases h with rfl | rfl) <;> (try subst h) <;>
      simp [tokSize, symSize, Spec.Measure.ascii]
  | _ => exact Nat.zero_le _

theorem toksSize_le {μ : Measure} {d : Dialect} {keep : Bool} {fuel : Nat} {src : Str} {toks : List Token}
    (ht : tokenize d keep fuel src = .ok toks) : toksSize μ (significant toks) ≤ μ.size src := by
  obtain ⟨all, s', h1, h2, rfl⟩ := tokenize_ok_inv ht
  obtain ⟨tps, rfl, i2, i3, -⟩ := h1.pieces
  have hs : src = tps.flatMap (·.2) := by simpa [h2] using i2
  have hsig : significant (filterTok keep (tps.map (·.1))) = significant (tps.map (·.1)) := by
    cases keep <;> simp [filterTok, significant]
  rw [hsig, hs]
  clear h1 h2 i2 hs hsig ht
  induction tps with
  | nil => exact Nat.zero_le _
  | cons x tps ih =>
    have h1 := ih fun y hy => i3 y (by simp [hy])
    have h2 := tokSize_le (μ := μ) (i3 x (by simp))
    simp only [List.map_cons, List.flatMap_cons, size_append, significant, List.filter_cons]
    split
    · simp only [toksSize, List.map_cons, List.sum_cons] at h1 ⊢
      simp only [significant] at h1
      omega
    · simp only [significant] at h1
      omega

theorem toksSize_prefix {μ : Measure} {all read rest : List Token} (h : all = read ++ rest) :
    toksSize μ read ≤ toksSize μ all := by
  rw [h, toksSize_append]; omega

/-! ### C76 -/

/-- C76 for `ParseFile`: the text of the file is at most 11/3 times as long as the source. -/
theorem C76_file (μ : Measure) (fns : FloatFns) (hf : fns.Short μ) (n fuel : Nat) (mode keep : Bool) (d : Dialect) (src : Str)
    (toks : List Token) (ht : tokenize d keep fuel src = .ok toks) (f : File) (s : PState)
    (h : parseFile fns n mode (newParser toks) = .ok f s) :
    3 * μ.size ((Node.file f).toSQLString fns) ≤ 11 * μ.size src := by
  have hk : KwOK toks := tokenizeFrom_kwOK ht
  have hl : scriptLang fns ⟨true, false, true⟩ f.stmts (significant toks) := by
    refine C50_script_grammar fns n mode toks hk f.stmts ?_
    unfold parseFile at h
    split at h
    · rename_i stmts s' hs
      cases h
      simp only [runSQL, hs, Res.outcome]
    all_goals cases h
  have h1 := Fits.script _ hf f.stmts _ hl
  have h2 := toksSize_le (μ := μ) ht
  rw [Node.toSQLString_eq]
  simp only [Node.wt, File.wt, Wt.text]
  omega

/-- C76 for `ParseSQL`: all statements together, each with the semicolon that ends it in the source (the text of a
statement is written without it). -/
theorem C76_script (μ : Measure) (fns : FloatFns) (hf : fns.Short μ) (n fuel : Nat) (mode keep : Bool) (d : Dialect) (src : Str)
    (toks : List Token) (ht : tokenize d keep fuel src = .ok toks) (ss : List Stmt) (h : runSQL fns n mode toks = .ok ss ()) :
    3 * ((ss.map fun s => μ.size ((Node.stmt s).toSQLString fns)).sum) + 11 * ss.length ≤ 11 * μ.size src := by
  have hl := C50_script_grammar fns n mode toks (tokenizeFrom_kwOK ht) ss h
  have h1 := Fits.statements _ hf ss _ hl
  have h2 := toksSize_le (μ := μ) ht
  simp only [Node.toSQLString_eq, Node.wt]
  omega

/-- C76 for `ParseStatement`. -/
theorem C76_statement (μ : Measure) (fns : FloatFns) (hf : fns.Short μ) (n fuel : Nat) (mode keep : Bool) (d : Dialect) (src : Str)
    (toks : List Token) (ht : tokenize d keep fuel src = .ok toks) (s : Stmt) (h : runStatement fns n mode toks = .ok s ()) :
    3 * μ.size ((Node.stmt s).toSQLString fns) ≤ 11 * μ.size src := by
  obtain ⟨read, rest, h1, h2⟩ := C50_statement_grammar fns n mode toks (tokenizeFrom_kwOK ht) s h
  have h3 := Stmt.fits _ hf s _ h2
  have h4 := toksSize_le (μ := μ) ht
  have h5 := toksSize_prefix (μ := μ) h1
  rw [Node.toSQLString_eq, Node.wt]
  omega

/-- C76 for `ParseExpr`. -/
theorem C76_expr (μ : Measure) (fns : FloatFns) (hf : fns.Short μ) (n fuel : Nat) (mode keep : Bool) (d : Dialect) (src : Str)
    (toks : List Token) (ht : tokenize d keep fuel src = .ok toks) (e : Expr) (h : runExpr fns n mode toks = .ok e ()) :
    3 * μ.size ((Node.expr e).toSQLString fns) + 4 ≤ 11 * μ.size src := by
  obtain ⟨read, rest, h1, h2⟩ := C50_expr_grammar fns n mode toks (tokenizeFrom_kwOK ht) e h
  have h3 := Expr.fits _ hf e _ h2
  have h4 := toksSize_le (μ := μ) ht
  have h5 := toksSize_prefix (μ := μ) h1
  rw [Node.toSQLString_eq, Node.wt]
  omega

/-- C76 for `ParseDataType`. -/
theorem C76_dataType (μ : Measure) (fns : FloatFns) (n fuel : Nat) (mode keep : Bool) (d : Dialect) (src : Str)
    (toks : List Token) (ht : tokenize d keep fuel src = .ok toks) (t : DataType) (h : runDataType fns n mode toks = .ok t ()) :
    3 * μ.size ((Node.dataType t).toSQLString fns) + 8 ≤ 11 * μ.size src := by
  obtain ⟨read, rest, h1, h2⟩ := C50_dataType_grammar fns n mode toks (tokenizeFrom_kwOK ht) t h
  have h3 := DataType.fits (μ := μ) t _ h2
  have h4 := toksSize_le (μ := μ) ht
  have h5 := toksSize_prefix (μ := μ) h1
  rw [Node.toSQLString_eq, Node.wt]
  omega

/-- C76 in runes. -/
theorem C76_runes (fns : FloatFns) (hf : fns.Short runes) (n fuel : Nat) (mode keep : Bool) (d : Dialect) (src : Str)
    (toks : List Token) (ht : tokenize d keep fuel src = .ok toks) (f : File) (s : PState)
    (h : parseFile fns n mode (newParser toks) = .ok f s) :
    3 * ((Node.file f).toSQLString fns).length ≤ 11 * src.length := by
  have e : ∀ s : Str, runes.size s = s.length := fun s => by
    induction s with
    | nil => rfl
    | cons c s ih => rw [size_cons, ih, List.length_cons, Nat.add_comm]; rfl
  have := C76_file runes fns hf n fuel mode keep d src toks ht f s h
  rwa [e, e] at this

/-- C76 in bytes. -/
theorem C76_bytes (fns : FloatFns) (hf : fns.Short bytes) (n fuel : Nat) (mode keep : Bool) (d : Dialect) (src : Str)
    (toks : List Token) (ht : tokenize d keep fuel src = .ok toks) (f : File) (s : PState)
    (h : parseFile fns n mode (newParser toks) = .ok f s) :
    3 * byteLen ((Node.file f).toSQLString fns) ≤ 11 * byteLen src := by
  have e : ∀ s : Str, bytes.size s = byteLen s := fun s => by
    induction s with
    | nil => rfl
    | cons c s ih => rw [size_cons, ih]; rfl
  have := C76_file bytes fns hf n fuel mode keep d src toks ht f s h
  rwa [e, e] at this

/-! ### No smaller factor -/

/-- `::a` any number of times, and a semicolon. -/
def castsText : Nat → Str
  | 0 => [';']
  | k + 1 => ':' :: ':' :: 'a' :: castsText k

inductive Casts : Nat → List Token → Prop
  | zero : Casts 0 []
  | succ {k t t' s ts} : t.tok = .sym .DoubleColon s → t'.tok = .word ⟨['a'], none, ['A']⟩ → Casts k ts → Casts (k + 1) (t :: t' :: ts)

theorem castsText_head (k : Nat) : (castsText k).head? = some ';' ∨ (castsText k).head? = some ':' := by
  cases k <;> simp [castsText]

theorem castsText_length (k : Nat) : (castsText k).length = 3 * k + 1 := by
  induction k with
  | zero => rfl
  | succ k ih => simp only [castsText, List.length_cons, ih]; omega

theorem scans_casts : ∀ (k l c : Nat), ∃ ts semi s', Scans genericDialect ⟨castsText k, l, c⟩ (ts ++ [semi]) s' ∧ s'.rest = [] ∧
    semi.tok = .sym .Semicolon [';'] ∧ Casts k ts
  | 0, l, c => ⟨[], _, _, .step (.sym .Semicolon [';'] [] l c (by simp [symText]) (by intro x y _ h; simp at h)) (.refl _), rfl, rfl, .zero⟩
  | k + 1, l, c => by
    obtain ⟨ts, semi, s', h1, h2, h3, h4⟩ := scans_casts k l (c + 2 + byteLen ['a'])
    have e1 : NextRel genericDialect ⟨castsText (k + 1), l, c⟩ (.sym .DoubleColon [':', ':']) ⟨'a' :: castsText k, l, c + 2⟩ :=
      .sym .DoubleColon [':', ':'] _ l c (by simp [symText]) (by intro x y h; simp at h)
    have e2 : NextRel genericDialect ⟨'a' :: castsText k, l, c + 2⟩ (.word ⟨['a'], none, upper ['a']⟩) ⟨castsText k, l, c + 2 + byteLen ['a']⟩ :=
      .word 'a' [] _ l _ (.inr (by decide)) (by decide) (by decide) (by decide) (by simp) (by simp) (by
        intro y hy
        rcases castsText_head k with h | h <;> (rw [h] at hy; cases hy; decide))
    exact ⟨_ :: _ :: ts, semi, s', .step e1 (.step e2 h1), h2, h3, .succ rfl rfl h4⟩

theorem casts_lang (fns : FloatFns) {k : Nat} {ts : List Token} (h : Casts k ts) : ∀ (e : Expr) (read : List Token),
    e.lang fns ⟨false, false, false⟩ read → e.shape freeWord = true → 50 ≤ e.lp → 50 ≤ e.rp →
    ∃ e' : Expr, e'.lang fns ⟨false, false, false⟩ (read ++ ts) ∧ e'.shape freeWord = true ∧
      ((e'.wt fns).text).length = ((e.wt fns).text).length + 11 * k := by
  induction h with
  | zero => exact fun e read h1 h2 _ _ => ⟨e, by rwa [List.append_nil], h2, rfl⟩
  | @succ k t t' s ts ht ht' hts ih =>
    intro e read h1 h2 h3 h4
    obtain ⟨e', i1, i2, i3⟩ := ih (.cast e (.custom ⟨[⟨['a'], t'.from_, t'.to_⟩]⟩) Pos.zero Pos.zero) (read ++ [t, t'])
      (by
        rw [Expr.lang]
        refine .inr ⟨read, [t, t'], rfl, h1, [t], [t'], rfl, ⟨t, s, rfl, ht⟩, [t'], [], rfl, ?_, [], [], rfl,
          ⟨[], [], rfl, ⟨rfl, rfl⟩, rfl, rfl⟩, rfl, .inr ⟨h3, h4⟩⟩
        exact ⟨t', _, rfl, ht', rfl, rfl, rfl, by decide +kernel⟩)
      (by simp [Expr.shape, DataType.shape, ObjectName.shape, identsShape, h2]; decide +kernel)
      (by simp [Expr.lp]) (by simp [Expr.rp])
    refine ⟨e', by rw [List.append_assoc] at i1; exact i1, i2, ?_⟩
    rw [i3]
    simp [Expr.wt, Wt.text, Step.texts, Step.text, DataType.wt, ObjectName.wt, text_idents]
    omega

def castsSrc (k : Nat) : Str := str% "DELETE FROM t WHERE a" ++ castsText k

/-- The tokens of the text before the casts. -/
def castsHead : List Token :=
  [⟨.word ⟨str% "DELETE", none, str% "DELETE"⟩, ⟨1, 1⟩, ⟨1, 7⟩⟩, ⟨.whitespace [' '], ⟨1, 7⟩, ⟨1, 8⟩⟩,
   ⟨.word ⟨str% "FROM", none, str% "FROM"⟩, ⟨1, 8⟩, ⟨1, 12⟩⟩, ⟨.whitespace [' '], ⟨1, 12⟩, ⟨1, 13⟩⟩,
   ⟨.word ⟨str% "t", none, str% "T"⟩, ⟨1, 13⟩, ⟨1, 14⟩⟩, ⟨.whitespace [' '], ⟨1, 14⟩, ⟨1, 15⟩⟩,
   ⟨.word ⟨str% "WHERE", none, str% "WHERE"⟩, ⟨1, 15⟩, ⟨1, 20⟩⟩, ⟨.whitespace [' '], ⟨1, 20⟩, ⟨1, 21⟩⟩,
   ⟨.word ⟨str% "a", none, str% "A"⟩, ⟨1, 21⟩, ⟨1, 22⟩⟩]

theorem scans_head (k : Nat) : Scans genericDialect ⟨castsSrc k, 1, 1⟩ castsHead ⟨castsText k, 1, 22⟩ := by
  have sp : ∀ y, some ' ' = some y → genericDialect.isIdentPart y = false := by intro y hy; cases hy; decide
  refine .step (.word 'D' (str% "ELETE") (' ' :: (str% "FROM t WHERE a" ++ castsText k)) 1 1 (.inr (by decide)) (by decide)
    (by decide) (by decide) (by decide) (by simp) sp) ?_
  refine .step (.space (str% "FROM t WHERE a" ++ castsText k) 1 7) ?_
  refine .step (.word 'F' (str% "ROM") (' ' :: (str% "t WHERE a" ++ castsText k)) 1 8 (.inr (by decide)) (by decide)
    (by decide) (by decide) (by decide) (by simp) sp) ?_
  refine .step (.space (str% "t WHERE a" ++ castsText k) 1 12) ?_
  refine .step (.word 't' [] (' ' :: (str% "WHERE a" ++ castsText k)) 1 13 (.inr (by decide)) (by decide)
    (by decide) (by decide) (by decide) (by simp) sp) ?_
  refine .step (.space (str% "WHERE a" ++ castsText k) 1 14) ?_
  refine .step (.word 'W' (str% "HERE") (' ' :: (str% "a" ++ castsText k)) 1 15 (.inr (by decide)) (by decide)
    (by decide) (by decide) (by decide) (by simp) sp) ?_
  refine .step (.space (str% "a" ++ castsText k) 1 20) ?_
  refine .step (.word 'a' [] (castsText k) 1 21 (.inr (by decide)) (by decide)
    (by decide) (by decide) (by decide) (by simp) ?_) (.refl _)
  intro y hy
  rcases castsText_head k with h | h <;> (rw [h] at hy; cases hy; decide)

theorem Casts.words {k : Nat} {ts : List Token} (h : Casts k ts) :
    significant ts = ts ∧ ∀ t ∈ ts, ∀ w, t.tok = .word w → w.value = ['a'] := by
  induction h with
  | zero => exact ⟨rfl, by simp⟩
  | succ h1 h2 _ ih =>
    refine ⟨?_, ?_⟩
    · have := ih.1
      simp only [significant] at this
      simp [significant, Token.sig, h1, h2, Tok.insignificant, this]
    · intro t ht w hw
      simp only [List.mem_cons] at ht
      rcases ht with rfl | rfl | ht
      · rw [h1] at hw; cases hw
      · rw [h2] at hw; cases hw; rfl
      · exact ih.2 t ht w hw

/-- The text with `k` casts is accepted, and 8 characters are added for each cast. -/
theorem castsSrc_accepted (fns : FloatFns) (mode : Bool) (k : Nat) :
    ∃ fuel n toks f st, tokenize genericDialect true fuel (castsSrc k) = .ok toks ∧
      parseFile fns n mode (newParser toks) = .ok f st ∧ ((Node.file f).toSQLString fns).length = 21 + 11 * k := by
  obtain ⟨ts, semi, s', h1, h2, h3, h4⟩ := scans_casts k 1 22
  have hs := (scans_head k).trans h1
  have ht : tokenize genericDialect true ((castsSrc k).length + 1) (castsSrc k) = .ok (castsHead ++ (ts ++ [semi])) := by
    obtain ⟨g, hg, e⟩ := tokenizeFrom_scans (BuiltIn.sane (.inl rfl)) true hs (fuel := (castsSrc k).length + 1) (Nat.lt_succ_self _)
    refine e.trans ?_
    obtain ⟨r, l, c⟩ := s'
    simp only at h2
    subst h2
    cases g with
    | zero => simp at hg
    | succ g => simp [tokenizeFrom, scan, next, TokRes.prepend, filterTok]
  obtain ⟨w1, w2⟩ := h4.words
  obtain ⟨e', i1, i2, i3⟩ := casts_lang fns h4 (.ident ⟨['a'], ⟨1, 21⟩, ⟨1, 22⟩⟩) [⟨.word ⟨str% "a", none, str% "A"⟩, ⟨1, 21⟩, ⟨1, 22⟩⟩]
    ⟨_, _, rfl, rfl, rfl, rfl, rfl, by decide⟩ (by decide +kernel) (by decide) (by decide)
  have hsig : significant (castsHead ++ (ts ++ [semi])) =
      (significant castsHead).take 4 ++ ((⟨.word ⟨str% "a", none, str% "A"⟩, ⟨1, 21⟩, ⟨1, 22⟩⟩ :: ts) ++ [semi]) := by
    simp only [significant] at w1
    simp [significant, castsHead, Token.sig, Tok.insignificant, w1, h3]
  obtain ⟨f, st, j1, j2⟩ := C54_file_complete fns mode genericDialect _ (castsSrc k) _ ht
    (by
      intro t ht w hw
      simp only [List.mem_append, List.mem_singleton] at ht
      rcases ht with ht | ht | rfl
      · have : ∀ t ∈ castsHead, ∀ w, t.tok = .word w → w.value.all (fun c => !oddLetter c) = true := by
          have : castsHead.all (fun t => match t.tok with
            | .word w => w.value.all fun c => !oddLetter c
            | _ => true) = true := by decide +kernel
          intro t ht w hw
          have := List.all_eq_true.1 this t ht
          rwa [hw] at this
        simpa using this t ht w hw
      · rw [w2 t ht w hw]; decide +kernel
      · rw [h3] at hw; cases hw)
    [.delete ⟨1, 1⟩ ⟨[⟨str% "t", ⟨1, 13⟩, ⟨1, 14⟩⟩]⟩ (some e')]
    (by simp [Stmt.shape, ObjectName.shape, identsShape, Expr.shapeO, i2]; decide +kernel)
    (by
      rw [hsig]
      rw [← List.append_assoc]
      have hl : Stmt.lang fns ⟨false, false, false⟩ (.delete ⟨1, 1⟩ ⟨[⟨str% "t", ⟨1, 13⟩, ⟨1, 14⟩⟩]⟩ (some e'))
          ((significant castsHead).take 4 ++ (⟨.word ⟨str% "a", none, str% "A"⟩, ⟨1, 21⟩, ⟨1, 22⟩⟩ :: ts)) :=
        cat_cons ⟨⟨_, _, rfl, rfl, .inr rfl⟩, _, _, rfl, rfl⟩ (cat_cons ⟨_, _, rfl, rfl, .inr rfl⟩
          (cat_cons ⟨_, _, rfl, rfl, rfl, rfl, rfl, by simp⟩ (cat_cons ⟨_, _, rfl, rfl, .inr rfl⟩ i1)))
      generalize (significant castsHead).take 4 ++ (_ :: ts) = us at hl
      exact ⟨[], us ++ [semi], rfl, .inl rfl, us ++ [semi], [], (List.append_nil _).symm,
        ⟨us, [semi], rfl, hl, semi, _, rfl, h3⟩, rfl⟩)
    _ (Nat.le_refl _)
  refine ⟨_, _, _, f, st, ht, j1, ?_⟩
  rw [Node.toSQLString_eq]
  have : f.stmts.map (Stmt.wt fns) = [Stmt.wt fns (.delete ⟨1, 1⟩ ⟨[⟨str% "t", ⟨1, 13⟩, ⟨1, 14⟩⟩]⟩ (some e'))] := by
    have h := congrArg (List.map (Stmt.wt fns)) j2
    simpa [Stmt.wt_erase] using h
  simp only [Node.wt, File.wt, this]
  simp [Step.join, Wt.text, Step.texts, Step.text, Stmt.wt, ObjectName.wt, text_idents, i3]
  simp [Expr.wt, Ident.wt, Wt.text]
  omega

/-- C76, the factor is the least: if `a / b` with any constant added bounds the length of what is printed, in runes, then
`a / b` is at least 11/3. -/
theorem C76_least (fns : FloatFns) (a b c : Nat)
    (h : ∀ fuel n mode src toks f st, tokenize genericDialect true fuel src = .ok toks →
      parseFile fns n mode (newParser toks) = .ok f st → b * ((Node.file f).toSQLString fns).length ≤ a * src.length + c) :
    11 * b ≤ 3 * a := by
  refine Nat.le_of_not_lt fun hlt => ?_
  obtain ⟨fuel, n, toks, f, st, h1, h2, h3⟩ := castsSrc_accepted fns true (22 * a + c + 1)
  have h4 := h fuel n true _ toks f st h1 h2
  have hl : (castsSrc (22 * a + c + 1)).length = 22 + 3 * (22 * a + c + 1) := by
    simp only [castsSrc, List.length_append, castsText_length, List.length_cons, List.length_nil]; omega
  rw [h3, hl] at h4
  have h5 : (3 * a + 1) * (22 * a + c + 1) ≤ b * 11 * (22 * a + c + 1) := Nat.mul_le_mul_right _ (by omega)
  have h6 : 22 * a + c < 22 * a + c + 1 := Nat.lt_succ_self _
  generalize 22 * a + c + 1 = k at h4 h5 h6
  rw [Nat.mul_add, Nat.mul_add, ← Nat.mul_assoc, ← Nat.mul_assoc, Nat.mul_comm a 3] at h4
  rw [Nat.add_mul, Nat.one_mul] at h5
  omega

/-! ### Cases that meet the hypotheses -/

/-- A world with one number. -/
def oneFloat : FloatFns := ⟨fun s => if s = str% "1.50" then some 0x3ff8000000000000#64 else none, fun _ => str% "1.5"⟩

theorem oneFloat_short (μ : Measure) : oneFloat.Short μ := by
  intro s v _ h
  simp only [oneFloat] at h ⊢
  split at h
  · rename_i e; subst e; simp [Spec.Measure.ascii]
  · cases h

/-- 30 runes in, 46 out. -/
def sizeText : Str := str% "SELECT 'é'x,a::b,1.50FROM t u;"

example : (match tokenize genericDialect true 200 sizeText with
    | .ok toks => match parseFile oneFloat 200 true (newParser toks) with
      | .ok f _ => decide ((Node.file f).toSQLString oneFloat = str% "SELECT 'é' AS x, CAST(a AS b), 1.5 FROM t AS u")
      | _ => false
    | _ => false) = true := by kernel_rfl

end Verif
