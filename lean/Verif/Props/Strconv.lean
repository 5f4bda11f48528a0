import Verif.Proofs.StrconvSpec
import Verif.Props.Size
import Verif.Props.Survive
import Verif.Props.Findings
import Verif.Props.Quotes
import Verif.Props.Atoms
/-
Property theorem C77: floating point literals.

`goFloats` (Verif/Model/Strconv.lean) is what the Go program has for the parameter `FloatFns` of the model.  A literal is
read as the nearest floating point number; a number is printed with as few digits as possible, and is read back; but if
it is an integer it is printed without a point and read back as an integer literal.
-/
set_option maxRecDepth 100000
namespace Verif
open Spec

/-! ### Reading -/

/-- `ParseFloat` accepts the decimal numbers in the range of float64 and returns the nearest one, ties to even. -/
theorem C77_nearest {s : Str} {v : F64} : goFloats.parse s = some v ↔
    ∃ n f e m, DecimalText s n f ∧ n < (2 ^ 54 - 1) * 2 ^ 970 * 10 ^ f ∧ Nearest n f e m ∧
      v = BitVec.ofNat 64 (e * 2 ^ 52 + m) := by
  show parseFloat s = some v ↔ _
  rw [parseFloat_reads]
  constructor
  · rintro ⟨n, k, b, h1, h2, h3⟩
    have hq : b / 2 ^ 52 * 2 ^ 52 + b % 2 ^ 52 = b := by rw [Nat.mul_comm]; exact Nat.div_add_mod b _
    have hm := Nat.mod_lt b (show 2 ^ 52 > 0 by decide)
    rw [← hq] at h2 h3
    obtain ⟨h4, h5⟩ := (roundF64_nearest hm).1 h2
    exact ⟨n, k, _, _, h1, h4, h5, h3⟩
  · rintro ⟨n, k, e, m, h1, h4, h5, h3⟩
    exact ⟨n, k, _, h1, (roundF64_nearest h5.frac).2 ⟨h4, h5⟩, h3⟩

/-- The numbers that are neither negative nor infinite nor NaN. -/
def F64.plain (v : F64) : Prop := v.toNat < 2047 * 2 ^ 52

/-- The biased exponent and the trailing significand. -/
def F64.expo (v : F64) : Nat := v.toNat / 2 ^ 52
def F64.frac (v : F64) : Nat := v.toNat % 2 ^ 52

theorem F64.plain.units {v : F64} : f64Units v.toNat = ieee v.expo v.frac := by
  have hm := Nat.mod_lt v.toNat (show 2 ^ 52 > 0 by decide)
  have := units_ieee (e := v.expo) (m := v.frac) hm
  rw [← this, F64.expo, F64.frac, Nat.mul_comm, Nat.div_add_mod]

theorem F64.plain.format {v : F64} (h : v.plain) : goFloats.format v = formatBits v.toNat := by
  have h1 : v.toNat < 2047 * 2 ^ 52 := h
  have e : v.toNat % 2 ^ 63 = v.toNat := Nat.mod_eq_of_lt (by omega)
  have hinf : f64Inf = 2047 * 2 ^ 52 := rfl
  show formatFloat v = _
  simp only [formatFloat, e]
  rw [if_neg (by omega), if_neg (by omega), if_neg]
  simp only [decide_eq_true_eq]; omega

theorem parsed_bits {s : Str} {v : F64} (h : goFloats.parse s = some v) :
    v.plain ∧ ∃ n k, DecimalText s n k ∧ RoundsTo n k v.toNat := by
  obtain ⟨n, k, b, h1, h2, rfl⟩ := parseFloat_reads.1 h
  obtain ⟨h3, h4⟩ := roundF64_iff.1 h2
  have hinf : f64Inf = 2047 * 2 ^ 52 := rfl
  have e : (BitVec.ofNat 64 b).toNat = b := by rw [BitVec.toNat_ofNat]; exact Nat.mod_eq_of_lt (by omega)
  exact ⟨by rw [F64.plain, e]; exact h3, n, k, h1, by rw [e]; exact h4⟩

/-! ### Printing -/

/-- What is printed for a number is read as the number. -/
theorem C77_readback {v : F64} (h : v.plain) : goFloats.parse (goFloats.format v) = some v := by
  rw [h.format]
  show parseFloat _ = _
  rw [parse_formatBits h, BitVec.ofNat_toNat, BitVec.setWidth_eq]

/-- In particular what was read: no literal is negative, infinite or NaN, and printing it keeps its value. -/
theorem C77_parsed {s : Str} {v : F64} (h : goFloats.parse s = some v) :
    v.plain ∧ goFloats.parse (goFloats.format v) = some v := ⟨(parsed_bits h).1, C77_readback (parsed_bits h).1⟩

theorem decimal_split {s : Str} {n k : Nat} (h : DecimalText s n k) (hd : '.' ∈ s) : ∃ i, 1 ≤ i ∧ s.length = i + 1 + k ∧ n < 10 ^ (i + k) := by
  obtain ⟨i, f, h1, h2, h3, h4, rfl, rfl⟩ := decimalText_iff.1 h
  rcases h4 with ⟨rfl, rfl⟩ | rfl
  · exact absurd hd (dot_not_mem h2)
  · refine ⟨i.length, List.length_pos_iff.2 h1, by simp; omega, ?_⟩
    have : (i ++ f).all isDigit = true := by rw [List.all_append, h2, h3]; rfl
    have := decimal_lt this
    rwa [List.length_append] at this

theorem decimalText_unique {s : Str} {n k n' k' : Nat} (h : DecimalText s n k) (h' : DecimalText s n' k') : n = n' ∧ k = k' := by
  obtain ⟨i, f, h1, h2, h3, h4, rfl, rfl⟩ := decimalText_iff.1 h
  obtain ⟨i', f', h1', h2', h3', h4', rfl, rfl⟩ := decimalText_iff.1 h'
  rcases h4 with ⟨rfl, rfl⟩ | rfl <;> rcases h4' with ⟨rfl, rfl⟩ | h4'
  · exact ⟨rfl, rfl⟩
  · exact absurd (by rw [h4']; simp) (dot_not_mem h2)
  · exact absurd (by simp) (dot_not_mem h2')
  · have t := congrArg (List.takeWhile isDigit) h4'
    rw [List.takeWhile_append_of_pos (List.all_eq_true.1 h2), List.takeWhile_append_of_pos (List.all_eq_true.1 h2')] at t
    simp only [List.takeWhile_cons, dot_not_digit, Bool.false_eq_true, if_false, List.append_nil] at t
    subst t
    have := List.append_cancel_left h4'
    cases this
    exact ⟨rfl, rfl⟩

/-- The text of a number, as a decimal. -/
theorem format_text {v : F64} (h : v.plain) : ∃ c j n,
    Found (readsAs v.toNat) (f64Exact v.toNat) c j (fscale + 309) ∧ goFloats.format v = fixed c j ∧
    DecimalText (goFloats.format v) n (fscale - j) ∧ (j ≤ fscale → n = c) := by
  obtain ⟨c, j, h1, h2⟩ := format_found v.toNat
  rw [h.format, h1]
  by_cases hj : fscale ≤ j
  · refine ⟨c, j, c * 10 ^ (j - fscale), h2, rfl, ?_, fun h => ?_⟩
    · rw [fixed_int hj, show fscale - j = 0 by omega]
      exact decimalText_iff.2 ⟨_, [], natStr_nonempty _, natStr_alldigits _, rfl, .inl ⟨rfl, rfl⟩, by simp [decimal_natStr], rfl⟩
    · rw [show j - fscale = 0 by omega]; simp
  · refine ⟨c, j, c, h2, rfl, ?_, fun _ => rfl⟩
    rw [fixed_frac (by omega)]
    refine decimalText_iff.2 ⟨_, _, natStr_nonempty _, natStr_alldigits _, lastDigits_all _ _, .inr rfl, ?_, (lastDigits_length _ _).symm⟩
    rw [decimal_append, decimal_natStr, decimal_lastDigits, lastDigits_length, Nat.mul_comm, Nat.div_add_mod]

/-- The text is no longer than any text with a point that is read as the same number, and no text that is read as the
number has fewer digits after the point. -/
theorem C77_shortest {s : Str} {v : F64} {n k n' k' : Nat} (h : goFloats.parse s = some v) (hs : DecimalText s n k)
    (hf : DecimalText (goFloats.format v) n' k') :
    ('.' ∈ s → (goFloats.format v).length ≤ s.length) ∧ k' ≤ k := by
  obtain ⟨hp, m, l, h1, h2⟩ := parsed_bits h
  obtain ⟨rfl, rfl⟩ := decimalText_unique hs h1
  obtain ⟨c, j, w, hfo, hfm, ht, -⟩ := format_text hp
  refine ⟨fun hd => ?_, ?_⟩
  · obtain ⟨i, hi, hl, hn⟩ := decimal_split hs hd
    rw [hfm, hl]
    exact fixed_length hp hfo h2 hi hn
  · rw [(decimalText_unique hf ht).2]
    exact found_frac hfo h2

theorem gap_mul (a b c : Nat) : gap (a * c) (b * c) = gap a b * c := by
  simp only [gap, ← Nat.sub_mul, ← Nat.add_mul]

/-- Of the texts with as many digits after the point, if there are any, none is nearer to the number, and of two that are
equally near it is the one whose last digit is even. -/
theorem C77_closest {s : Str} {v : F64} {n n' k : Nat} (h : goFloats.parse s = some v) (hs : DecimalText s n k)
    (hf : DecimalText (goFloats.format v) n' k) (hk : 1 ≤ k) : off n' k v.expo v.frac ≤ off n k v.expo v.frac ∧
      (off n' k v.expo v.frac = off n k v.expo v.frac → n ≠ n' → n' % 2 = 0) := by
  obtain ⟨hp, m, l, h1, h2⟩ := parsed_bits h
  obtain ⟨rfl, rfl⟩ := decimalText_unique hs h1
  obtain ⟨c, j, w, hfo, hfm, ht, hw⟩ := format_text hp
  obtain ⟨rfl, hkj⟩ := decimalText_unique hf ht
  have hj : j < fscale := by omega
  have hc := hw (by omega)
  subst hc
  have hr := readsAs_iff.2 ((roundsTo_frac hj).1 (by rw [← hkj]; exact h2))
  have h3 := hfo.near n hr
  have hx : f64Exact v.toNat * 2 ^ fscale = ieee v.expo v.frac * 10 ^ k * 10 ^ j := by
    rw [f64Exact, Nat.mul_assoc, ← pow10_eq, F64.plain.units, Nat.mul_assoc, ← Nat.pow_add, hkj, Nat.sub_add_cancel (by omega)]
  have key : ∀ x, gap (x * 10 ^ j) (f64Exact v.toNat) * 2 ^ fscale = off x k v.expo v.frac * 10 ^ j := by
    intro x
    rw [off, ← gap_mul, ← gap_mul, hx, ← fscale_eq]
    congr 1
    rw [Nat.mul_assoc, Nat.mul_comm (10 ^ j), Nat.mul_assoc]
  refine ⟨?_, fun he hne => hfo.even n hr ?_ hne⟩
  · have h4 := Nat.mul_le_mul_right (2 ^ fscale) h3
    rw [key, key] at h4
    exact Nat.le_of_mul_le_mul_right h4 (Nat.pow_pos (by decide))
  · exact Nat.eq_of_mul_eq_mul_right (Nat.pow_pos (show 0 < 2 by decide)) (by rw [key, key, he])

/-! ### The point -/

/-- The number is an integer. -/
def F64.integer (v : F64) : Prop := 2 ^ 1074 ∣ ieee v.expo v.frac

/-- A point is printed exactly if the number is not an integer. -/
theorem C77_point {v : F64} (h : v.plain) : '.' ∈ goFloats.format v ↔ ¬ v.integer := by
  rw [h.format, dot_mem_formatBits, F64.plain.units, fscale_eq, F64.integer]

theorem format_chars {v : F64} (h : v.plain) : ∃ c w, goFloats.format v = c :: w ∧ isDigit c = true ∧
    ∀ x ∈ w, isDigit x = true ∨ x = '.' := by
  obtain ⟨_, _, _, _, _, ht, _⟩ := format_text h
  obtain ⟨i, f, h1, h2, h3, h4, -, -⟩ := decimalText_iff.1 ht
  rw [List.all_eq_true] at h2 h3
  cases i with
  | nil => exact absurd rfl h1
  | cons c i =>
    have hi : ∀ x ∈ i, isDigit x = true := fun x hx => h2 x (by simp [hx])
    rcases h4 with ⟨h4, -⟩ | h4
    · exact ⟨c, i, h4, h2 c (by simp), fun x hx => .inl (hi x hx)⟩
    · refine ⟨c, i ++ '.' :: f, h4, h2 c (by simp), fun x hx => ?_⟩
      simp only [List.mem_append, List.mem_cons] at hx
      rcases hx with hx | rfl | hx
      · exact .inl (hi x hx)
      · exact .inr rfl
      · exact .inl (h3 x hx)

/-- `floatOK`, the condition of the round trip theorems (C23, C57), for the numbers of Go: not an integer. -/
theorem C77_floatOK {v : F64} (h : v.plain) : floatOK goFloats v = true ↔ ¬ v.integer := by
  rw [← C77_point h]
  obtain ⟨c, w, h1, h2, h3⟩ := format_chars h
  have h4 := C77_readback h
  unfold floatOK
  rw [h1] at h4 ⊢
  have hc : '.' ≠ c := by rintro rfl; rw [dot_not_digit] at h2; cases h2
  simp only [Bool.and_eq_true, List.all_eq_true, Bool.or_eq_true, beq_iff_eq, List.contains_iff_mem, List.mem_cons, hc, false_or]
  exact ⟨fun h => h.1.2, fun h => ⟨⟨⟨h2, h3⟩, h⟩, h4⟩⟩


/-! ### Literals -/

theorem format_integer {v : F64} (h : v.plain) (hi : v.integer) : ∃ z, goFloats.format v = natStr z := by
  obtain ⟨c, j, n, -, h1, ht, -⟩ := format_text h
  have hd : '.' ∉ goFloats.format v := fun hd => (C77_point h).1 hd hi
  rw [h1, dot_mem_fixed] at hd
  exact ⟨_, by rw [h1, fixed_int (by omega)]⟩

/-- C77, from literal to literal: a number that is not an integer is printed as a literal for the same number. -/
theorem C77_fraction_survives {d : Dialect} (hd : BuiltIn d) (mode : Bool) {p q : Pos} {v : F64} (h : v.plain)
    (hi : ¬ v.integer) : Reads d (Node.toSQLString goFloats (.expr (.double p q v))) (fun n => runExpr goFloats n mode)
      fun e => e.erase = (Expr.double p q v).erase :=
  C23_expr_roundtrip_partial hd goFloats mode (e := .double p q v) ((C77_floatOK h).2 hi)

/-- An integer is printed without a point, and read as the integer literal that it then is, clamped as they are (C28). -/
theorem C77_integer_lost {d : Dialect} (hd : BuiltIn d) (mode : Bool) {p q : Pos} {v : F64} (h : v.plain)
    (hi : v.integer) : ∃ z, DecimalText (Node.toSQLString goFloats (.expr (.double p q v))) z 0 ∧
      goFloats.parse (Node.toSQLString goFloats (.expr (.double p q v))) = some v ∧
      Reads d (Node.toSQLString goFloats (.expr (.double p q v))) (fun n => runExpr goFloats n mode)
        fun e => ∃ f t, e = .long ⟨f, t, (min z (2 ^ 63 - 1) : Nat)⟩ := by
  obtain ⟨z, hz⟩ := format_integer h hi
  have e : Node.toSQLString goFloats (.expr (.double p q v)) = natStr z := hz
  refine ⟨z, ?_, by rw [e, ← hz]; exact C77_readback h, ?_⟩
  · rw [e]
    exact decimalText_iff.2 ⟨_, [], natStr_nonempty _, natStr_alldigits _, rfl, .inl ⟨rfl, rfl⟩, by simp [decimal_natStr], rfl⟩
  · rw [e]
    have hs : Spaced d [numTok z] := ⟨by
      intro t ht
      obtain rfl := List.mem_singleton.1 ht
      exact ⟨spells_num z, rfl⟩, rfl⟩
    have := reads_of_parses hd hs (fun n => (sim_at goFloats n).subexpr 0) mode
      (fun toks hk n n' hn hn' => (budget_le goFloats mode toks hk hn hn').2.1)
      (x := .long ⟨⟨0, 0⟩, ⟨0, 0⟩, (min z (2 ^ 63 - 1) : Nat)⟩) ?_
    · have e1 : txt [numTok z] = natStr z := by simp [txt, numTok, spell]
      rw [e1] at this
      refine this.mono fun e' he => ?_
      have he : e'.erase = .long ⟨Pos.zero, Pos.zero, (min z (2 ^ 63 - 1) : Nat)⟩ := he
      cases e' with
      | long l =>
        obtain ⟨f, t, x⟩ := l
        simp only [Expr.erase, LongValue.erase, Expr.long.injEq, LongValue.mk.injEq, true_and] at he
        exact ⟨f, t, by rw [he]⟩
      | _ => simp [Expr.erase] at he
    · refine ⟨2, fun m hm => ?_⟩
      obtain ⟨k, rfl⟩ : ∃ k, m = k + 2 := ⟨m - 2, by omega⟩
      obtain ⟨z', hden⟩ := C28_denotes (natStr z) (natStr_nonempty z) (List.all_eq_true.1 (natStr_alldigits z))
      obtain rfl : z = z' := by
        have := digitsVal_denotes hden
        rw [natStr_denotes] at this
        exact Option.some.inj this
      have h1 : ∀ b, (parseValue goFloats).runZ b [⟨.number (natStr z), Pos.zero, Pos.zero⟩] =
          .ok (.long ⟨Pos.zero, Pos.zero, (min z (2 ^ 63 - 1) : Nat)⟩) (⟨.number (natStr z), Pos.zero, Pos.zero⟩ :: b, []) :=
        fun b => C28_clamped goFloats _ z hden _ _ b []
      show ((subexprF (Parsers.at goFloats (k + 1)) 0).runZ [] [⟨.number (natStr z), Pos.zero, Pos.zero⟩]).outcome = _
      have hp : (Parsers.at goFloats (k + 1)).prefix_ = prefixF goFloats (Parsers.at goFloats k) := rfl
      have hl : ∀ e, (Parsers.at goFloats (k + 1)).subexprLoop 0 e = subexprLoopF (Parsers.at goFloats k) 0 e := fun _ => rfl
      have hnp : ∀ b, getNextPrecedence.runZ b [] = .ok 0 (b, []) := fun b => rfl
      simp only [subexprF, hp, hl, prefixF, runZ_bindM, runZ_nextOrErr_cons, Res.bind_ok, runZ_prevToken_cons, h1,
        subexprLoopF, hnp, ge_iff_le, Nat.le_refl, if_true, runZ_pure, Res.outcome]
      rfl

theorem reads_agree {d : Dialect} {src : Str} {run : Nat → List Token → Res Unit α} {g g' : α → Prop}
    (h : Reads d src run g) (h' : Reads d src run g') : ∃ x, g x ∧ g' x := by
  obtain ⟨toks, h1, h2⟩ := h
  obtain ⟨toks', h1', h2'⟩ := h'
  rw [h1] at h1'
  cases h1'
  obtain ⟨x, h3, h4⟩ := h2 _ (Nat.le_refl _)
  obtain ⟨x', h3', h4'⟩ := h2' _ (Nat.le_refl _)
  rw [h3] at h3'
  cases h3'
  exact ⟨x, h4, h4'⟩

/-- Exactly the literals that are not integers survive. -/
theorem C77_literal_survives_iff {d : Dialect} (hd : BuiltIn d) (mode : Bool) {p q : Pos} {v : F64} (h : v.plain) :
    Reads d (Node.toSQLString goFloats (.expr (.double p q v))) (fun n => runExpr goFloats n mode)
      (fun e => e.erase = (Expr.double p q v).erase) ↔ ¬ v.integer := by
  refine ⟨fun hr hi => ?_, C77_fraction_survives hd mode h⟩
  obtain ⟨z, -, -, h2⟩ := C77_integer_lost (p := p) (q := q) hd mode h hi
  obtain ⟨e, h3, f, t, rfl⟩ := reads_agree hr h2
  cases h3

/-! ### The other theorems about numbers -/

theorem goFloats_ascii {v : F64} : ∀ c ∈ goFloats.format v, c ≠ '\'' ∧ c.toNat < 128 := by
  have hp : ∀ b, ∀ c ∈ formatBits b, c ≠ '\'' ∧ c.toNat < 128 := by
    intro b c hc
    obtain ⟨x, j, h, -⟩ := format_found b
    rw [h] at hc
    have hd : isDigit c = true → c ≠ '\'' ∧ c.toNat < 128 := by
      intro h
      refine ⟨by rintro rfl; revert h; decide, ?_⟩
      simp only [isDigit, Bool.and_eq_true, decide_eq_true_eq] at h
      have : c.toNat ≤ '9'.toNat := h.2
      have : '9'.toNat = 57 := rfl
      omega
    by_cases hj : fscale ≤ j
    · rw [fixed_int hj] at hc
      exact hd (List.all_eq_true.1 (natStr_alldigits _) _ hc)
    · rw [fixed_frac (by omega), List.mem_append, List.mem_cons] at hc
      rcases hc with hc | rfl | hc
      · exact hd (List.all_eq_true.1 (natStr_alldigits _) _ hc)
      · decide
      · exact hd (List.all_eq_true.1 (lastDigits_all _ _) _ hc)
  intro c hc
  have key : ∀ {p : Prop} [Decidable p] {x y : Str}, c ∈ (if p then x else y) → c ∈ x ∨ c ∈ y := by
    intro p _ x y h; split at h
    · exact .inl h
    · exact .inr h
  have lit : ∀ s : Str, (∀ c ∈ s, c ≠ '\'' ∧ c.toNat < 128) → c ∈ s → c ≠ '\'' ∧ c.toNat < 128 := fun s h => h c
  change c ∈ formatFloat v at hc
  unfold formatFloat at hc
  rcases key hc with h | h
  · exact lit (str% "NaN") (by decide) h
  · rcases key h with h | h
    · rcases key h with h | h
      · exact lit (str% "-Inf") (by decide) h
      · exact lit (str% "+Inf") (by decide) h
    · rcases key h with h | h
      · rcases List.mem_cons.1 h with rfl | h
        · decide
        · exact hp _ _ h
      · exact hp _ _ h

/-- What C60 asks of the numbers. -/
theorem goFloats_no_quote (v : F64) : '\'' ∉ goFloats.format v := fun h => (goFloats_ascii _ h).1 rfl

theorem size_of_ascii {μ : Measure} : ∀ s : Str, (∀ c ∈ s, c.toNat < 128) → μ.size s = s.length
  | [], _ => rfl
  | c :: s, h => by
    rw [size_cons, size_of_ascii s fun c hc => h c (by simp [hc]), μ.ascii c (h c (by simp)), List.length_cons, Nat.add_comm]

theorem length_le_size {μ : Measure} : ∀ s : Str, s.length ≤ μ.size s
  | [] => Nat.le_refl _
  | c :: s => by
    have := length_le_size (μ := μ) s
    have := μ.pos c
    rw [size_cons, List.length_cons]; omega

/-- What C76 asks of the numbers. -/
theorem goFloats_short (μ : Measure) : goFloats.Short μ := by
  intro s v hd h
  rw [size_of_ascii _ fun c hc => (goFloats_ascii c hc).2]
  obtain ⟨hp, n, k, h1, -⟩ := parsed_bits h
  obtain ⟨_, _, _, _, _, ht, _⟩ := format_text hp
  exact Nat.le_trans ((C77_shortest h h1 ht).1 hd) (length_le_size s)

/-- C76 with the numbers of Go: the text of a file is at most 11/3 times as long as the source. -/
theorem C77_file_size (μ : Measure) (n fuel : Nat) (mode keep : Bool) (d : Dialect) (src : Str)
    (toks : List Token) (ht : tokenize d keep fuel src = .ok toks) (f : File) (s : PState)
    (h : parseFile goFloats n mode (newParser toks) = .ok f s) :
    3 * μ.size ((Node.file f).toSQLString goFloats) ≤ 11 * μ.size src :=
  C76_file μ goFloats (goFloats_short μ) n fuel mode keep d src toks ht f s h

/-! ### Numbers in programs -/

/-- A floating point number that was read from one of the tokens, as the nearest to what is written there, and that keeps
its value when it is printed. -/
def ReadFrom (toks : List Token) : Atom → Prop
  | .float f t v => v.plain ∧ goFloats.parse (goFloats.format v) = some v ∧ ∃ s n k, ⟨.number s, f, t⟩ ∈ toks ∧
      DecimalText s n k ∧ Nearest n k v.expo v.frac
  | _ => True

theorem covers_numbers {b : Bool} {as : List Atom} {ts toks : List Token} (h : Covers goFloats b as ts)
    (hs : ∀ t ∈ ts, t ∈ toks) : ∀ a ∈ as, ReadFrom toks a := by
  intro a ha
  cases a with
  | float f t v =>
    obtain ⟨tok, ht, s, rfl, hv⟩ := h.mem _ ha
    obtain ⟨n, k, e, m, h1, -, h2, h3⟩ := C77_nearest.1 hv
    have hm := h2.frac
    have he := h2.expo
    have hb : v.toNat = 2 ^ 52 * e + m := by rw [h3, BitVec.toNat_ofNat, Nat.mod_eq_of_lt (by omega), Nat.mul_comm]
    have e1 : v.expo = e := by
      rw [F64.expo, hb, Nat.mul_add_div (by decide), Nat.div_eq_of_lt hm, Nat.add_zero]
    have e2 : v.frac = m := by rw [F64.frac, hb, Nat.mul_add_mod, Nat.mod_eq_of_lt hm]
    exact ⟨(C77_parsed hv).1, (C77_parsed hv).2, s, n, k, hs _ ht, h1, by rw [e1, e2]; exact h2⟩
  | _ => trivial

/-- The floating point numbers of an expression. -/
theorem C77_expr_numbers (n : Nat) (mode : Bool) (toks : List Token) (hk : KwOK toks) (e : Expr)
    (h : runExpr goFloats n mode toks = .ok e ()) : ∀ a ∈ e.atoms, ReadFrom toks a := by
  obtain ⟨read, rest, h1, h2⟩ := C59_expr goFloats n mode toks hk e h
  refine covers_numbers h2 fun t ht => ?_
  have : t ∈ significant toks := by rw [h1]; exact List.mem_append_left _ ht
  exact (List.mem_filter.1 this).1

/-- The floating point numbers of a script. -/
theorem C77_script_numbers (n : Nat) (mode : Bool) (toks : List Token) (hk : KwOK toks) (ss : List Stmt)
    (h : runSQL goFloats n mode toks = .ok ss ()) : ∃ as ∈ scriptArrangements ss, ∀ a ∈ as, ReadFrom toks a := by
  obtain ⟨as, h1, h2⟩ := C59_script goFloats n mode toks hk ss h
  exact ⟨as, h1, covers_numbers h2 fun t ht => (List.mem_filter.1 ht).1⟩

/-! ### Cases -/

/-- The nearest number to 0.1, which is not 0.1; halfway cases go to the even number. -/
example : goFloats.parse (str% "0.1") = some 0x3fb999999999999a#64 ∧
    goFloats.parse (str% "9007199254740993.0") = some 0x4340000000000000#64 ∧
    goFloats.parse (str% "9007199254740995") = some 0x4340000000000002#64 ∧
    goFloats.parse (str% "1e5") = none ∧ goFloats.parse (str% "1.2.3") = none := by decide +kernel

/-- As few digits as possible. -/
example : goFloats.format 0x3fb999999999999a#64 = str% "0.1" ∧ goFloats.format 0x3ff8000000000000#64 = str% "1.5" ∧
    goFloats.format 0x4415af1d78b58c40#64 = str% "100000000000000000000" ∧
    goFloats.format 0xbff8000000000000#64 = str% "-1.5" ∧ goFloats.format 0x7ff0000000000000#64 = str% "+Inf" := by
  decide +kernel

/-- Two texts of the same length that are equally near: the one that ends in 2. -/
example : goFloats.parse (str% "1125899906842624.3") = some 0x4310000000000001#64 ∧
    goFloats.parse (str% "1125899906842624.25") = some 0x4310000000000001#64 ∧
    goFloats.format 0x4310000000000001#64 = str% "1125899906842624.2" := by decide +kernel

/-- The hypotheses of the theorems above: 0.1 was written longer, and is no integer; 2.0 is one. -/
example : goFloats.parse (str% "0.10000000000000000") = some 0x3fb999999999999a#64 ∧
    F64.plain 0x3fb999999999999a#64 ∧ ¬ F64.integer 0x3fb999999999999a#64 ∧
    F64.plain 0x4000000000000000#64 ∧ F64.integer 0x4000000000000000#64 := by
  refine ⟨by decide +kernel, by unfold F64.plain; decide +kernel, ?_, by unfold F64.plain; decide +kernel, ?_⟩
  · rw [F64.integer, Nat.dvd_iff_mod_eq_zero]; decide +kernel
  · rw [F64.integer, Nat.dvd_iff_mod_eq_zero]; decide +kernel

/-- What this leads to: a literal of 10^20 (nearly) becomes 2^63 - 1 when the program is printed and read again. -/
theorem C77_survives_false :
    reprint goFloats (str% "SELECT 99999999999999999999.0, 2.0, 1.50;") =
      some (.ok [str% "SELECT 100000000000000000000, 2, 1.5"] ()) ∧
    reprint goFloats (str% "SELECT 100000000000000000000, 2, 1.5;") =
      some (.ok [str% "SELECT 9223372036854775807, 2, 1.5"] ()) := by
  constructor <;> kernel_rfl

end Verif
