import Verif.Spec.Grammar
import Verif.Spec.Size
import Verif.Proofs.Writer
import Verif.Proofs.PrintText
/-
The text printed for a tree is at most four times as long as any sentence of the tree.
-/
set_option linter.unusedVariables false
set_option linter.unusedSimpArgs false
namespace Verif
open Spec

/-! ### Sizes of texts -/

section
variable {μ : Measure}

@[simp] theorem size_nil : μ.size [] = 0 := rfl
@[simp] theorem size_cons (c : Char) (s : Str) : μ.size (c :: s) = μ.of c + μ.size s := by simp [Measure.size]
@[simp] theorem size_append (s t : Str) : μ.size (s ++ t) = μ.size s + μ.size t := by simp [Measure.size]

theorem size_length (s : Str) : s.length ≤ μ.size s := by
  induction s with
  | nil => exact Nat.le_refl _
  | cons c s ih => have := μ.pos c; simp only [List.length_cons, size_cons]; omega

theorem size_ascii {s : Str} (h : ∀ c ∈ s, c.toNat < 128) : μ.size s = s.length := by
  induction s with
  | nil => rfl
  | cons c s ih =>
    rw [size_cons, ih fun c hc => h c (by simp [hc]), μ.ascii c (h c (by simp)), List.length_cons]
    omega

theorem natStr_ascii (n : Nat) : ∀ c ∈ natStr n, c.toNat < 128 := by
  have hd : ∀ m < 10, (Char.ofNat (48 + m)).toNat < 128 := by decide
  induction n using Nat.strongRecOn with
  | ind n ih =>
    intro c hc
    rw [natStr] at hc
    split at hc
    · rename_i h
      simp only [List.mem_singleton] at hc
      rw [hc]; exact hd n h
    · rename_i h
      simp only [List.mem_append, List.mem_singleton] at hc
      rcases hc with hc | hc
      · exact ih (n / 10) (by omega) c hc
      · rw [hc]; exact hd _ (by omega)

theorem natStr_length {n k : Nat} (h : n < 10 ^ k) (hk : 1 ≤ k) : (natStr n).length ≤ k := by
  induction k generalizing n with
  | zero => omega
  | succ k ih =>
    rw [natStr]
    split
    · simp
    · rename_i h'
      simp only [List.length_append, List.length_singleton]
      rw [Nat.pow_succ] at h
      have h1 : n / 10 < 10 ^ k := by omega
      have : 1 ≤ k := by
        rcases k with _ | k
        · simp at h1; omega
        · omega
      have := ih h1 this
      omega

theorem denotes_lt {s : Str} {n : Nat} (h : Denotes s n) : n < 10 ^ s.length ∧ 1 ≤ s.length := by
  have hv : ∀ c v, digitValue c = some v → v < 10 := by
    intro c v h
    unfold digitValue at h
    split at h <;> cases h <;> omega
  induction h with
  | single c v h => exact ⟨by simpa using hv c v h, by simp⟩
  | cons c v s n h _ ih =>
    refine ⟨?_, by simp⟩
    have h1 := hv c v h
    have : v * 10 ^ s.length ≤ 9 * 10 ^ s.length := Nat.mul_le_mul_right _ (by omega)
    rw [List.length_cons, Nat.pow_succ]
    omega

theorem size_natStr {n : Nat} {s : Str} {m : Nat} (h : Denotes s m) (hn : n ≤ m) : μ.size (natStr n) ≤ μ.size s := by
  obtain ⟨h1, h2⟩ := denotes_lt h
  rw [size_ascii (natStr_ascii n)]
  exact Nat.le_trans (natStr_length (by omega) h2) (size_length s)

theorem size_uint {n : Nat} {s : Str} (h : Denotes s n) : μ.size (intStr (intOfUint n)) ≤ μ.size s + 1 := by
  have hm : n % 2 ^ 64 ≤ n := Nat.mod_le _ _
  unfold intOfUint
  split
  · have := size_natStr (μ := μ) h hm
    exact Nat.le_succ_of_le this
  · rename_i h'
    obtain ⟨k, hk⟩ : ∃ k : Nat, ((n % 2 ^ 64 : Nat) : Int) - 2 ^ 64 = Int.negSucc k := ⟨2 ^ 64 - 1 - n % 2 ^ 64, by omega⟩
    rw [hk]
    have : k + 1 ≤ n := by omega
    have := size_natStr (μ := μ) h this
    simp only [intStr, size_cons, μ.ascii '-' (by decide)]
    omega

theorem size_long {v : Int} {s : Str} (h : (∃ n, Denotes s n ∧ v = min n (2 ^ 63 - 1)) ∨ ((∀ n, ¬ Denotes s n) ∧ v = 0)) :
    μ.size (intStr v) ≤ max 1 (μ.size s) := by
  rcases h with ⟨n, hn, hv⟩ | ⟨-, rfl⟩
  · obtain ⟨k, hk⟩ : ∃ k : Nat, v = Int.ofNat k := ⟨v.toNat, by simp; omega⟩
    subst hk
    have := size_natStr (μ := μ) (n := k) hn (by simp at hv; omega)
    simp only [intStr]
    omega
  · have : intStr 0 = ['0'] := by show natStr 0 = _; rw [natStr]; rfl
    rw [this, size_cons, size_nil, μ.ascii '0' (by decide)]
    omega

theorem size_spells {s : Str} {k : KW} (h : spells s k) : k.str.length ≤ μ.size s := by
  have : k.str.length = s.length := by
    rcases h with h | h
    · simp only [equalFold, beq_iff_eq] at h
      have := congrArg List.length h
      simpa using this.symm
    · have := congrArg List.length h
      simpa [upper] using this.symm
  rw [this]
  exact size_length s

end

/-! ### Sizes of sentences -/

/-- The sentences of the language are long enough to be printed in `m` thirds of a character. -/
def Fits (μ : Measure) (L : Lang) (m : Nat) : Prop := ∀ ts, L ts → m ≤ 11 * toksSize μ ts

/-- Each of the languages is so for one of the texts. -/
inductive FitsW (μ : Measure) : List Lang → List Wt → Prop
  | nil : FitsW μ [] []
  | cons {a as x xs} : Fits μ a (3 * μ.size x.text) → FitsW μ as xs → FitsW μ (a :: as) (x :: xs)

theorem toksSize_append (μ : Measure) (us vs : List Token) : toksSize μ (us ++ vs) = toksSize μ us + toksSize μ vs := by
  simp [toksSize]

theorem toksSize_one (μ : Measure) (t : Token) : toksSize μ [t] = tokSize μ t.tok := by simp [toksSize]

namespace Fits
variable {μ : Measure} {a b : Lang} {m n : Nat} {p p' : Pos}

theorem mono (h : Fits μ a m) (hn : n ≤ m) : Fits μ a n := fun ts hts => Nat.le_trans hn (h ts hts)
theorem zero : Fits μ a 0 := fun _ _ => Nat.zero_le _
theorem eps : Fits μ eps 0 := zero
theorem unset : Fits μ (Spec.unset p) 0 := zero
theorem unset2 : Fits μ (Spec.unset2 p p') 0 := zero
theorem only {c : Prop} : Fits μ (Spec.only c) 0 := zero
theorem opt : Fits μ (Spec.opt a) 0 := zero
theorem lost {f : Bool} : Fits μ (Spec.lost f a) 0 := zero
theorem never : Fits μ never m := fun ts h => h.elim
theorem tok (h : ∀ ts, a ts → ∃ t, ts = [t] ∧ m ≤ 11 * tokSize μ t.tok) : Fits μ a m := fun ts hts => by
  obtain ⟨t, rfl, ht⟩ := h ts hts
  rw [toksSize_one]; exact ht

theorem cat (ha : Fits μ a m) (hb : Fits μ b n) : Fits μ (a ⬝ b) (m + n) := fun ts h => by
  obtain ⟨us, vs, rfl, h1, h2⟩ := h
  have := ha us h1
  have := hb vs h2
  rw [toksSize_append]; omega

theorem alt (ha : Fits μ a m) (hb : Fits μ b n) : Fits μ (a ⊹ b) (min m n) := fun ts h => by
  rcases h with h | h
  · have := ha ts h; omega
  · have := hb ts h; omega

theorem starts (ha : Fits μ a m) : Fits μ (p ▹ a) m := fun ts h => ha ts h.1
theorem ends (ha : Fits μ a m) : Fits μ (a ◃ p) m := fun ts h => ha ts h.1
theorem spans (ha : Fits μ a m) : Fits μ (Spec.spans p p' a) m := ha.ends.starts

theorem kwd {k : KW} : Fits μ (Spec.kwd k) (11 * k.str.length) := tok fun ts h => by
  obtain ⟨t, w, rfl, ht, hs⟩ := h
  have := size_spells (μ := μ) hs
  exact ⟨t, rfl, by rw [ht, tokSize]; omega⟩

theorem sym {k : Sym} : Fits μ (Spec.sym k) (11 * symSize k) := tok fun ts h => by
  obtain ⟨t, s, rfl, ht⟩ := h
  exact ⟨t, rfl, by rw [ht, tokSize]; exact Nat.le_refl _⟩

theorem word {bad : List KW} {i : Ident} : Fits μ (Spec.word bad i) (max 11 (11 * μ.size i.value)) := tok fun ts h => by
  obtain ⟨t, w, rfl, ht, hs, -⟩ := h
  exact ⟨t, rfl, by rw [ht, tokSize, hs]; omega⟩

theorem number {k : Nat} : Fits μ (Spec.number k) (3 * μ.size (intStr (intOfUint k)) + 5) := tok fun ts h => by
  obtain ⟨t, s, rfl, ht, hs⟩ := h
  have := size_uint (μ := μ) hs.1
  exact ⟨t, rfl, by rw [ht, tokSize]; omega⟩

theorem numberZ {v : Int} : Fits μ (Spec.numberZ v) (3 * μ.size (intStr v) + 8) := fun ts h => by
  obtain ⟨n, rfl, h⟩ := h
  refine tok (a := Spec.number n) (fun ts h => ?_) ts h
  obtain ⟨t, s, rfl, ht, hs⟩ := h
  have := size_natStr (μ := μ) hs.1 (Nat.le_refl _)
  refine ⟨t, rfl, ?_⟩
  rw [ht, tokSize, show intStr (n : Int) = natStr n from rfl]; omega

theorem integer {v : Int} : Fits μ (Spec.integer v) (3 * μ.size (intStr v) + 8) := tok fun ts h => by
  obtain ⟨t, s, rfl, ht, -, hs⟩ := h
  have := size_long (μ := μ) hs
  exact ⟨t, rfl, by rw [ht, tokSize]; omega⟩

theorem single {s : Str} : Fits μ (fun ts => ∃ t, ts = [t] ∧ t.tok = .single s) (11 * (μ.size s + 2)) := tok fun ts h => by
  obtain ⟨t, rfl, ht⟩ := h
  exact ⟨t, rfl, by rw [ht, tokSize]; exact Nat.le_refl _⟩

theorem national {s : Str} : Fits μ (fun ts => ∃ t, ts = [t] ∧ t.tok = .national s) (11 * (μ.size s + 3)) := tok fun ts h => by
  obtain ⟨t, rfl, ht⟩ := h
  exact ⟨t, rfl, by rw [ht, tokSize]; exact Nat.le_refl _⟩


theorem double {fns : FloatFns} {v : F64} (hf : ∀ s v, '.' ∈ s → fns.parse s = some v → μ.size (fns.format v) ≤ μ.size s) :
    Fits μ (fun ts => ∃ t s, ts = [t] ∧ t.tok = .number s ∧ '.' ∈ s ∧ fns.parse s = some v) (3 * μ.size (fns.format v) + 8) :=
  tok fun ts h => by
    obtain ⟨t, s, rfl, ht, hd, hs⟩ := h
    have := hf s v hd hs
    exact ⟨t, rfl, by rw [ht, tokSize]; omega⟩

end Fits

/-! ### Lists -/

section
variable {μ : Measure}

theorem size_join_cons (sep : Str) (x y : Wt) (ys : List Wt) : μ.size (Step.texts (Step.join sep (x :: y :: ys))) =
    μ.size x.text + μ.size sep + μ.size (Step.texts (Step.join sep (y :: ys))) := by
  simp [Step.join, Step.texts, Step.text, Nat.add_assoc]

theorem size_intercalate_cons (sep x y : Str) (ys : List Str) : μ.size (sep.intercalate (x :: y :: ys)) =
    μ.size x + μ.size sep + μ.size (sep.intercalate (y :: ys)) := by
  simp [intercalate_cons, Nat.add_assoc]

theorem size_comma : μ.size (str% ", ") = 2 := by simp [μ.ascii]
theorem size_dot : μ.size (str% ".") = 1 := by simp [μ.ascii]

theorem Fits.sepBy : ∀ {as : List Lang} {xs : List Wt}, FitsW μ as xs →
    Fits μ (Spec.sepBy .Comma as) (3 * μ.size (Step.texts (Step.join (str% ", ") xs)))
  | [], _, _ => Fits.never
  | [a], _, .cons h .nil => by
    refine h.mono ?_
    simp [Step.join, Step.texts, Step.text]
  | a :: b :: as, _, .cons h (.cons (xs := xs) (x := y) h' h'') => by
    have := Fits.sepBy (.cons h' h'')
    refine (h.cat (Fits.sym.cat this)).mono ?_
    rw [size_join_cons, size_comma, symSize]
    · omega
    all_goals simp

theorem Fits.concat : ∀ {as : List Lang} {xs : List Wt}, FitsW μ as xs →
    Fits μ (Spec.concat as) (xs.map fun x => 3 * μ.size x.text).sum
  | _, _, .nil => Fits.zero
  | _, _, .cons h h' => (h.cat (Fits.concat h')).mono (by simp)

theorem Fits.words {bad : List KW} : ∀ {is : List Ident},
    Fits μ (Spec.sepBy .Comma (is.map (Spec.word bad))) (3 * μ.size ((str% ", ").intercalate (is.map (·.value))))
  | [] => Fits.never
  | [i] => by
    refine Fits.word.mono ?_
    simp [intercalate_cons]; omega
  | i :: j :: is => by
    refine (Fits.word.cat (Fits.sym.cat (Fits.words (bad := bad) (is := j :: is)))).mono ?_
    simp only [List.map_cons]
    rw [size_intercalate_cons, size_comma, symSize]
    · omega
    all_goals simp

theorem Fits.idents {is : List Ident} :
    Fits μ (Spec.idents .Comma is) (3 * μ.size ((str% ", ").intercalate (is.map (·.value)))) := Fits.words

theorem Fits.dotted : ∀ {is : List Ident},
    Fits μ (Spec.idents .Period is) (max 11 (11 * μ.size ((str% ".").intercalate (is.map (·.value)))))
  | [] => Fits.never
  | [i] => by
    refine Fits.word.mono ?_
    simp [intercalate_cons]
  | i :: j :: is => by
    refine (Fits.word.cat (Fits.sym.cat (Fits.dotted (is := j :: is)))).mono ?_
    simp only [List.map_cons]
    rw [size_intercalate_cons, size_dot, symSize]
    · omega
    all_goals simp

theorem Fits.dottedFrom {bad : List KW} {i j : Ident} {is : List Ident} :
    Fits μ (Spec.word bad i ⬝ Spec.sym .Period ⬝ Spec.idents .Period (j :: is))
      (max 11 (11 * μ.size ((str% ".").intercalate ((i :: j :: is).map (·.value))))) := by
  refine (Fits.word.cat (Fits.sym.cat Fits.dotted)).mono ?_
  simp only [List.map_cons]
  rw [size_intercalate_cons, size_dot, symSize]
  · omega
  all_goals simp

theorem Fits.objectName {o : ObjectName} :
    Fits μ (Spec.objectName o) (max 11 (11 * μ.size ((str% ".").intercalate (o.idents.map (·.value))))) := Fits.dotted

theorem Fits.exprName : ∀ {is : List Ident},
    Fits μ (Spec.exprName is) (max 11 (11 * μ.size ((str% ".").intercalate (is.map (·.value)))))
  | [] => Fits.never
  | [i] => by refine Fits.word.mono ?_; simp [intercalate_cons]
  | _ :: _ :: _ => Fits.dottedFrom

theorem Fits.typeName : ∀ {is : List Ident},
    Fits μ (Spec.typeName is) (max 11 (11 * μ.size ((str% ".").intercalate (is.map (·.value)))))
  | [] => Fits.never
  | [i] => by refine Fits.word.mono ?_; simp [intercalate_cons]
  | _ :: _ :: _ => Fits.dottedFrom

theorem FitsW.map {α : Type} {f : α → Lang} {g : α → Wt} (h : ∀ x, Fits μ (f x) (3 * μ.size (g x).text)) :
    ∀ l : List α, FitsW μ (l.map f) (l.map g)
  | [] => .nil
  | x :: l => .cons (h x) (FitsW.map h l)

end

theorem text_ident (i : Ident) : i.wt.text = i.value := rfl
theorem text_objectName (o : ObjectName) : o.wt.text = (str% ".").intercalate (o.idents.map (·.value)) := by
  simp [ObjectName.wt, Wt.text, Step.texts, text_idents]
theorem text_uint (n : Nat) : Step.text (.uint n) = intStr (intOfUint n) := rfl

/-- Reduce a comparison of sizes to arithmetic. -/
macro "sizes" "[" ts:Lean.Parser.Tactic.simpLemma,* "]" : tactic => `(tactic| (
  (try simp [Wt.text, Step.texts, Step.text, texts_append, text_idents, text_ident, text_objectName, text_uint, Step.if_,
    Spec.Measure.ascii, symSize, KW.str, Step.typeWithOptionalLength, negated, aliasSteps, unsignedBytes, $ts,*])
  <;> (try omega)))

/-- Go through the combinators of a language, with the given facts about its parts. -/
macro "fits" "[" ts:term,* "]" : tactic => `(tactic| (repeat' (with_reducible first
  | exact Fits.kwd | exact Fits.sym | exact Fits.word | exact Fits.number | exact Fits.numberZ | exact Fits.integer
  | exact Fits.single | exact Fits.national
  | exact Fits.objectName | exact Fits.exprName | exact Fits.typeName | exact Fits.idents | exact Fits.words
  $[| exact $ts]*
  | apply Fits.spans | apply Fits.starts | apply Fits.ends | apply Fits.sepBy
  | apply Fits.cat | apply Fits.alt | exact Fits.never | exact Fits.eps | exact Fits.unset | exact Fits.unset2
  | exact Fits.only | exact Fits.opt | exact Fits.lost)))

/-- The text fits: `fits` gives a bound for the language, and `sizes` compares it with the text. -/
macro "fitting" "[" ts:term,* "]" "[" ss:Lean.Parser.Tactic.simpLemma,* "]" : tactic => `(tactic| (
  apply Fits.mono
  · fits [$ts,*]
  · sizes [$ss,*]))

theorem Fits.parens {μ : Measure} {a : Lang} {m : Nat} (h : Fits μ a m) : Fits μ (Spec.parens a) (m + 22) := by
  unfold Spec.parens
  fitting [h] []
theorem Fits.parensTo {μ : Measure} {a : Lang} {m : Nat} {p : Pos} (h : Fits μ a m) : Fits μ (Spec.parensTo p a) (m + 22) := by
  unfold Spec.parensTo
  fitting [h] []

theorem Fits.timeZone {μ : Measure} {w : Bool} : Fits μ (timeZoneLang w) (if w then 132 else 0) := by
  cases w
  · exact Fits.opt
  · simp only [timeZoneLang, if_true]
    fitting [] []

theorem DataType.fits {μ : Measure} (t : DataType) : Fits μ t.lang (3 * μ.size t.wt.text + 8) := by
  unfold DataType.lang
  split
  · rename_i size _ _ _
    cases size <;> (simp only [sizeLang, DataType.wt]; fitting [Fits.parensTo Fits.number] [])
  · rename_i size _ _ _
    cases size <;> (simp only [sizeLang, DataType.wt]; fitting [Fits.parensTo Fits.number] [])
  · fitting [] [DataType.wt]
  · rename_i scale _ _ u _
    cases scale <;> cases u <;> (
      simp only [precisionLang, unsignedLang, flagTo, if_true, Bool.false_eq_true, if_false, DataType.wt]
      fitting [Fits.parensTo Fits.number, Fits.parensTo (Fits.number.cat (Fits.sym.cat Fits.number))] [])
  · exact Fits.never
  · rename_i size _ _ _ u _
    cases size <;> cases u <;> (
      simp only [sizeLang, unsignedLang, flagTo, if_true, Bool.false_eq_true, if_false, DataType.wt]
      fitting [Fits.parensTo Fits.number] [])
  · rename_i u _
    cases u <;> (simp only [unsignedLang, flagTo, if_true, Bool.false_eq_true, if_false, DataType.wt]; fitting [] [])
  · rename_i u _
    cases u <;> (simp only [unsignedLang, flagTo, if_true, Bool.false_eq_true, if_false, DataType.wt]; fitting [] [])
  · rename_i u _
    cases u <;> (simp only [bigUnsignedLang, if_true, Bool.false_eq_true, if_false, DataType.wt]; fitting [] [])
  · rename_i u _
    cases u <;> (simp only [unsignedLang, flagTo, if_true, Bool.false_eq_true, if_false, DataType.wt]; fitting [] [])
  · fitting [] [DataType.wt]
  · fitting [] [DataType.wt]
  · fitting [] [DataType.wt]
  · fitting [Fits.timeZone] [DataType.wt]
  · rename_i w _ _
    cases w <;> (simp only [DataType.wt]; fitting [Fits.timeZone] [])
  · fitting [] [DataType.wt]
  · fitting [] [DataType.wt]
  · fitting [] [DataType.wt]
  · fitting [] [DataType.wt]
  · exact Fits.never
  · fitting [] [DataType.wt]
  all_goals exact Fits.never

/-! ### Parts of expressions and queries -/

section
variable {μ : Measure}

theorem Fits.binaryOp {op : Operator} : Fits μ (Spec.binaryOp op) (3 * μ.size op.wt.text + 8) := by
  unfold Spec.binaryOp
  split <;> (rename_i h; first | exact Fits.never | fitting [] [Operator.wt, h])

theorem Fits.unaryOp {p : Pos} {op : Operator} : Fits μ (Spec.unaryOp p op) (3 * μ.size op.wt.text + 8) := by
  unfold Spec.unaryOp
  split <;> (rename_i h; first | exact Fits.never | fitting [] [Operator.wt, h])

theorem Fits.bound {x : FrameBound} : Fits μ (boundLang x) (3 * μ.size x.wt.text) := by
  cases x <;> (unfold boundLang; fitting [] [FrameBound.wt])

theorem Fits.unit {u : WindowFrameUnit} : Fits μ (unitLang u) (3 * μ.size u.wt.text + 32) := by
  unfold unitLang
  split <;> (rename_i h; fitting [] [WindowFrameUnit.wt, h])

/-- What is written for a frame, with a space before it. -/
def frameSize (μ : Measure) : Option WindowFrame → Nat
  | some f => 3 * μ.size f.wt.text + 3
  | none => 0

theorem Fits.frame {x : Option WindowFrame} : Fits μ (frameLang x) (frameSize μ x) := by
  rcases x with _ | ⟨u, s, _ | e⟩
  · exact Fits.zero
  · unfold frameLang; fitting [Fits.unit, Fits.bound] [frameSize, WindowFrame.wt]
  · unfold frameLang; fitting [Fits.unit, Fits.bound] [frameSize, WindowFrame.wt]

def directionSize : Option Bool → Nat
  | some true => 12
  | some false => 15
  | none => 0

theorem Fits.direction {x : Option Bool} : Fits μ (directionLang x) (directionSize x) := by
  rcases x with _ | _ | _
  · exact Fits.zero
  · unfold directionLang; fitting [] [directionSize]
  · unfold directionLang; fitting [] [directionSize]

/-- What is written for a limit, with a space before it. -/
def limitSize (μ : Measure) : Option LimitExpr → Nat
  | some l => 3 * μ.size l.wt.text + 3
  | none => 0

theorem Fits.limit {x : Option LimitExpr} : Fits μ (limitLang x) (limitSize μ x) := by
  rcases x with _ | ⟨_ | n, ap, lp, _ | o⟩
  · exact Fits.zero
  · unfold limitLang; fitting [] [limitSize, LimitExpr.wt, LongValue.wt]
  · exact Fits.never
  · unfold limitLang; fitting [] [limitSize, LimitExpr.wt, LongValue.wt]
  · unfold limitLang; fitting [] [limitSize, LimitExpr.wt, LongValue.wt]

theorem Fits.setOp {x : SetOp} : Fits μ (setOpLang x) (3 * μ.size x.wt.text + 33) := by
  cases x <;> (unfold setOpLang; fitting [] [SetOp.wt])

theorem Fits.joinType {n : Bool} {ty : JoinType} : Fits μ (joinTypeLang n ty) (3 * μ.size ty.wt.text) := by
  unfold joinTypeLang
  split <;> rename_i h
  · cases n <;> (simp only [if_true, Bool.false_eq_true, if_false]; fitting [] [JoinType.wt, JoinType.text, h])
  all_goals fitting [] [JoinType.wt, JoinType.text, h]

theorem Fits.alias {bad : List KW} {i : Ident} : Fits μ (aliasLang bad i) (max 11 (11 * μ.size i.value)) := by
  unfold aliasLang
  fitting [] []

/-- What is written for the alias of a table.  One character less has room in the tokens of the alias. -/
def aliasSize (μ : Measure) : Option Ident → Nat
  | some i => 3 * μ.size i.value + 8
  | none => 0

theorem Fits.tableAlias {q : Quirks} {i : Option Ident} : Fits μ (tableAliasLang q i) (aliasSize μ i) := by
  cases i with
  | none => exact Fits.zero
  | some a => exact Fits.alias.mono (by simp only [aliasSize]; omega)

theorem size_alias (i : Option Ident) : 3 * μ.size (Step.texts (aliasSteps i)) ≤ aliasSize μ i + 4 := by
  cases i <;> sizes [aliasSize]

theorem Fits.subquery {w : Bool} {p : Pos} {a : Lang} {m : Nat} (h : Fits μ a m) : Fits μ (subqueryLang w p a) (m + 22) := by
  cases w <;> (simp only [subqueryLang, if_true, Bool.false_eq_true, if_false]; fitting [h] [])

theorem Fits.clauseOr {other : Lang} {wrap : Lang → Lang} {as : List Lang} {xs : List Wt} (k : Nat)
    (hw : ∀ a m, Fits μ a m → Fits μ (wrap a) (m + k)) (h : FitsW μ as xs) :
    Fits μ (Spec.clauseOr other wrap as) (if xs.isEmpty then 0 else 3 * μ.size (Step.texts (Step.join (str% ", ") xs)) + k) := by
  cases h with
  | nil => exact Fits.zero
  | cons h1 h2 => exact hw _ _ (Fits.sepBy (.cons h1 h2))

theorem Fits.clause {wrap : Lang → Lang} {as : List Lang} {xs : List Wt} (k : Nat)
    (hw : ∀ a m, Fits μ a m → Fits μ (wrap a) (m + k)) (h : FitsW μ as xs) :
    Fits μ (Spec.clause wrap as) (if xs.isEmpty then 0 else 3 * μ.size (Step.texts (Step.join (str% ", ") xs)) + k) :=
  Fits.clauseOr k hw h

theorem Fits.asIs (a : Lang) (m : Nat) (h : Fits μ a m) : Fits μ (id a) (m + 0) := h

/-- An optional expression with `k` thirds of a character more. -/
def optSize (μ : Measure) (fns : FloatFns) (k : Nat) : Option Expr → Nat
  | some x => 3 * μ.size (x.wt fns).text + 4 + k
  | none => 0

theorem Fits.whens {fns : FloatFns} {q : Quirks} : ∀ {cs : List Expr} {rs : List Lang} {ys : List Wt},
    FitsW μ (Expr.langs fns q cs) (Expr.wts fns cs) → FitsW μ rs ys →
    Fits μ (Spec.whens (Expr.langs fns q cs) rs) (3 * μ.size (Step.texts (caseSteps fns cs ys)))
  | [], _, _, _, .nil => by simp only [caseSteps]; exact Fits.zero
  | [], _, _, _, .cons _ _ => by simp only [caseSteps]; exact Fits.zero
  | _ :: _, _, _, _, .nil => by simp only [caseSteps]; exact Fits.zero
  | c :: cs, _, _, h, .cons h1 h2 => by
    simp only [Expr.langs, Expr.wts] at h
    cases h with
    | cons h3 h4 =>
      have h5 := Fits.whens h4 h2
      simp only [Expr.langs, Spec.whens]
      fitting [h3, h1, h5] [caseSteps]

end

/-! ### Expressions and queries -/

section
variable {μ : Measure} {fns : FloatFns} (q : Quirks)
  (hf : ∀ s v, '.' ∈ s → fns.parse s = some v → μ.size (fns.format v) ≤ μ.size s)
set_option linter.unusedSectionVars false
include hf

mutual

theorem Expr.fits : (x : Expr) → Fits μ (x.lang fns q) (3 * μ.size (x.wt fns).text + 4)
  | .ident i => by rw [Expr.lang]; fitting [] [Expr.wt]
  | .wildcard p => by rw [Expr.lang]; fitting [] [Expr.wt]
  | .qualifiedWildcard is => by rw [Expr.lang]; fitting [] [Expr.wt]
  | .compoundIdent is => by rw [Expr.lang]; fitting [] [Expr.wt]
  | .isNull x => by rw [Expr.lang]; fitting [x.fits] [Expr.wt]
  | .isNotNull x => by rw [Expr.lang]; fitting [x.fits] [Expr.wt]
  | .inList x l neg rp => by
    rw [Expr.lang]
    cases neg <;> (simp only [flag, if_true, Bool.false_eq_true, if_false]; fitting [x.fits, Fits.parensTo (Fits.sepBy (Expr.fitsW l))] [Expr.wt])
  | .inSubQuery x s neg rp => by
    rw [Expr.lang]
    cases neg <;> (simp only [flag, if_true, Bool.false_eq_true, if_false]; fitting [x.fits, Fits.subquery s.fits] [Expr.wt])
  | .between x neg low high => by
    rw [Expr.lang]
    cases neg <;> (simp only [flag, if_true, Bool.false_eq_true, if_false]; fitting [x.fits, low.fits, high.fits] [Expr.wt])
  | .binary l op r => by rw [Expr.lang]; fitting [l.fits, Fits.binaryOp, r.fits] [Expr.wt]
  | .cast x ty c rp => by rw [Expr.lang]; fitting [x.fits, ty.fits] [Expr.wt]
  | .nested x lp rp => by rw [Expr.lang]; fitting [x.fits] [Expr.wt]
  | .unary p op x => by rw [Expr.lang]; fitting [x.fits, Fits.unaryOp] [Expr.wt]
  | .function name args rp none orp => by
    rw [Expr.lang]
    apply Fits.mono
    · fits [Fits.parensTo (Fits.clause (wrap := id) 0 Fits.asIs (Expr.fitsW args))]
    · cases args <;> sizes [Expr.wt, overSteps, Expr.wts, Step.join]
  | .function name args rp (some w) orp => by
    rw [Expr.lang]
    apply Fits.mono
    · fits [Fits.parensTo (Fits.clause (wrap := id) 0 Fits.asIs (Expr.fitsW args)), w.fits]
    · cases args <;> sizes [Expr.wt, overSteps, Expr.wts, Step.join]
  | .caseExpr c e operand conditions results elseResult => by
    rw [Expr.lang]
    apply Fits.mono
    · fits [Expr.fitsO operand (wrap := id) 0 Fits.asIs, Fits.whens (Expr.fitsW conditions) (Expr.fitsW results),
        Expr.fitsO elseResult 44 (fun a m h => by fitting [h] [])]
    · cases operand <;> cases elseResult <;> sizes [Expr.wt, optSteps, optSize]
  | .exists_ neg s n e rp => by
    rw [Expr.lang]
    cases neg <;> (simp only [flagFrom, if_true, Bool.false_eq_true, if_false]; fitting [Fits.parensTo s.fits] [Expr.wt])
  | .subQuery rp lp s => by rw [Expr.lang]; fitting [Fits.subquery s.fits] [Expr.wt]
  | .long v => by rw [Expr.lang]; fitting [] [Expr.wt, LongValue.wt]
  | .double f t v => by rw [Expr.lang]; fitting [Fits.double hf] [Expr.wt]
  | .singleQuoted f t s => by rw [Expr.lang]; fitting [] [Expr.wt]
  | .national f t s => by rw [Expr.lang]; fitting [] [Expr.wt]
  | .boolean f t b => by rw [Expr.lang]; cases b <;> (simp only [if_true, Bool.false_eq_true, if_false]; fitting [] [Expr.wt])
  | .null f t => by rw [Expr.lang]; fitting [] [Expr.wt]
  | .timeValue _ _ _ _ => by rw [Expr.lang]; exact Fits.never

theorem Expr.fitsW : (xs : List Expr) → FitsW μ (Expr.langs fns q xs) (Expr.wts fns xs)
  | [] => by rw [Expr.langs, Expr.wts]; exact .nil
  | x :: xs => by rw [Expr.langs, Expr.wts]; exact .cons (x.fits.mono (Nat.le_add_right _ _)) (Expr.fitsW xs)

theorem Expr.fitsO : (x : Option Expr) → ∀ {wrap : Lang → Lang} (k : Nat), (∀ a m, Fits μ a m → Fits μ (wrap a) (m + k)) →
    Fits μ (optional wrap (Expr.langO fns q x)) (optSize μ fns k x)
  | none => fun k _ => Fits.zero
  | some x => fun k h => by rw [Expr.langO]; exact h _ _ x.fits

theorem WindowSpec.fits : (x : WindowSpec) → Fits μ (x.lang fns q) (3 * μ.size (x.wt fns).text + 6)
  | .mk partitionBy orderBy frame p o => by
    rw [WindowSpec.lang]
    apply Fits.mono
    · fits [Fits.clauseOr 121 (fun a m h => by fitting [h] []) (Expr.fitsW partitionBy),
        Fits.clauseOr 77 (fun a m h => by fitting [h] []) (OrderByExpr.fitsW orderBy), Fits.frame]
    · cases partitionBy <;> cases orderBy <;> cases frame <;>
        sizes [WindowSpec.wt, Expr.wts, OrderByExpr.wts, frameSize]

theorem OrderByExpr.fits : (x : OrderByExpr) → Fits μ (x.lang fns q) (3 * μ.size (x.wt fns).text)
  | .mk x p asc => by
    rw [OrderByExpr.lang]
    apply Fits.mono
    · fits [x.fits, Fits.direction]
    · rcases asc with _ | _ | _ <;> sizes [OrderByExpr.wt, directionSize]

theorem OrderByExpr.fitsW : (xs : List OrderByExpr) → FitsW μ (OrderByExpr.langs fns q xs) (OrderByExpr.wts fns xs)
  | [] => by rw [OrderByExpr.langs, OrderByExpr.wts]; exact .nil
  | x :: xs => by rw [OrderByExpr.langs, OrderByExpr.wts]; exact .cons x.fits (OrderByExpr.fitsW xs)

theorem QueryStmt.fits : (x : QueryStmt) → Fits μ (x.lang fns q) (3 * μ.size (x.wt fns).text)
  | .mk w ctes body orderBy limit => by
    rw [QueryStmt.lang]
    apply Fits.mono
    · fits [Fits.clause 44 (fun a m h => by fitting [h] []) (CTE.fitsW ctes), body.fits,
        Fits.clause 77 (fun a m h => by fitting [h] []) (OrderByExpr.fitsW orderBy), Fits.limit]
    · cases ctes <;> cases orderBy <;> cases limit <;> sizes [QueryStmt.wt, CTE.wts, OrderByExpr.wts, limitSize]

theorem CTE.fits : (x : CTE) → Fits μ (x.lang fns q) (3 * μ.size (x.wt fns).text)
  | .mk alias s rp => by rw [CTE.lang]; fitting [Fits.parens s.fits] [CTE.wt]

theorem CTE.fitsW : (xs : List CTE) → FitsW μ (CTE.langs fns q xs) (CTE.wts fns xs)
  | [] => by rw [CTE.langs, CTE.wts]; exact .nil
  | x :: xs => by rw [CTE.langs, CTE.wts]; exact .cons x.fits (CTE.fitsW xs)

theorem SetExpr.fits : (x : SetExpr) → Fits μ (x.lang fns q) (3 * μ.size (x.wt fns).text)
  | .selectExpr _ => by rw [SetExpr.lang]; exact Fits.never
  | .select s => by rw [SetExpr.lang, SetExpr.wt]; exact s.fits
  | .query lp rp s => by rw [SetExpr.lang]; fitting [Fits.parens s.fits] [SetExpr.wt]
  | .setOp op all l r => by
    rw [SetExpr.lang]
    cases all <;> (simp only [flag, if_true, Bool.false_eq_true, if_false]; fitting [l.fits, r.fits, Fits.setOp] [SetExpr.wt])

theorem SQLSelect.fits : (x : SQLSelect) → Fits μ (x.lang fns q) (3 * μ.size (x.wt fns).text)
  | .mk distinct projection from_ where_ groupBy having p => by
    rw [SQLSelect.lang]
    cases distinct <;> (
      simp only [flag, if_true, Bool.false_eq_true, if_false]
      apply Fits.mono
      · fits [SelectItem.fitsW projection, Fits.clause 44 (fun a m h => by fitting [h] []) (TableRef.fitsW from_),
          Expr.fitsO where_ 55 (fun a m h => by fitting [h] []),
          Fits.clause 77 (fun a m h => by fitting [h] []) (Expr.fitsW groupBy),
          Expr.fitsO having 66 (fun a m h => by fitting [h] [])]
      · cases from_ <;> cases where_ <;> cases groupBy <;> cases having <;>
          sizes [SQLSelect.wt, TableRef.wts, Expr.wts, optSteps, optSize])

theorem SelectItem.fits : (x : SelectItem) → Fits μ (x.lang fns q) (3 * μ.size (x.wt fns).text)
  | .unnamed x => by rw [SelectItem.lang, SelectItem.wt]; exact x.fits.mono (Nat.le_add_right _ _)
  | .alias x a => by rw [SelectItem.lang]; fitting [x.fits, Fits.alias] [SelectItem.wt]
  | .qualifiedWildcard p => by rw [SelectItem.lang]; fitting [] [SelectItem.wt]
  | .wildcard _ _ => by rw [SelectItem.lang]; exact Fits.never

theorem SelectItem.fitsW : (xs : List SelectItem) → FitsW μ (SelectItem.langs fns q xs) (SelectItem.wts fns xs)
  | [] => by rw [SelectItem.langs, SelectItem.wts]; exact .nil
  | x :: xs => by rw [SelectItem.langs, SelectItem.wts]; exact .cons x.fits (SelectItem.fitsW xs)

theorem TableFactor.fits : (x : TableFactor) → Fits μ (x.lang fns q) (3 * μ.size (x.wt fns).text)
  | .table name alias [] arp hints hrp => by
    rw [TableFactor.lang]
    apply Fits.mono
    · fits [Fits.tableAlias, Fits.clause 66 (fun a m h => by fitting [Fits.parens h] []) (Expr.fitsW hints)]
    · cases alias <;> cases hints <;> sizes [TableFactor.wt, Expr.wts, aliasSize]
  | .table name alias (x :: xs) arp hints hrp => by
    rw [TableFactor.lang]
    · apply Fits.mono
      · fits [Fits.tableAlias, Expr.fitsW (x :: xs),
          Fits.clause 66 (fun a m h => by fitting [Fits.parens h] []) (Expr.fitsW hints)]
      · cases alias <;> cases hints <;> sizes [TableFactor.wt, Expr.wts, aliasSize]
    · simp
  | .derived lateral p lp rp s alias => by
    rw [TableFactor.lang]
    cases lateral <;> (
      simp only [flag, if_true, Bool.false_eq_true, if_false]
      apply Fits.mono
      · fits [Fits.parens s.fits, Fits.tableAlias]
      · cases alias <;> sizes [TableFactor.wt, aliasSize])

theorem TableRef.fits : (x : TableRef) → Fits μ (x.lang fns q) (3 * μ.size (x.wt fns).text)
  | .factor f => by rw [TableRef.lang, TableRef.wt]; exact f.fits
  | .cross r f => by rw [TableRef.lang]; fitting [r.fits, f.fits] [TableRef.wt]
  | .partitioned _ _ _ => by rw [TableRef.lang]; exact Fits.never
  | .qualified l ty r spec => by rw [TableRef.lang]; fitting [l.fits, r.fits, spec.fits, Fits.joinType] [TableRef.wt]
  | .natural l ty r => by rw [TableRef.lang]; fitting [l.fits, r.fits, Fits.joinType] [TableRef.wt]

theorem TableRef.fitsW : (xs : List TableRef) → FitsW μ (TableRef.langs fns q xs) (TableRef.wts fns xs)
  | [] => by rw [TableRef.langs, TableRef.wts]; exact .nil
  | x :: xs => by rw [TableRef.langs, TableRef.wts]; exact .cons x.fits (TableRef.fitsW xs)

theorem JoinSpec.fits : (x : JoinSpec) → Fits μ (x.lang fns q) (3 * μ.size (x.wt fns).text)
  | .namedColumns is u rp => by rw [JoinSpec.lang]; fitting [Fits.parens Fits.idents] [JoinSpec.wt]
  | .condition x p => by rw [JoinSpec.lang]; fitting [x.fits] [JoinSpec.wt]

end

/-! ### Statements -/

theorem Fits.where_ (x : Option Expr) : Fits μ (whereLang fns q x) (optSize μ fns 55 x) :=
  Expr.fitsO q hf x 55 (fun a m h => by fitting [h] [])

omit hf in
theorem Fits.columns {is : List Ident} : Fits μ (columnsLang is)
    (if is.isEmpty then 0 else 3 * μ.size ((str% ", ").intercalate (is.map (·.value))) + 22) := by
  cases is with
  | nil => exact Fits.zero
  | cons i is => exact Fits.parens Fits.words

theorem Assignment.fits (a : Assignment) : Fits μ (a.lang fns q) (3 * μ.size (a.wt fns).text) := by
  unfold Assignment.lang
  fitting [a.value.fits q hf] [Assignment.wt]

omit hf in
theorem Expr.wts_map : ∀ xs : List Expr, xs.map (Expr.wt fns) = Expr.wts fns xs
  | [] => by rw [Expr.wts, List.map]
  | x :: xs => by rw [Expr.wts, List.map, Expr.wts_map xs]

theorem RowValueExpr.fits (r : RowValueExpr) : Fits μ (r.lang fns q) (3 * μ.size (r.wt fns).text) := by
  unfold RowValueExpr.lang
  fitting [Expr.fitsW q hf r.values] [RowValueExpr.wt, Expr.wts_map]

theorem InsertSource.fits (s : InsertSource) : Fits μ (s.lang fns q) (3 * μ.size (s.wt fns).text) := by
  cases s with
  | subQuery s => rw [InsertSource.lang, InsertSource.wt]; exact s.fits q hf
  | constructor v rows => unfold InsertSource.lang; fitting [FitsW.map (RowValueExpr.fits q hf) rows] [InsertSource.wt]

omit hf in
theorem Fits.referenced {is : List Ident} :
    Fits μ (referencedLang q is) (3 * μ.size ((str% ", ").intercalate (is.map (·.value)))) := by
  cases is with
  | nil => exact Fits.zero
  | cons i is => exact Fits.idents

theorem TableConstraintSpec.fits (x : TableConstraintSpec) : Fits μ (x.lang fns q) (3 * μ.size (x.wt fns).text) := by
  cases x with
  | unique b p u rp is =>
    cases b <;> (unfold TableConstraintSpec.lang; fitting [Fits.parensTo Fits.idents] [TableConstraintSpec.wt])
  | referential p is key =>
    unfold TableConstraintSpec.lang
    fitting [Fits.parensTo (Fits.referenced q), Fits.parens Fits.idents] [TableConstraintSpec.wt, ReferenceKeyExpr.wt]
  | check p rp x => unfold TableConstraintSpec.lang; fitting [Fits.parensTo (x.fits q hf)] [TableConstraintSpec.wt]

theorem TableConstraint.fits (x : TableConstraint) : Fits μ (x.lang fns q) (3 * μ.size (x.wt fns).text) := by
  obtain ⟨c, name, spec⟩ := x
  unfold TableConstraint.lang
  cases name <;> (simp only [nameLang]; fitting [spec.fits q hf] [TableConstraint.wt, constraintName])

theorem ColumnSpec.fits (x : ColumnSpec) : Fits μ (x.lang fns q) (3 * μ.size (x.wt fns).text + 4) := by
  cases x with
  | notNull n n' => unfold ColumnSpec.lang; fitting [] [ColumnSpec.wt]
  | unique b p k u => cases b <;> (unfold ColumnSpec.lang; fitting [] [ColumnSpec.wt])
  | references p rp name is => unfold ColumnSpec.lang; fitting [Fits.parensTo Fits.idents] [ColumnSpec.wt]
  | check x p rp => unfold ColumnSpec.lang; fitting [Fits.parensTo (x.fits q hf)] [ColumnSpec.wt]

theorem ColumnConstraint.fits (x : ColumnConstraint) : Fits μ (x.lang fns q) (3 * μ.size (x.wt fns).text) := by
  obtain ⟨name, c, spec⟩ := x
  unfold ColumnConstraint.lang
  cases name <;> (simp only [columnNameLang]; fitting [spec.fits q hf] [ColumnConstraint.wt, constraintName])

omit hf in
/-- The sizes of the parts of a column definition that the items of a language give. -/
def defaultSize (μ : Measure) (fns : FloatFns) : Option Expr → Nat
  | some x => 3 * μ.size (x.wt fns).text + 27
  | none => 0

omit hf in
def constraintsSize (μ : Measure) (fns : FloatFns) (cs : List ColumnConstraint) : Nat :=
  (cs.map fun x => 3 * μ.size (x.wt fns).text).sum

omit hf in
def itemSize (μ : Measure) (fns : FloatFns) : ColumnItem → Nat
  | .default_ x => 3 * μ.size (x.wt fns).text + 27
  | .constraints cs => constraintsSize μ fns cs
  | .autoIncrement _ => 45

omit hf in
theorem itemSize_items (items : List ColumnItem) :
    defaultSize μ fns (items.filterMap ColumnItem.default?).getLast? +
      constraintsSize μ fns (((items.filterMap ColumnItem.constraints?).getLast?).getD []) +
      45 * (items.filterMap ColumnItem.autoIncrement?).length ≤ (items.map (itemSize μ fns)).sum := by
  induction items with
  | nil => simp [defaultSize, constraintsSize]
  | cons i items ih =>
    cases i with
    | default_ x =>
      simp only [List.filterMap_cons, ColumnItem.default?, ColumnItem.constraints?, ColumnItem.autoIncrement?,
        List.map_cons, List.sum_cons, itemSize]
      generalize items.filterMap ColumnItem.default? = l at ih ⊢
      cases l with
      | nil => simp only [List.getLast?_singleton, List.getLast?_nil, defaultSize] at ih ⊢; omega
      | cons y l => rw [List.getLast?_cons_cons]; omega
    | constraints cs =>
      simp only [List.filterMap_cons, ColumnItem.default?, ColumnItem.constraints?, ColumnItem.autoIncrement?,
        List.map_cons, List.sum_cons, itemSize]
      generalize items.filterMap ColumnItem.constraints? = l at ih ⊢
      cases l with
      | nil => simp only [List.getLast?_singleton, List.getLast?_nil, Option.getD_some, Option.getD_none] at ih ⊢; omega
      | cons y l => rw [List.getLast?_cons_cons]; omega
    | autoIncrement a =>
      simp only [List.filterMap_cons, ColumnItem.default?, ColumnItem.constraints?, ColumnItem.autoIncrement?,
        List.map_cons, List.sum_cons, itemSize, List.length_cons]
      omega

omit hf in
theorem Fits.sum {α : Type} {f : α → Lang} {g : α → Nat} (h : ∀ x, Fits μ (f x) (g x)) :
    ∀ l : List α, Fits μ (Spec.concat (l.map f)) (l.map g).sum
  | [] => Fits.zero
  | x :: l => ((h x).cat (Fits.sum h l)).mono (by simp)

theorem ColumnItem.fits (x : ColumnItem) : Fits μ (x.lang fns q) (itemSize μ fns x) := by
  cases x with
  | default_ x => unfold ColumnItem.lang; fitting [x.fits q hf] [itemSize]
  | constraints cs =>
    unfold ColumnItem.lang
    fitting [Fits.sum (ColumnConstraint.fits q hf) cs] [itemSize, constraintsSize]
  | autoIncrement a => unfold ColumnItem.lang; fitting [] [itemSize]

omit hf in
theorem texts_constraints (cs : List ColumnConstraint) :
    3 * μ.size (Step.texts (cs.map fun x => .node (x.wt fns))) = constraintsSize μ fns cs := by
  induction cs with
  | nil => simp [Step.texts, constraintsSize]
  | cons c cs ih => simp [Step.texts, Step.text, constraintsSize] at ih ⊢; omega

omit hf in
theorem texts_decorations (ds : List AutoIncrement) :
    3 * μ.size (Step.texts (ds.flatMap fun m => [.bytes (str% " "), .node m.wt])) = 45 * ds.length := by
  induction ds with
  | nil => simp [Step.texts]
  | cons d ds ih => simp [Step.texts, Step.text, AutoIncrement.wt, Wt.text, Spec.Measure.ascii] at ih ⊢; omega

theorem ColumnDef.fits (c : ColumnDef) : Fits μ (c.lang fns q) (3 * μ.size (c.wt fns).text) := by
  unfold ColumnDef.lang
  have key : Fits μ (fun ts => ∃ items, Spec.concat (items.map (ColumnItem.lang fns q)) ts ∧
      ColumnItems items c.default_ c.constraints c.decorations ∧
      (q.odd = true ∨ (ColumnItem.separated items && ColumnItem.single items) = true))
      (defaultSize μ fns c.default_ + constraintsSize μ fns c.constraints + 45 * c.decorations.length) := by
    rintro ts ⟨items, h1, h2, -⟩
    rw [h2.default_, h2.constraints, h2.decorations]
    exact Nat.le_trans (itemSize_items items) (Fits.sum (ColumnItem.fits q hf) items ts h1)
  apply Fits.mono
  · fits [c.dataType.fits, key]
  · have h1 := texts_constraints (μ := μ) (fns := fns) c.constraints
    have h2 := texts_decorations (μ := μ) c.decorations
    cases hd : c.default_ <;>
      simp only [ColumnDef.wt, hd, Wt.text, texts_append, Step.texts, Step.text, size_append, h1, h2, defaultSize,
        List.append_assoc, List.nil_append, size_ascii] <;> sizes []

theorem TableElement.fits (x : TableElement) : Fits μ (x.lang fns q) (3 * μ.size (x.wt fns).text) := by
  cases x with
  | constraint c => exact c.fits q hf
  | column c => exact c.fits q hf

omit hf in
theorem TableOption.fits (x : TableOption) : Fits μ x.lang (3 * μ.size x.wt.text + 6) := by
  cases x with
  | engine p equal name =>
    cases equal <;> (simp only [TableOption.lang, flag, if_true, Bool.false_eq_true, if_false]; fitting [] [TableOption.wt])
  | charset d p c equal name =>
    cases equal <;> cases d <;> (simp only [TableOption.lang, flag, flagFrom, if_true, Bool.false_eq_true, if_false]
                                 fitting [] [TableOption.wt])

omit hf in
theorem Fits.options : ∀ xs : List TableOption,
    Fits μ (Spec.concat (xs.map TableOption.lang)) (3 * μ.size (Step.texts (Step.join (str% ", ") (xs.map TableOption.wt))))
  | [] => Fits.zero
  | [x] => by simp only [List.map, Spec.concat]; fitting [x.fits] [Step.join]
  | x :: y :: xs => by
    refine (x.fits.cat (Fits.options (y :: xs))).mono ?_
    simp only [List.map_cons]
    rw [size_join_cons, size_comma]
    omega

theorem AlterColumnAction.fits (x : AlterColumnAction) : Fits μ (x.lang fns q) (3 * μ.size (x.wt fns).text) := by
  cases x <;> (unfold AlterColumnAction.lang; fitting [Expr.fits q hf _, DataType.fits _] [AlterColumnAction.wt])

theorem AlterTableAction.fits (x : AlterTableAction) : Fits μ (x.lang fns q) (3 * μ.size (x.wt fns).text) := by
  cases x with
  | addColumn p c => unfold AlterTableAction.lang; fitting [c.fits q hf] [AlterTableAction.wt]
  | alterColumn name p a => unfold AlterTableAction.lang; fitting [a.fits q hf] [AlterTableAction.wt]
  | removeColumn name b cp p =>
    cases b <;> (simp only [AlterTableAction.lang, flagTo, if_true, Bool.false_eq_true, if_false]
                 fitting [] [AlterTableAction.wt])
  | addConstraint p c => unfold AlterTableAction.lang; fitting [c.fits q hf] [AlterTableAction.wt]
  | dropConstraint name p b cp =>
    cases b <;> (simp only [AlterTableAction.lang, flagTo, if_true, Bool.false_eq_true, if_false]
                 fitting [] [AlterTableAction.wt])

omit hf in
theorem Fits.name (o : ObjectName) : Fits μ (Spec.objectName o) (3 * μ.size o.wt.text) :=
  Fits.objectName.mono (by sizes [])

theorem Stmt.fits : (s : Stmt) → Fits μ (s.lang fns q) (3 * μ.size (s.wt fns).text)
  | .query s => s.fits q hf
  | .insert p name is source assigns => by
    rw [Stmt.lang]
    apply Fits.mono
    · fits [Fits.columns, source.fits q hf,
        Fits.clause 198 (fun a m h => by fitting [h] []) (FitsW.map (Assignment.fits q hf) assigns)]
    · cases is <;> cases assigns <;> sizes [Stmt.wt]
  | .update p name assigns cond => by
    rw [Stmt.lang]
    apply Fits.mono
    · fits [Fits.where_ q hf cond, FitsW.map (Assignment.fits q hf) assigns]
    · cases cond <;> sizes [Stmt.wt, optSize]
  | .delete p name cond => by
    rw [Stmt.lang]
    apply Fits.mono
    · fits [Fits.where_ q hf cond]
    · cases cond <;> sizes [Stmt.wt, optSize]
  | .createView p name s false => by rw [Stmt.lang]; fitting [s.fits q hf] [Stmt.wt]
  | .createView _ _ _ true => by rw [Stmt.lang]; exact Fits.never
  | .createTable p name elements notExists options => by
    rw [Stmt.lang]
    cases notExists <;> (
      simp only [flag, if_true, Bool.false_eq_true, if_false]
      apply Fits.mono
      · fits [Fits.clause 22 (fun a m h => Fits.parens h) (FitsW.map (TableElement.fits q hf) elements), Fits.options options]
      · cases elements <;> sizes [Stmt.wt, Step.join])
  | .alterTable p name action => by rw [Stmt.lang]; fitting [action.fits q hf] [Stmt.wt]
  | .dropTable names cascade cp ifExists p => by
    rw [Stmt.lang]
    cases cascade <;> cases ifExists <;> (
      simp only [flag, flagTo, if_true, Bool.false_eq_true, if_false]
      fitting [FitsW.map Fits.name names] [Stmt.wt])
  | .createIndex p name unique indexName methodName is rp cond => by
    rw [Stmt.lang]
    cases unique <;> cases indexName <;> cases methodName <;> (
      simp only [Option.map, Spec.optional, id, if_true, Bool.false_eq_true, if_false]
      apply Fits.mono
      · fits [Fits.columns, Fits.where_ q hf cond]
      · cases cond <;> cases is <;> sizes [Stmt.wt, optSize])
  | .dropIndex p is => by rw [Stmt.lang]; fitting [] [Stmt.wt]
  | .explain s p => by rw [Stmt.lang]; fitting [s.fits] [Stmt.wt]
  | .copy _ _ _ _ => by rw [Stmt.lang]; exact Fits.never

/-- The statements of a script, with what File.WriteTo puts between them. -/
theorem Fits.script (ss : List Stmt) :
    Fits μ (scriptLang fns q ss) (3 * μ.size (Step.texts (Step.join (str% "\n") (ss.map (Stmt.wt fns))))) := by
  have key : ∀ ss : List Stmt, Fits μ (Spec.concat (ss.map fun s => s.lang fns q ⬝ Spec.sym .Semicolon))
      (3 * μ.size (Step.texts (Step.join (str% "\n") (ss.map (Stmt.wt fns))))) := by
    intro ss
    induction ss with
    | nil => exact Fits.zero
    | cons s ss ih =>
      simp only [List.map_cons, Spec.concat]
      apply Fits.mono
      · fits [s.fits q hf, ih]
      · cases ss with
        | nil => sizes [Step.join]
        | cons s' ss =>
          simp only [List.map_cons]
          rw [size_join_cons]
          sizes []
  unfold scriptLang
  fitting [key ss] []

/-- The statements of a script one by one, each with its semicolon. -/
theorem Fits.statements (ss : List Stmt) :
    Fits μ (scriptLang fns q ss) (3 * (ss.map fun s => μ.size (s.wt fns).text).sum + 11 * ss.length) := by
  have key : ∀ ss : List Stmt, Fits μ (Spec.concat (ss.map fun s => s.lang fns q ⬝ Spec.sym .Semicolon))
      (3 * (ss.map fun s => μ.size (s.wt fns).text).sum + 11 * ss.length) := by
    intro ss
    induction ss with
    | nil => exact Fits.zero
    | cons s ss ih =>
      simp only [List.map_cons, Spec.concat]
      fitting [s.fits q hf, ih] []
  unfold scriptLang
  fitting [key ss] []

end

end Verif
