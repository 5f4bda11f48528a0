import Verif.Spec.Grammar
import Verif.Spec.Kept
import Verif.Proofs.Writer
import Verif.Proofs.PrintText
/-
A character that the printer does not write on its own occurs in the text printed for a tree at most as often as in any
sentence of the tree.
-/
set_option linter.unusedVariables false
set_option linter.unusedSimpArgs false
namespace Verif
open Spec

/-! ### Counting a character -/

/-- A character that is counted. -/
structure Kept where
  char : Char
  foreign : own char = false

def Kept.one (κ : Kept) (c : Char) : Nat := if c = κ.char then 1 else 0
def Kept.cnt (κ : Kept) (s : Str) : Nat := (s.map κ.one).sum

theorem Kept.own (κ : Kept) {c : Char} (h : Spec.own c = true) : κ.one c = 0 := by
  unfold Kept.one
  rw [if_neg]
  rintro rfl
  rw [κ.foreign] at h
  cases h

theorem Kept.cnt_eq (κ : Kept) (s : Str) : κ.cnt s = s.count κ.char := by
  induction s with
  | nil => rfl
  | cons c s ih =>
    rw [List.count_cons, ← ih]
    simp only [Kept.cnt, List.map_cons, List.sum_cons, Kept.one, beq_iff_eq]
    omega

/-- What a punctuation token counts. -/
def Kept.sym (κ : Kept) : Sym → Nat
  | .Lt | .LtEq => κ.one '<'
  | .Gt | .GtEq => κ.one '>'
  | .Plus => κ.one '+'
  | .Minus => κ.one '-'
  | .Mult => κ.one '*'
  | .Div => κ.one '/'
  | .Mod => κ.one '%'
  | .Period => κ.one '.'
  | .Semicolon => κ.one ';'
  | .LBracket => κ.one '['
  | .RBracket => κ.one ']'
  | _ => 0

def tokCnt (κ : Kept) : Tok → Nat
  | .word w => max (κ.cnt w.string) (κ.cnt w.value)
  | .number s => κ.cnt s
  | .single s => κ.cnt s + κ.one '\'' + κ.one '\''
  | .national s => κ.cnt s + κ.one '\'' + κ.one '\''
  | .sym k _ => κ.sym k
  | _ => 0

def toksCnt (κ : Kept) (ts : List Token) : Nat := (ts.map fun t => tokCnt κ t.tok).sum

section
variable {κ : Kept}

@[simp] theorem cnt_nil : κ.cnt [] = 0 := rfl
@[simp] theorem cnt_cons (c : Char) (s : Str) : κ.cnt (c :: s) = κ.one c + κ.cnt s := by simp [Kept.cnt]
@[simp] theorem cnt_append (s t : Str) : κ.cnt (s ++ t) = κ.cnt s + κ.cnt t := by simp [Kept.cnt]

theorem cnt_natStr (n : Nat) : κ.cnt (natStr n) = 0 := by
  induction n using natStr.induct with
  | case1 n h =>
    rw [natStr, if_pos h, cnt_cons, cnt_nil, κ.own]
    have : ∀ m : Fin 10, Spec.own (Char.ofNat (48 + m.val)) = true := by decide
    exact this ⟨n, h⟩
  | case2 n h ih =>
    rw [natStr, if_neg h, cnt_append, ih, cnt_cons, cnt_nil, κ.own]
    have : ∀ m : Fin 10, Spec.own (Char.ofNat (48 + m.val)) = true := by decide
    exact this ⟨n % 10, Nat.mod_lt _ (by omega)⟩

/-- A keyword is written with its underscores. -/
theorem cnt_spells {s : Str} {k : KW} (h : spells s k) (hk : '_' ∈ k.str) : κ.one '_' ≤ κ.cnt s := by
  have hs : '_' ∈ s := by
    rcases h with h | h
    · simp only [equalFold, beq_iff_eq] at h
      have h1 : '_' ∈ s.map foldC := by
        rw [h]; exact List.mem_map.2 ⟨'_', hk, by decide⟩
      obtain ⟨c, hc, e⟩ := List.mem_map.1 h1
      have : c = '_' := by
        unfold foldC at e
        split at e
        · rename_i hr
          have h1 : 65 ≤ c.toNat ∧ c.toNat ≤ 90 := hr
          have h2 : ∀ m : Fin 26, Char.ofNat (65 + m.val + 32) ≠ '_' := by decide
          refine absurd ?_ (h2 ⟨c.toNat - 65, by omega⟩)
          rw [← e]; congr 1
          simp only; omega
        · split at e
          · cases e
          · split at e
            · cases e
            · exact e
      exact this ▸ hc
    · have h1 : '_' ∈ s.map upperC := by rw [show s.map upperC = k.str from h]; exact hk
      obtain ⟨c, hc, e⟩ := List.mem_map.1 h1
      have : c = '_' := by
        unfold upperC at e
        split at e
        · rename_i hr
          have h1 : 97 ≤ c.toNat ∧ c.toNat ≤ 122 := hr
          have h2 : ∀ m : Fin 26, Char.ofNat (65 + m.val) ≠ '_' := by decide
          refine absurd ?_ (h2 ⟨c.toNat - 97, by omega⟩)
          rw [← e]; congr 1
          simp only; omega
        · split at e
          · cases e
          · split at e
            · cases e
            · exact e
      exact this ▸ hc
  clear h hk
  induction s with
  | nil => cases hs
  | cons c s ih =>
    rw [cnt_cons]
    rcases List.mem_cons.1 hs with rfl | hs
    · omega
    · have := ih hs; omega

theorem cnt_intStr {i : Int} (h : 0 ≤ i) : κ.cnt (intStr i) = 0 := by
  cases i with
  | ofNat n => exact cnt_natStr n
  | negSucc n => omega

end

/-! ### Counts of sentences -/

/-- The sentences of the language count at least `m`. -/
def Keeps (κ : Kept) (L : Lang) (m : Nat) : Prop := ∀ ts, L ts → m ≤ toksCnt κ ts

/-- Each of the languages is so for one of the texts. -/
inductive KeepsW (κ : Kept) : List Lang → List Wt → Prop
  | nil : KeepsW κ [] []
  | cons {a as x xs} : Keeps κ a (κ.cnt x.text) → KeepsW κ as xs → KeepsW κ (a :: as) (x :: xs)

theorem toksCnt_append (κ : Kept) (us vs : List Token) : toksCnt κ (us ++ vs) = toksCnt κ us + toksCnt κ vs := by
  simp [toksCnt]

theorem toksCnt_one (κ : Kept) (t : Token) : toksCnt κ [t] = tokCnt κ t.tok := by simp [toksCnt]

namespace Keeps
variable {κ : Kept} {a b : Lang} {m n : Nat} {p p' : Pos}

theorem mono (h : Keeps κ a m) (hn : n ≤ m) : Keeps κ a n := fun ts hts => Nat.le_trans hn (h ts hts)
theorem zero : Keeps κ a 0 := fun _ _ => Nat.zero_le _
theorem eps : Keeps κ eps 0 := zero
theorem unset : Keeps κ (Spec.unset p) 0 := zero
theorem unset2 : Keeps κ (Spec.unset2 p p') 0 := zero
theorem only {c : Prop} : Keeps κ (Spec.only c) 0 := zero
theorem opt : Keeps κ (Spec.opt a) 0 := zero
theorem lost {f : Bool} : Keeps κ (Spec.lost f a) 0 := zero
theorem never : Keeps κ never m := fun ts h => h.elim
theorem tok (h : ∀ ts, a ts → ∃ t, ts = [t] ∧ m ≤ tokCnt κ t.tok) : Keeps κ a m := fun ts hts => by
  obtain ⟨t, rfl, ht⟩ := h ts hts
  rw [toksCnt_one]; exact ht

theorem cat (ha : Keeps κ a m) (hb : Keeps κ b n) : Keeps κ (a ⬝ b) (m + n) := fun ts h => by
  obtain ⟨us, vs, rfl, h1, h2⟩ := h
  have := ha us h1
  have := hb vs h2
  rw [toksCnt_append]; omega

theorem alt (ha : Keeps κ a m) (hb : Keeps κ b n) : Keeps κ (a ⊹ b) (min m n) := fun ts h => by
  rcases h with h | h
  · have := ha ts h; omega
  · have := hb ts h; omega

theorem starts (ha : Keeps κ a m) : Keeps κ (p ▹ a) m := fun ts h => ha ts h.1
theorem ends (ha : Keeps κ a m) : Keeps κ (a ◃ p) m := fun ts h => ha ts h.1
theorem spans (ha : Keeps κ a m) : Keeps κ (Spec.spans p p' a) m := ha.ends.starts

theorem kwd {k : KW} : Keeps κ (Spec.kwd k) 0 := tok fun ts h => by
  obtain ⟨t, w, rfl, ht, hs⟩ := h
  exact ⟨t, rfl, Nat.zero_le _⟩

theorem underscore : Keeps κ (Spec.kwd .AUTO_INCREMENT) (κ.one '_') := tok fun ts h => by
  obtain ⟨t, w, rfl, ht, hs⟩ := h
  refine ⟨t, rfl, ?_⟩
  have := cnt_spells (κ := κ) hs (by decide)
  rw [ht, tokCnt]; omega

theorem sym {k : Sym} : Keeps κ (Spec.sym k) (κ.sym k) := tok fun ts h => by
  obtain ⟨t, s, rfl, ht⟩ := h
  exact ⟨t, rfl, by rw [ht, tokCnt]; exact Nat.le_refl _⟩

theorem word {bad : List KW} {i : Ident} : Keeps κ (Spec.word bad i) ((κ.cnt i.value)) := tok fun ts h => by
  obtain ⟨t, w, rfl, ht, hs, -⟩ := h
  exact ⟨t, rfl, by rw [ht, tokCnt, hs]; omega⟩

theorem number {k : Nat} : Keeps κ (Spec.number k) (κ.cnt (intStr (intOfUint k))) := tok fun ts h => by
  obtain ⟨t, s, rfl, ht, hs⟩ := h
  refine ⟨t, rfl, ?_⟩
  rw [cnt_intStr]
  · exact Nat.zero_le _
  · unfold intOfUint
    rw [Nat.mod_eq_of_lt (by omega), if_pos hs.2]
    exact Int.natCast_nonneg _

theorem numberZ {v : Int} : Keeps κ (Spec.numberZ v) (κ.cnt (intStr v)) := by
  rintro ts ⟨n, rfl, -⟩
  rw [cnt_intStr (Int.natCast_nonneg n)]; exact Nat.zero_le _

theorem integer {v : Int} : Keeps κ (Spec.integer v) (κ.cnt (intStr v)) := tok fun ts h => by
  obtain ⟨t, s, rfl, ht, -, hs⟩ := h
  refine ⟨t, rfl, ?_⟩
  rw [cnt_intStr]
  · exact Nat.zero_le _
  · rcases hs with ⟨n, -, rfl⟩ | ⟨-, rfl⟩ <;> omega

theorem single {s : Str} : Keeps κ (fun ts => ∃ t, ts = [t] ∧ t.tok = .single s) (κ.cnt s + κ.one '\'' + κ.one '\'') := tok fun ts h => by
  obtain ⟨t, rfl, ht⟩ := h
  exact ⟨t, rfl, by rw [ht, tokCnt]; exact Nat.le_refl _⟩

theorem national {s : Str} : Keeps κ (fun ts => ∃ t, ts = [t] ∧ t.tok = .national s) (κ.cnt s + κ.one '\'' + κ.one '\'') := tok fun ts h => by
  obtain ⟨t, rfl, ht⟩ := h
  exact ⟨t, rfl, by rw [ht, tokCnt]; exact Nat.le_refl _⟩


theorem double {fns pns : FloatFns} {v : F64} (hf : ∀ s v, '.' ∈ s → fns.parse s = some v → κ.cnt (pns.format v) ≤ κ.cnt s) :
    Keeps κ (fun ts => ∃ t s, ts = [t] ∧ t.tok = .number s ∧ '.' ∈ s ∧ fns.parse s = some v) (κ.cnt (pns.format v)) :=
  tok fun ts h => by
    obtain ⟨t, s, rfl, ht, hd, hs⟩ := h
    have := hf s v hd hs
    exact ⟨t, rfl, by rw [ht, tokCnt]; omega⟩

end Keeps

/-! ### Lists -/

section
variable {κ : Kept}

theorem cnt_join_cons (sep : Str) (x y : Wt) (ys : List Wt) : κ.cnt (Step.texts (Step.join sep (x :: y :: ys))) =
    κ.cnt x.text + κ.cnt sep + κ.cnt (Step.texts (Step.join sep (y :: ys))) := by
  simp [Step.join, Step.texts, Step.text, Nat.add_assoc]

theorem cnt_intercalate_cons (sep x y : Str) (ys : List Str) : κ.cnt (sep.intercalate (x :: y :: ys)) =
    κ.cnt x + κ.cnt sep + κ.cnt (sep.intercalate (y :: ys)) := by
  simp [intercalate_cons, Nat.add_assoc]

theorem cnt_comma : κ.cnt (str% ", ") = 0 := by
  simp [κ.own (c := ',') (by decide), κ.own (c := ' ') (by decide)]
theorem cnt_dot : κ.cnt (str% ".") = κ.one '.' := by simp

theorem Keeps.sepBy : ∀ {as : List Lang} {xs : List Wt}, KeepsW κ as xs →
    Keeps κ (Spec.sepBy .Comma as) (κ.cnt (Step.texts (Step.join (str% ", ") xs)))
  | [], _, _ => Keeps.never
  | [a], _, .cons h .nil => by
    refine h.mono ?_
    simp [Step.join, Step.texts, Step.text]
  | a :: b :: as, _, .cons h (.cons (xs := xs) (x := y) h' h'') => by
    have := Keeps.sepBy (.cons h' h'')
    refine (h.cat (Keeps.sym.cat this)).mono ?_
    rw [cnt_join_cons, cnt_comma]
    omega

theorem Keeps.concat : ∀ {as : List Lang} {xs : List Wt}, KeepsW κ as xs →
    Keeps κ (Spec.concat as) (xs.map fun x => κ.cnt x.text).sum
  | _, _, .nil => Keeps.zero
  | _, _, .cons h h' => (h.cat (Keeps.concat h')).mono (by simp)

theorem Keeps.words {bad : List KW} : ∀ {is : List Ident},
    Keeps κ (Spec.sepBy .Comma (is.map (Spec.word bad))) (κ.cnt ((str% ", ").intercalate (is.map (·.value))))
  | [] => Keeps.never
  | [i] => by
    refine Keeps.word.mono ?_
    simp [intercalate_cons]
  | i :: j :: is => by
    refine (Keeps.word.cat (Keeps.sym.cat (Keeps.words (bad := bad) (is := j :: is)))).mono ?_
    simp only [List.map_cons]
    rw [cnt_intercalate_cons, cnt_comma]
    omega

theorem Keeps.idents {is : List Ident} :
    Keeps κ (Spec.idents .Comma is) (κ.cnt ((str% ", ").intercalate (is.map (·.value)))) := Keeps.words

theorem Keeps.dotted : ∀ {is : List Ident},
    Keeps κ (Spec.idents .Period is) (κ.cnt ((str% ".").intercalate (is.map (·.value))))
  | [] => Keeps.never
  | [i] => by
    refine Keeps.word.mono ?_
    simp [intercalate_cons]
  | i :: j :: is => by
    refine (Keeps.word.cat (Keeps.sym.cat (Keeps.dotted (is := j :: is)))).mono ?_
    simp only [List.map_cons]
    rw [cnt_intercalate_cons, cnt_dot]
    show _ ≤ _ + (κ.one '.' + _)
    omega

theorem Keeps.dottedFrom {bad : List KW} {i j : Ident} {is : List Ident} :
    Keeps κ (Spec.word bad i ⬝ Spec.sym .Period ⬝ Spec.idents .Period (j :: is))
      (κ.cnt ((str% ".").intercalate ((i :: j :: is).map (·.value)))) := by
  refine (Keeps.word.cat (Keeps.sym.cat Keeps.dotted)).mono ?_
  simp only [List.map_cons]
  rw [cnt_intercalate_cons, cnt_dot]
  show _ ≤ _ + (κ.one '.' + _)
  omega

theorem Keeps.objectName {o : ObjectName} :
    Keeps κ (Spec.objectName o) (κ.cnt ((str% ".").intercalate (o.idents.map (·.value)))) := Keeps.dotted

theorem Keeps.exprName : ∀ {is : List Ident},
    Keeps κ (Spec.exprName is) (κ.cnt ((str% ".").intercalate (is.map (·.value))))
  | [] => Keeps.never
  | [i] => by refine Keeps.word.mono ?_; simp [intercalate_cons]
  | _ :: _ :: _ => Keeps.dottedFrom

theorem Keeps.typeName : ∀ {is : List Ident},
    Keeps κ (Spec.typeName is) (κ.cnt ((str% ".").intercalate (is.map (·.value))))
  | [] => Keeps.never
  | [i] => by refine Keeps.word.mono ?_; simp [intercalate_cons]
  | _ :: _ :: _ => Keeps.dottedFrom

theorem KeepsW.map {α : Type} {f : α → Lang} {g : α → Wt} (h : ∀ x, Keeps κ (f x) (κ.cnt (g x).text)) :
    ∀ l : List α, KeepsW κ (l.map f) (l.map g)
  | [] => .nil
  | x :: l => .cons (h x) (KeepsW.map h l)

end

theorem text_ident' (i : Ident) : i.wt.text = i.value := rfl
theorem text_objectName' (o : ObjectName) : o.wt.text = (str% ".").intercalate (o.idents.map (·.value)) := by
  simp [ObjectName.wt, Wt.text, Step.texts, text_idents]
theorem text_uint' (n : Nat) : Step.text (.uint n) = intStr (intOfUint n) := rfl

/-- Reduce a comparison of counts to arithmetic. -/
macro "counts" "[" ts:Lean.Parser.Tactic.simpLemma,* "]" : tactic => `(tactic| (
  (try simp [Wt.text, Step.texts, Step.text, texts_append, text_idents, text_ident', text_objectName', text_uint', Step.if_,
    Kept.own, Spec.own, Kept.sym, cnt_natStr, Step.typeWithOptionalLength, negated, aliasSteps, unsignedBytes, $ts,*])
  <;> (try omega)))

/-- Go through the combinators of a language, with the given facts about its parts. -/
macro "keeps" "[" ts:term,* "]" : tactic => `(tactic| (repeat' (with_reducible first
  | exact Keeps.kwd | exact Keeps.sym | exact Keeps.word | exact Keeps.number | exact Keeps.numberZ | exact Keeps.integer
  | exact Keeps.single | exact Keeps.national
  | exact Keeps.objectName | exact Keeps.exprName | exact Keeps.typeName | exact Keeps.idents | exact Keeps.words
  $[| exact $ts]*
  | apply Keeps.spans | apply Keeps.starts | apply Keeps.ends | apply Keeps.sepBy
  | apply Keeps.cat | apply Keeps.alt | exact Keeps.never | exact Keeps.eps | exact Keeps.unset | exact Keeps.unset2
  | exact Keeps.only | exact Keeps.opt | exact Keeps.lost)))

/-- The text counts no more: `keeps` gives a bound for the language, and `counts` compares it with the text. -/
macro "keeping" "[" ts:term,* "]" "[" ss:Lean.Parser.Tactic.simpLemma,* "]" : tactic => `(tactic| (
  apply Keeps.mono
  · keeps [$ts,*]
  · counts [$ss,*]))

theorem Keeps.parens {κ : Kept} {a : Lang} {m : Nat} (h : Keeps κ a m) : Keeps κ (Spec.parens a) (m) := by
  unfold Spec.parens
  keeping [h] []
theorem Keeps.parensTo {κ : Kept} {a : Lang} {m : Nat} {p : Pos} (h : Keeps κ a m) : Keeps κ (Spec.parensTo p a) (m) := by
  unfold Spec.parensTo
  keeping [h] []

theorem Keeps.timeZone {κ : Kept} {w : Bool} : Keeps κ (timeZoneLang w) 0 := by
  cases w
  · exact Keeps.opt
  · simp only [timeZoneLang, if_true]
    keeping [] []

theorem DataType.keeps {κ : Kept} (t : DataType) : Keeps κ t.lang (κ.cnt t.wt.text) := by
  unfold DataType.lang
  split
  · rename_i size _ _ _
    cases size <;> (simp only [sizeLang, DataType.wt]; keeping [Keeps.parensTo Keeps.number] [])
  · rename_i size _ _ _
    cases size <;> (simp only [sizeLang, DataType.wt]; keeping [Keeps.parensTo Keeps.number] [])
  · keeping [] [DataType.wt]
  · rename_i scale _ _ u _
    cases scale <;> cases u <;> (
      simp only [precisionLang, unsignedLang, flagTo, if_true, Bool.false_eq_true, if_false, DataType.wt]
      keeping [Keeps.parensTo Keeps.number, Keeps.parensTo (Keeps.number.cat (Keeps.sym.cat Keeps.number))] [])
  · exact Keeps.never
  · rename_i size _ _ _ u _
    cases size <;> cases u <;> (
      simp only [sizeLang, unsignedLang, flagTo, if_true, Bool.false_eq_true, if_false, DataType.wt]
      keeping [Keeps.parensTo Keeps.number] [])
  · rename_i u _
    cases u <;> (simp only [unsignedLang, flagTo, if_true, Bool.false_eq_true, if_false, DataType.wt]; keeping [] [])
  · rename_i u _
    cases u <;> (simp only [unsignedLang, flagTo, if_true, Bool.false_eq_true, if_false, DataType.wt]; keeping [] [])
  · rename_i u _
    cases u <;> (simp only [bigUnsignedLang, if_true, Bool.false_eq_true, if_false, DataType.wt]; keeping [] [])
  · rename_i u _
    cases u <;> (simp only [unsignedLang, flagTo, if_true, Bool.false_eq_true, if_false, DataType.wt]; keeping [] [])
  · keeping [] [DataType.wt]
  · keeping [] [DataType.wt]
  · keeping [] [DataType.wt]
  · keeping [Keeps.timeZone] [DataType.wt]
  · rename_i w _ _
    cases w <;> (simp only [DataType.wt]; keeping [Keeps.timeZone] [])
  · keeping [] [DataType.wt]
  · keeping [] [DataType.wt]
  · keeping [] [DataType.wt]
  · keeping [] [DataType.wt]
  · exact Keeps.never
  · keeping [] [DataType.wt]
  all_goals exact Keeps.never

/-! ### Parts of expressions and queries -/

section
variable {κ : Kept}

theorem Keeps.binaryOp {op : Operator} : Keeps κ (Spec.binaryOp op) (κ.cnt op.wt.text) := by
  unfold Spec.binaryOp
  split <;> (rename_i h; first | exact Keeps.never | keeping [] [Operator.wt, h])

theorem Keeps.unaryOp {p : Pos} {op : Operator} : Keeps κ (Spec.unaryOp p op) (κ.cnt op.wt.text) := by
  unfold Spec.unaryOp
  split <;> (rename_i h; first | exact Keeps.never | keeping [] [Operator.wt, h])

theorem Keeps.bound {x : FrameBound} : Keeps κ (boundLang x) (κ.cnt x.wt.text) := by
  cases x <;> (unfold boundLang; keeping [] [FrameBound.wt])

theorem Keeps.unit {u : WindowFrameUnit} : Keeps κ (unitLang u) (κ.cnt u.wt.text) := by
  unfold unitLang
  split <;> (rename_i h; keeping [] [WindowFrameUnit.wt, h])

/-- What is written for a frame, with a space before it. -/
def frameCnt (κ : Kept) : Option WindowFrame → Nat
  | some f => κ.cnt f.wt.text
  | none => 0

theorem Keeps.frame {x : Option WindowFrame} : Keeps κ (frameLang x) (frameCnt κ x) := by
  rcases x with _ | ⟨u, s, _ | e⟩
  · exact Keeps.zero
  · unfold frameLang; keeping [Keeps.unit, Keeps.bound] [frameCnt, WindowFrame.wt]
  · unfold frameLang; keeping [Keeps.unit, Keeps.bound] [frameCnt, WindowFrame.wt]

def directionCnt : Option Bool → Nat
  | some true => 0
  | some false => 0
  | none => 0

theorem Keeps.direction {x : Option Bool} : Keeps κ (directionLang x) (directionCnt x) := by
  rcases x with _ | _ | _
  · exact Keeps.zero
  · unfold directionLang; keeping [] [directionCnt]
  · unfold directionLang; keeping [] [directionCnt]

/-- What is written for a limit, with a space before it. -/
def limitCnt (κ : Kept) : Option LimitExpr → Nat
  | some l => κ.cnt l.wt.text
  | none => 0

theorem Keeps.limit {x : Option LimitExpr} : Keeps κ (limitLang x) (limitCnt κ x) := by
  rcases x with _ | ⟨_ | n, ap, lp, _ | o⟩
  · exact Keeps.zero
  · unfold limitLang; keeping [] [limitCnt, LimitExpr.wt, LongValue.wt]
  · exact Keeps.never
  · unfold limitLang; keeping [] [limitCnt, LimitExpr.wt, LongValue.wt]
  · unfold limitLang; keeping [] [limitCnt, LimitExpr.wt, LongValue.wt]

theorem Keeps.setOp {x : SetOp} : Keeps κ (setOpLang x) (κ.cnt x.wt.text) := by
  cases x <;> (unfold setOpLang; keeping [] [SetOp.wt])

theorem Keeps.joinType {n : Bool} {ty : JoinType} : Keeps κ (joinTypeLang n ty) (κ.cnt ty.wt.text) := by
  unfold joinTypeLang
  split <;> rename_i h
  · cases n <;> (simp only [if_true, Bool.false_eq_true, if_false]; keeping [] [JoinType.wt, JoinType.text, h])
  all_goals keeping [] [JoinType.wt, JoinType.text, h]

theorem Keeps.alias {bad : List KW} {i : Ident} : Keeps κ (aliasLang bad i) ((κ.cnt i.value)) := by
  unfold aliasLang
  keeping [] []

/-- What is written for the alias of a table.  One character less has room in the tokens of the alias. -/
def aliasCnt (κ : Kept) : Option Ident → Nat
  | some i => κ.cnt i.value 
  | none => 0

theorem Keeps.tableAlias {q : Quirks} {i : Option Ident} : Keeps κ (tableAliasLang q i) (aliasCnt κ i) := by
  cases i with
  | none => exact Keeps.zero
  | some a => exact Keeps.alias.mono (by simp only [aliasCnt]; omega)

theorem cnt_alias (i : Option Ident) : κ.cnt (Step.texts (aliasSteps i)) ≤ aliasCnt κ i := by
  cases i <;> counts [aliasCnt]

theorem Keeps.subquery {w : Bool} {p : Pos} {a : Lang} {m : Nat} (h : Keeps κ a m) : Keeps κ (subqueryLang w p a) (m) := by
  cases w <;> (simp only [subqueryLang, if_true, Bool.false_eq_true, if_false]; keeping [h] [])

theorem Keeps.clauseOr {other : Lang} {wrap : Lang → Lang} {as : List Lang} {xs : List Wt} (k : Nat)
    (hw : ∀ a m, Keeps κ a m → Keeps κ (wrap a) (m + k)) (h : KeepsW κ as xs) :
    Keeps κ (Spec.clauseOr other wrap as) (if xs.isEmpty then 0 else κ.cnt (Step.texts (Step.join (str% ", ") xs)) + k) := by
  cases h with
  | nil => exact Keeps.zero
  | cons h1 h2 => exact hw _ _ (Keeps.sepBy (.cons h1 h2))

theorem Keeps.clause {wrap : Lang → Lang} {as : List Lang} {xs : List Wt} (k : Nat)
    (hw : ∀ a m, Keeps κ a m → Keeps κ (wrap a) (m + k)) (h : KeepsW κ as xs) :
    Keeps κ (Spec.clause wrap as) (if xs.isEmpty then 0 else κ.cnt (Step.texts (Step.join (str% ", ") xs)) + k) :=
  Keeps.clauseOr k hw h

theorem Keeps.asIs (a : Lang) (m : Nat) (h : Keeps κ a m) : Keeps κ (id a) (m) := h

/-- An optional expression with `k` thirds of a character more. -/
def optCnt (κ : Kept) (pns : FloatFns) (k : Nat) : Option Expr → Nat
  | some x => κ.cnt (x.wt pns).text + k
  | none => 0

theorem Keeps.whens {fns pns : FloatFns} {q : Quirks} : ∀ {cs : List Expr} {rs : List Lang} {ys : List Wt},
    KeepsW κ (Expr.langs fns q cs) (Expr.wts pns cs) → KeepsW κ rs ys →
    Keeps κ (Spec.whens (Expr.langs fns q cs) rs) (κ.cnt (Step.texts (caseSteps pns cs ys)))
  | [], _, _, _, .nil => by simp only [caseSteps]; exact Keeps.zero
  | [], _, _, _, .cons _ _ => by simp only [caseSteps]; exact Keeps.zero
  | _ :: _, _, _, _, .nil => by simp only [caseSteps]; exact Keeps.zero
  | c :: cs, _, _, h, .cons h1 h2 => by
    simp only [Expr.langs, Expr.wts] at h
    cases h with
    | cons h3 h4 =>
      have h5 := Keeps.whens h4 h2
      simp only [Expr.langs, Spec.whens]
      keeping [h3, h1, h5] [caseSteps]

end

/-! ### Expressions and queries -/

section
variable {κ : Kept} {fns pns : FloatFns} (q : Quirks)
  (hf : ∀ s v, '.' ∈ s → fns.parse s = some v → κ.cnt (pns.format v) ≤ κ.cnt s)
set_option linter.unusedSectionVars false
include hf

mutual

theorem Expr.keeps : (x : Expr) → Keeps κ (x.lang fns q) (κ.cnt (x.wt pns).text)
  | .ident i => by rw [Expr.lang]; keeping [] [Expr.wt]
  | .wildcard p => by rw [Expr.lang]; keeping [] [Expr.wt]
  | .qualifiedWildcard is => by rw [Expr.lang]; keeping [] [Expr.wt]
  | .compoundIdent is => by rw [Expr.lang]; keeping [] [Expr.wt]
  | .isNull x => by rw [Expr.lang]; keeping [x.keeps] [Expr.wt]
  | .isNotNull x => by rw [Expr.lang]; keeping [x.keeps] [Expr.wt]
  | .inList x l neg rp => by
    rw [Expr.lang]
    cases neg <;> (simp only [flag, if_true, Bool.false_eq_true, if_false]; keeping [x.keeps, Keeps.parensTo (Keeps.sepBy (Expr.keepsW l))] [Expr.wt])
  | .inSubQuery x s neg rp => by
    rw [Expr.lang]
    cases neg <;> (simp only [flag, if_true, Bool.false_eq_true, if_false]; keeping [x.keeps, Keeps.subquery s.keeps] [Expr.wt])
  | .between x neg low high => by
    rw [Expr.lang]
    cases neg <;> (simp only [flag, if_true, Bool.false_eq_true, if_false]; keeping [x.keeps, low.keeps, high.keeps] [Expr.wt])
  | .binary l op r => by rw [Expr.lang]; keeping [l.keeps, Keeps.binaryOp, r.keeps] [Expr.wt]
  | .cast x ty c rp => by rw [Expr.lang]; keeping [x.keeps, ty.keeps] [Expr.wt]
  | .nested x lp rp => by rw [Expr.lang]; keeping [x.keeps] [Expr.wt]
  | .unary p op x => by rw [Expr.lang]; keeping [x.keeps, Keeps.unaryOp] [Expr.wt]
  | .function name args rp none orp => by
    rw [Expr.lang]
    apply Keeps.mono
    · keeps [Keeps.parensTo (Keeps.clause (wrap := id) 0 Keeps.asIs (Expr.keepsW args))]
    · cases args <;> counts [Expr.wt, overSteps, Expr.wts, Step.join]
  | .function name args rp (some w) orp => by
    rw [Expr.lang]
    apply Keeps.mono
    · keeps [Keeps.parensTo (Keeps.clause (wrap := id) 0 Keeps.asIs (Expr.keepsW args)), w.keeps]
    · cases args <;> counts [Expr.wt, overSteps, Expr.wts, Step.join]
  | .caseExpr c e operand conditions results elseResult => by
    rw [Expr.lang]
    apply Keeps.mono
    · keeps [Expr.keepsO operand (wrap := id) 0 Keeps.asIs, Keeps.whens (Expr.keepsW conditions) (Expr.keepsW results),
        Expr.keepsO elseResult 0 (fun a m h => by keeping [h] [])]
    · cases operand <;> cases elseResult <;> counts [Expr.wt, optSteps, optCnt]
  | .exists_ neg s n e rp => by
    rw [Expr.lang]
    cases neg <;> (simp only [flagFrom, if_true, Bool.false_eq_true, if_false]; keeping [Keeps.parensTo s.keeps] [Expr.wt])
  | .subQuery rp lp s => by rw [Expr.lang]; keeping [Keeps.subquery s.keeps] [Expr.wt]
  | .long v => by rw [Expr.lang]; keeping [] [Expr.wt, LongValue.wt]
  | .double f t v => by rw [Expr.lang]; keeping [Keeps.double hf] [Expr.wt]
  | .singleQuoted f t s => by rw [Expr.lang]; keeping [] [Expr.wt]
  | .national f t s => by rw [Expr.lang]; keeping [] [Expr.wt]
  | .boolean f t b => by rw [Expr.lang]; cases b <;> (simp only [if_true, Bool.false_eq_true, if_false]; keeping [] [Expr.wt])
  | .null f t => by rw [Expr.lang]; keeping [] [Expr.wt]
  | .timeValue _ _ _ _ => by rw [Expr.lang]; exact Keeps.never

theorem Expr.keepsW : (xs : List Expr) → KeepsW κ (Expr.langs fns q xs) (Expr.wts pns xs)
  | [] => by rw [Expr.langs, Expr.wts]; exact .nil
  | x :: xs => by rw [Expr.langs, Expr.wts]; exact .cons (x.keeps.mono (Nat.le_refl _)) (Expr.keepsW xs)

theorem Expr.keepsO : (x : Option Expr) → ∀ {wrap : Lang → Lang} (k : Nat), (∀ a m, Keeps κ a m → Keeps κ (wrap a) (m + k)) →
    Keeps κ (optional wrap (Expr.langO fns q x)) (optCnt κ pns k x)
  | none => fun k _ => Keeps.zero
  | some x => fun k h => by rw [Expr.langO]; exact h _ _ x.keeps

theorem WindowSpec.keeps : (x : WindowSpec) → Keeps κ (x.lang fns q) (κ.cnt (x.wt pns).text)
  | .mk partitionBy orderBy frame p o => by
    rw [WindowSpec.lang]
    apply Keeps.mono
    · keeps [Keeps.clauseOr 0 (fun a m h => by keeping [h] []) (Expr.keepsW partitionBy),
        Keeps.clauseOr 0 (fun a m h => by keeping [h] []) (OrderByExpr.keepsW orderBy), Keeps.frame]
    · cases partitionBy <;> cases orderBy <;> cases frame <;>
        counts [WindowSpec.wt, Expr.wts, OrderByExpr.wts, frameCnt]

theorem OrderByExpr.keeps : (x : OrderByExpr) → Keeps κ (x.lang fns q) (κ.cnt (x.wt pns).text)
  | .mk x p asc => by
    rw [OrderByExpr.lang]
    apply Keeps.mono
    · keeps [x.keeps, Keeps.direction]
    · rcases asc with _ | _ | _ <;> counts [OrderByExpr.wt, directionCnt]

theorem OrderByExpr.keepsW : (xs : List OrderByExpr) → KeepsW κ (OrderByExpr.langs fns q xs) (OrderByExpr.wts pns xs)
  | [] => by rw [OrderByExpr.langs, OrderByExpr.wts]; exact .nil
  | x :: xs => by rw [OrderByExpr.langs, OrderByExpr.wts]; exact .cons x.keeps (OrderByExpr.keepsW xs)

theorem QueryStmt.keeps : (x : QueryStmt) → Keeps κ (x.lang fns q) (κ.cnt (x.wt pns).text)
  | .mk w ctes body orderBy limit => by
    rw [QueryStmt.lang]
    apply Keeps.mono
    · keeps [Keeps.clause 0 (fun a m h => by keeping [h] []) (CTE.keepsW ctes), body.keeps,
        Keeps.clause 0 (fun a m h => by keeping [h] []) (OrderByExpr.keepsW orderBy), Keeps.limit]
    · cases ctes <;> cases orderBy <;> cases limit <;> counts [QueryStmt.wt, CTE.wts, OrderByExpr.wts, limitCnt]

theorem CTE.keeps : (x : CTE) → Keeps κ (x.lang fns q) (κ.cnt (x.wt pns).text)
  | .mk alias s rp => by rw [CTE.lang]; keeping [Keeps.parens s.keeps] [CTE.wt]

theorem CTE.keepsW : (xs : List CTE) → KeepsW κ (CTE.langs fns q xs) (CTE.wts pns xs)
  | [] => by rw [CTE.langs, CTE.wts]; exact .nil
  | x :: xs => by rw [CTE.langs, CTE.wts]; exact .cons x.keeps (CTE.keepsW xs)

theorem SetExpr.keeps : (x : SetExpr) → Keeps κ (x.lang fns q) (κ.cnt (x.wt pns).text)
  | .selectExpr _ => by rw [SetExpr.lang]; exact Keeps.never
  | .select s => by rw [SetExpr.lang, SetExpr.wt]; exact s.keeps
  | .query lp rp s => by rw [SetExpr.lang]; keeping [Keeps.parens s.keeps] [SetExpr.wt]
  | .setOp op all l r => by
    rw [SetExpr.lang]
    cases all <;> (simp only [flag, if_true, Bool.false_eq_true, if_false]; keeping [l.keeps, r.keeps, Keeps.setOp] [SetExpr.wt])

theorem SQLSelect.keeps : (x : SQLSelect) → Keeps κ (x.lang fns q) (κ.cnt (x.wt pns).text)
  | .mk distinct projection from_ where_ groupBy having p => by
    rw [SQLSelect.lang]
    cases distinct <;> (
      simp only [flag, if_true, Bool.false_eq_true, if_false]
      apply Keeps.mono
      · keeps [SelectItem.keepsW projection, Keeps.clause 0 (fun a m h => by keeping [h] []) (TableRef.keepsW from_),
          Expr.keepsO where_ 0 (fun a m h => by keeping [h] []),
          Keeps.clause 0 (fun a m h => by keeping [h] []) (Expr.keepsW groupBy),
          Expr.keepsO having 0 (fun a m h => by keeping [h] [])]
      · cases from_ <;> cases where_ <;> cases groupBy <;> cases having <;>
          counts [SQLSelect.wt, TableRef.wts, Expr.wts, optSteps, optCnt])

theorem SelectItem.keeps : (x : SelectItem) → Keeps κ (x.lang fns q) (κ.cnt (x.wt pns).text)
  | .unnamed x => by rw [SelectItem.lang, SelectItem.wt]; exact x.keeps.mono (Nat.le_refl _)
  | .alias x a => by rw [SelectItem.lang]; keeping [x.keeps, Keeps.alias] [SelectItem.wt]
  | .qualifiedWildcard p => by rw [SelectItem.lang]; keeping [] [SelectItem.wt]
  | .wildcard _ _ => by rw [SelectItem.lang]; exact Keeps.never

theorem SelectItem.keepsW : (xs : List SelectItem) → KeepsW κ (SelectItem.langs fns q xs) (SelectItem.wts pns xs)
  | [] => by rw [SelectItem.langs, SelectItem.wts]; exact .nil
  | x :: xs => by rw [SelectItem.langs, SelectItem.wts]; exact .cons x.keeps (SelectItem.keepsW xs)

theorem TableFactor.keeps : (x : TableFactor) → Keeps κ (x.lang fns q) (κ.cnt (x.wt pns).text)
  | .table name alias [] arp hints hrp => by
    rw [TableFactor.lang]
    apply Keeps.mono
    · keeps [Keeps.tableAlias, Keeps.clause 0 (fun a m h => by keeping [Keeps.parens h] []) (Expr.keepsW hints)]
    · cases alias <;> cases hints <;> counts [TableFactor.wt, Expr.wts, aliasCnt]
  | .table name alias (x :: xs) arp hints hrp => by
    rw [TableFactor.lang]
    · apply Keeps.mono
      · keeps [Keeps.tableAlias, Expr.keepsW (x :: xs),
          Keeps.clause 0 (fun a m h => by keeping [Keeps.parens h] []) (Expr.keepsW hints)]
      · cases alias <;> cases hints <;> counts [TableFactor.wt, Expr.wts, aliasCnt]
    · simp
  | .derived lateral p lp rp s alias => by
    rw [TableFactor.lang]
    cases lateral <;> (
      simp only [flag, if_true, Bool.false_eq_true, if_false]
      apply Keeps.mono
      · keeps [Keeps.parens s.keeps, Keeps.tableAlias]
      · cases alias <;> counts [TableFactor.wt, aliasCnt])

theorem TableRef.keeps : (x : TableRef) → Keeps κ (x.lang fns q) (κ.cnt (x.wt pns).text)
  | .factor f => by rw [TableRef.lang, TableRef.wt]; exact f.keeps
  | .cross r f => by rw [TableRef.lang]; keeping [r.keeps, f.keeps] [TableRef.wt]
  | .partitioned _ _ _ => by rw [TableRef.lang]; exact Keeps.never
  | .qualified l ty r spec => by rw [TableRef.lang]; keeping [l.keeps, r.keeps, spec.keeps, Keeps.joinType] [TableRef.wt]
  | .natural l ty r => by rw [TableRef.lang]; keeping [l.keeps, r.keeps, Keeps.joinType] [TableRef.wt]

theorem TableRef.keepsW : (xs : List TableRef) → KeepsW κ (TableRef.langs fns q xs) (TableRef.wts pns xs)
  | [] => by rw [TableRef.langs, TableRef.wts]; exact .nil
  | x :: xs => by rw [TableRef.langs, TableRef.wts]; exact .cons x.keeps (TableRef.keepsW xs)

theorem JoinSpec.keeps : (x : JoinSpec) → Keeps κ (x.lang fns q) (κ.cnt (x.wt pns).text)
  | .namedColumns is u rp => by rw [JoinSpec.lang]; keeping [Keeps.parens Keeps.idents] [JoinSpec.wt]
  | .condition x p => by rw [JoinSpec.lang]; keeping [x.keeps] [JoinSpec.wt]

end

/-! ### Statements -/

theorem Keeps.where_ (x : Option Expr) : Keeps κ (whereLang fns q x) (optCnt κ pns 0 x) :=
  Expr.keepsO q hf x 0 (fun a m h => by keeping [h] [])

omit hf in
theorem Keeps.columns {is : List Ident} : Keeps κ (columnsLang is)
    (if is.isEmpty then 0 else κ.cnt ((str% ", ").intercalate (is.map (·.value)))) := by
  cases is with
  | nil => exact Keeps.zero
  | cons i is => exact Keeps.parens Keeps.words

theorem Assignment.keeps (a : Assignment) : Keeps κ (a.lang fns q) (κ.cnt (a.wt pns).text) := by
  unfold Assignment.lang
  keeping [a.value.keeps q hf] [Assignment.wt]

omit hf in
theorem Expr.wts_map' : ∀ xs : List Expr, xs.map (Expr.wt pns) = Expr.wts pns xs
  | [] => by rw [Expr.wts, List.map]
  | x :: xs => by rw [Expr.wts, List.map, Expr.wts_map' xs]

theorem RowValueExpr.keeps (r : RowValueExpr) : Keeps κ (r.lang fns q) (κ.cnt (r.wt pns).text) := by
  unfold RowValueExpr.lang
  keeping [Expr.keepsW q hf r.values] [RowValueExpr.wt, Expr.wts_map']

theorem InsertSource.keeps (s : InsertSource) : Keeps κ (s.lang fns q) (κ.cnt (s.wt pns).text) := by
  cases s with
  | subQuery s => rw [InsertSource.lang, InsertSource.wt]; exact s.keeps q hf
  | constructor v rows => unfold InsertSource.lang; keeping [KeepsW.map (RowValueExpr.keeps q hf) rows] [InsertSource.wt]

omit hf in
theorem Keeps.referenced {is : List Ident} :
    Keeps κ (referencedLang q is) (κ.cnt ((str% ", ").intercalate (is.map (·.value)))) := by
  cases is with
  | nil => exact Keeps.zero
  | cons i is => exact Keeps.idents

theorem TableConstraintSpec.keeps (x : TableConstraintSpec) : Keeps κ (x.lang fns q) (κ.cnt (x.wt pns).text) := by
  cases x with
  | unique b p u rp is =>
    cases b <;> (unfold TableConstraintSpec.lang; keeping [Keeps.parensTo Keeps.idents] [TableConstraintSpec.wt])
  | referential p is key =>
    unfold TableConstraintSpec.lang
    keeping [Keeps.parensTo (Keeps.referenced q), Keeps.parens Keeps.idents] [TableConstraintSpec.wt, ReferenceKeyExpr.wt]
  | check p rp x => unfold TableConstraintSpec.lang; keeping [Keeps.parensTo (x.keeps q hf)] [TableConstraintSpec.wt]

theorem TableConstraint.keeps (x : TableConstraint) : Keeps κ (x.lang fns q) (κ.cnt (x.wt pns).text) := by
  obtain ⟨c, name, spec⟩ := x
  unfold TableConstraint.lang
  cases name <;> (simp only [nameLang]; keeping [spec.keeps q hf] [TableConstraint.wt, constraintName])

theorem ColumnSpec.keeps (x : ColumnSpec) : Keeps κ (x.lang fns q) (κ.cnt (x.wt pns).text) := by
  cases x with
  | notNull n n' => unfold ColumnSpec.lang; keeping [] [ColumnSpec.wt]
  | unique b p k u => cases b <;> (unfold ColumnSpec.lang; keeping [] [ColumnSpec.wt])
  | references p rp name is => unfold ColumnSpec.lang; keeping [Keeps.parensTo Keeps.idents] [ColumnSpec.wt]
  | check x p rp => unfold ColumnSpec.lang; keeping [Keeps.parensTo (x.keeps q hf)] [ColumnSpec.wt]

theorem ColumnConstraint.keeps (x : ColumnConstraint) : Keeps κ (x.lang fns q) (κ.cnt (x.wt pns).text) := by
  obtain ⟨name, c, spec⟩ := x
  unfold ColumnConstraint.lang
  cases name <;> (simp only [columnNameLang]; keeping [spec.keeps q hf] [ColumnConstraint.wt, constraintName])

omit hf in
/-- The counts of the parts of a column definition that the items of a language give. -/
def defaultCnt (κ : Kept) (pns : FloatFns) : Option Expr → Nat
  | some x => κ.cnt (x.wt pns).text
  | none => 0

omit hf in
def constraintsCnt (κ : Kept) (pns : FloatFns) (cs : List ColumnConstraint) : Nat :=
  (cs.map fun x => κ.cnt (x.wt pns).text).sum

omit hf in
def itemCnt (κ : Kept) (pns : FloatFns) : ColumnItem → Nat
  | .default_ x => κ.cnt (x.wt pns).text
  | .constraints cs => constraintsCnt κ pns cs
  | .autoIncrement _ => κ.one '_'

omit hf in
theorem itemCnt_items (items : List ColumnItem) :
    defaultCnt κ pns (items.filterMap ColumnItem.default?).getLast? +
      constraintsCnt κ pns (((items.filterMap ColumnItem.constraints?).getLast?).getD []) +
      (items.filterMap ColumnItem.autoIncrement?).length * κ.one '_' ≤ (items.map (itemCnt κ pns)).sum := by
  induction items with
  | nil => simp [defaultCnt, constraintsCnt]
  | cons i items ih =>
    cases i with
    | default_ x =>
      simp only [List.filterMap_cons, ColumnItem.default?, ColumnItem.constraints?, ColumnItem.autoIncrement?,
        List.map_cons, List.sum_cons, itemCnt]
      generalize items.filterMap ColumnItem.default? = l at ih ⊢
      cases l with
      | nil => simp only [List.getLast?_singleton, List.getLast?_nil, defaultCnt] at ih ⊢; omega
      | cons y l => rw [List.getLast?_cons_cons]; omega
    | constraints cs =>
      simp only [List.filterMap_cons, ColumnItem.default?, ColumnItem.constraints?, ColumnItem.autoIncrement?,
        List.map_cons, List.sum_cons, itemCnt]
      generalize items.filterMap ColumnItem.constraints? = l at ih ⊢
      cases l with
      | nil => simp only [List.getLast?_singleton, List.getLast?_nil, Option.getD_some, Option.getD_none] at ih ⊢; omega
      | cons y l => rw [List.getLast?_cons_cons]; omega
    | autoIncrement a =>
      simp only [List.filterMap_cons, ColumnItem.default?, ColumnItem.constraints?, ColumnItem.autoIncrement?,
        List.map_cons, List.sum_cons, itemCnt, List.length_cons, Nat.add_mul]
      omega

omit hf in
theorem Keeps.sum {α : Type} {f : α → Lang} {g : α → Nat} (h : ∀ x, Keeps κ (f x) (g x)) :
    ∀ l : List α, Keeps κ (Spec.concat (l.map f)) (l.map g).sum
  | [] => Keeps.zero
  | x :: l => ((h x).cat (Keeps.sum h l)).mono (by simp)

theorem ColumnItem.keeps (x : ColumnItem) : Keeps κ (x.lang fns q) (itemCnt κ pns x) := by
  cases x with
  | default_ x => unfold ColumnItem.lang; keeping [x.keeps q hf] [itemCnt]
  | constraints cs =>
    unfold ColumnItem.lang
    keeping [Keeps.sum (ColumnConstraint.keeps q hf) cs] [itemCnt, constraintsCnt]
  | autoIncrement a => exact Keeps.spans Keeps.underscore

omit hf in
theorem cnt_constraints (cs : List ColumnConstraint) :
    κ.cnt (Step.texts (cs.map fun x => .node (x.wt pns))) = constraintsCnt κ pns cs := by
  induction cs with
  | nil => simp [Step.texts, constraintsCnt]
  | cons c cs ih => simp [Step.texts, Step.text, constraintsCnt] at ih ⊢; omega

omit hf in
theorem cnt_decorations (ds : List AutoIncrement) :
    κ.cnt (Step.texts (ds.flatMap fun m => [.bytes (str% " "), .node m.wt])) = ds.length * κ.one '_' := by
  induction ds with
  | nil => simp [Step.texts]
  | cons d ds ih => simp [Step.texts, Step.text, AutoIncrement.wt, Wt.text, Kept.own, Spec.own, Nat.add_mul] at ih ⊢; omega

theorem ColumnDef.keeps (c : ColumnDef) : Keeps κ (c.lang fns q) (κ.cnt (c.wt pns).text) := by
  unfold ColumnDef.lang
  have key : Keeps κ (fun ts => ∃ items, Spec.concat (items.map (ColumnItem.lang fns q)) ts ∧
      ColumnItems items c.default_ c.constraints c.decorations ∧
      (q.odd = true ∨ (ColumnItem.separated items && ColumnItem.single items) = true))
      (defaultCnt κ pns c.default_ + constraintsCnt κ pns c.constraints + c.decorations.length * κ.one '_') := by
    rintro ts ⟨items, h1, h2, -⟩
    rw [h2.default_, h2.constraints, h2.decorations]
    exact Nat.le_trans (itemCnt_items items) (Keeps.sum (ColumnItem.keeps q hf) items ts h1)
  apply Keeps.mono
  · keeps [c.dataType.keeps, key]
  · have h1 := cnt_constraints (κ := κ) (pns := pns) c.constraints
    have h2 := cnt_decorations (κ := κ) c.decorations
    cases hd : c.default_ <;>
      simp only [ColumnDef.wt, hd, Wt.text, texts_append, Step.texts, Step.text, cnt_append, h1, h2, defaultCnt,
        List.append_assoc, List.nil_append, cnt_append] <;> counts []

theorem TableElement.keeps (x : TableElement) : Keeps κ (x.lang fns q) (κ.cnt (x.wt pns).text) := by
  cases x with
  | constraint c => exact c.keeps q hf
  | column c => exact c.keeps q hf

omit hf in
theorem TableOption.keeps (x : TableOption) : Keeps κ x.lang (κ.cnt x.wt.text) := by
  cases x with
  | engine p equal name =>
    cases equal <;> (simp only [TableOption.lang, flag, if_true, Bool.false_eq_true, if_false]; keeping [] [TableOption.wt])
  | charset d p c equal name =>
    cases equal <;> cases d <;> (simp only [TableOption.lang, flag, flagFrom, if_true, Bool.false_eq_true, if_false]
                                 keeping [] [TableOption.wt])

omit hf in
theorem Keeps.options : ∀ xs : List TableOption,
    Keeps κ (Spec.concat (xs.map TableOption.lang)) (κ.cnt (Step.texts (Step.join (str% ", ") (xs.map TableOption.wt))))
  | [] => Keeps.zero
  | [x] => by simp only [List.map, Spec.concat]; keeping [x.keeps] [Step.join]
  | x :: y :: xs => by
    refine (x.keeps.cat (Keeps.options (y :: xs))).mono ?_
    simp only [List.map_cons]
    rw [cnt_join_cons, cnt_comma]
    omega

theorem AlterColumnAction.keeps (x : AlterColumnAction) : Keeps κ (x.lang fns q) (κ.cnt (x.wt pns).text) := by
  cases x <;> (unfold AlterColumnAction.lang; keeping [Expr.keeps q hf _, DataType.keeps _] [AlterColumnAction.wt])

theorem AlterTableAction.keeps (x : AlterTableAction) : Keeps κ (x.lang fns q) (κ.cnt (x.wt pns).text) := by
  cases x with
  | addColumn p c => unfold AlterTableAction.lang; keeping [c.keeps q hf] [AlterTableAction.wt]
  | alterColumn name p a => unfold AlterTableAction.lang; keeping [a.keeps q hf] [AlterTableAction.wt]
  | removeColumn name b cp p =>
    cases b <;> (simp only [AlterTableAction.lang, flagTo, if_true, Bool.false_eq_true, if_false]
                 keeping [] [AlterTableAction.wt])
  | addConstraint p c => unfold AlterTableAction.lang; keeping [c.keeps q hf] [AlterTableAction.wt]
  | dropConstraint name p b cp =>
    cases b <;> (simp only [AlterTableAction.lang, flagTo, if_true, Bool.false_eq_true, if_false]
                 keeping [] [AlterTableAction.wt])

omit hf in
theorem Keeps.name (o : ObjectName) : Keeps κ (Spec.objectName o) (κ.cnt o.wt.text) :=
  Keeps.objectName.mono (by counts [])

theorem Stmt.keeps : (s : Stmt) → Keeps κ (s.lang fns q) (κ.cnt (s.wt pns).text)
  | .query s => s.keeps q hf
  | .insert p name is source assigns => by
    rw [Stmt.lang]
    apply Keeps.mono
    · keeps [Keeps.columns, source.keeps q hf,
        Keeps.clause 0 (fun a m h => by keeping [h] []) (KeepsW.map (Assignment.keeps q hf) assigns)]
    · cases is <;> cases assigns <;> counts [Stmt.wt]
  | .update p name assigns cond => by
    rw [Stmt.lang]
    apply Keeps.mono
    · keeps [Keeps.where_ q hf cond, KeepsW.map (Assignment.keeps q hf) assigns]
    · cases cond <;> counts [Stmt.wt, optCnt]
  | .delete p name cond => by
    rw [Stmt.lang]
    apply Keeps.mono
    · keeps [Keeps.where_ q hf cond]
    · cases cond <;> counts [Stmt.wt, optCnt]
  | .createView p name s false => by rw [Stmt.lang]; keeping [s.keeps q hf] [Stmt.wt]
  | .createView _ _ _ true => by rw [Stmt.lang]; exact Keeps.never
  | .createTable p name elements notExists options => by
    rw [Stmt.lang]
    cases notExists <;> (
      simp only [flag, if_true, Bool.false_eq_true, if_false]
      apply Keeps.mono
      · keeps [Keeps.clause 0 (fun a m h => (Keeps.parens h).mono (Nat.le_refl _)) (KeepsW.map (TableElement.keeps q hf) elements), Keeps.options options]
      · cases elements <;> counts [Stmt.wt, Step.join])
  | .alterTable p name action => by rw [Stmt.lang]; keeping [action.keeps q hf] [Stmt.wt]
  | .dropTable names cascade cp ifExists p => by
    rw [Stmt.lang]
    cases cascade <;> cases ifExists <;> (
      simp only [flag, flagTo, if_true, Bool.false_eq_true, if_false]
      keeping [KeepsW.map Keeps.name names] [Stmt.wt])
  | .createIndex p name unique indexName methodName is rp cond => by
    rw [Stmt.lang]
    cases unique <;> cases indexName <;> cases methodName <;> (
      simp only [Option.map, Spec.optional, id, if_true, Bool.false_eq_true, if_false]
      apply Keeps.mono
      · keeps [Keeps.columns, Keeps.where_ q hf cond]
      · cases cond <;> cases is <;> counts [Stmt.wt, optCnt])
  | .dropIndex p is => by rw [Stmt.lang]; keeping [] [Stmt.wt]
  | .explain s p => by rw [Stmt.lang]; keeping [s.keeps] [Stmt.wt]
  | .copy _ _ _ _ => by rw [Stmt.lang]; exact Keeps.never

/-- The statements of a script, with what File.WriteTo puts between them. -/
theorem Keeps.script (ss : List Stmt) :
    Keeps κ (scriptLang fns q ss) (κ.cnt (Step.texts (Step.join (str% "\n") (ss.map (Stmt.wt pns))))) := by
  have key : ∀ ss : List Stmt, Keeps κ (Spec.concat (ss.map fun s => s.lang fns q ⬝ Spec.sym .Semicolon))
      (κ.cnt (Step.texts (Step.join (str% "\n") (ss.map (Stmt.wt pns))))) := by
    intro ss
    induction ss with
    | nil => exact Keeps.zero
    | cons s ss ih =>
      simp only [List.map_cons, Spec.concat]
      apply Keeps.mono
      · keeps [s.keeps q hf, ih]
      · cases ss with
        | nil => counts [Step.join]
        | cons s' ss =>
          simp only [List.map_cons]
          rw [cnt_join_cons]
          counts []
  unfold scriptLang
  keeping [key ss] []

/-- The statements of a script one by one, each with its semicolon. -/
theorem Keeps.statements (ss : List Stmt) :
    Keeps κ (scriptLang fns q ss) ((ss.map fun s => κ.cnt (s.wt pns).text + κ.one ';').sum) := by
  have key : ∀ ss : List Stmt, Keeps κ (Spec.concat (ss.map fun s => s.lang fns q ⬝ Spec.sym .Semicolon))
      ((ss.map fun s => κ.cnt (s.wt pns).text + κ.one ';').sum) := by
    intro ss
    induction ss with
    | nil => exact Keeps.zero
    | cons s ss ih =>
      simp only [List.map_cons, Spec.concat]
      keeping [s.keeps q hf, ih] []
  unfold scriptLang
  keeping [key ss] []

end

end Verif
