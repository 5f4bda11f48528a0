import Verif.Proofs.Term
import Verif.Proofs.Local
import Verif.Proofs.Exec
import Verif.Spec.Panic
/-
The reasons for panics.  `pw T z p i Q` says that `p`, started at index `i` of `T`, panics only where the table
of Spec/Panic.lean has a row, and that `Q` holds of its result and final index if it succeeds.  If `z` is true,
this is said only of runs that never ask for a token beyond the end; otherwise panics at the end are allowed.
-/
set_option linter.unusedVariables false
set_option linter.unusedSimpArgs false
set_option maxRecDepth 20000
namespace Verif

/-- `parseKeywords` asks for a token beyond the end. -/
def kwsAsksZ : List Str → List Token → Bool
  | [], _ => false
  | _ :: _, [] => true
  | k :: ks, t :: ts => if t.matchesKw k then kwsAsksZ ks ts else false

/-- Does the run ask for a token beyond the end? -/
def P.asksI (T : List Token) : P α → Nat → Bool
  | .next k, i =>
    match T[i]? with
    | some t => (k (some t)).asksI T (i + 1)
    | none => true
  | .peek k, i => T[i]?.isNone || (k T[i]?).asksI T i
  | .prev k, i => if i = 0 then false else k.asksI T (i - 1)
  | .kws ks k, i =>
    kwsAsksZ ks (T.drop i) || match takeKws ks (T.drop i) with
      | some (ts, _) => (k (some ts)).asksI T (i + ts.length)
      | none => (k none).asksI T i
  | _, _ => false

/-- The index at which the run panics. -/
def P.panicI (T : List Token) : P α → Nat → Option Nat
  | .next k, i =>
    match T[i]? with
    | some t => (k (some t)).panicI T (i + 1)
    | none => (k none).panicI T i
  | .peek k, i => (k T[i]?).panicI T i
  | .prev k, i => if i = 0 then some 0 else k.panicI T (i - 1)
  | .kws ks k, i =>
    match takeKws ks (T.drop i) with
    | some (ts, _) => (k (some ts)).panicI T (i + ts.length)
    | none => (k none).panicI T i
  | .panic, i => some i
  | _, _ => none

section
variable {T : List Token} {z : Bool} {i n : Nat} {α β γ : Type}

/-- The end of the input, where it is allowed to matter. -/
def Fin_ (T : List Token) (z : Bool) (i : Nat) : Prop := z = false ∧ T.length ≤ i

def Like (T : List Token) (k : Nat) (a : Item) : Prop := ∃ t, T[k]? = some t ∧ a.like t = true
def Seen (T : List Token) (i : Nat) (a : Item) : Prop := ∃ k, k < i ∧ Like T k a
def Pr (T : List Token) (i : Nat) (a : Item) : Prop := ∃ k, i = k + 1 ∧ Like T k a
def Isnt (T : List Token) (z : Bool) (i : Nat) (xs : List Item) : Prop :=
  Fin_ T z i ∨ ∃ t, T[i]? = some t ∧ ∀ a ∈ xs, a.is t = false

/-- The row holds with the unacceptable token at index `o`. -/
def Site.at_ (c : Site) (T : List Token) (o : Nat) : Prop :=
  (∀ a, c.seen = some a → Seen T (if c.prev = [] then o else o - 1) a) ∧ (c.prev = [] ∨ ∃ a ∈ c.prev, Pr T o a) ∧
  ∃ t, T[o]? = some t ∧ ∀ a ∈ c.need, a.is t = false

def Odd (T : List Token) (j : Nat) : Prop :=
  ∃ t k, (T[j]? = some t ∨ ∃ i, j = i + 1 ∧ T[i]? = some t) ∧ k ∈ twice ∧
    t.kw? = some k ∧ t.matchesKw k.str = false

/-- An allowed reason for a panic with the cursor at `j`. -/
def Bad (T : List Token) (z : Bool) (j : Nat) : Prop :=
  Fin_ T z j ∨ Odd T j ∨ (∃ c ∈ sites, c.at_ T j) ∨ ∃ c ∈ readSites, ∃ o, j = o + 1 ∧ c.at_ T o

theorem bad_row (c : Site) (hc : c ∈ sites)
    (h1 : ∀ a, c.seen = some a → Seen T (if c.prev = [] then i else i - 1) a)
    (h2 : c.prev = [] ∨ ∃ a ∈ c.prev, Pr T i a) (h3 : Isnt T z i c.need) : Bad T z i := by
  rcases h3 with h3 | h3
  · exact .inl h3
  · exact .inr (.inr (.inl ⟨c, hc, h1, h2, h3⟩))

theorem bad_sp {x y : Item} {ys need : List Item} (hc : (⟨some x, ys, need⟩ : Site) ∈ sites) (hy : y ∈ ys)
    (h1 : Seen T (i - 1) x) (h2 : Pr T i y) (h3 : Isnt T z i need) : Bad T z i :=
  bad_row _ hc (fun a h => by cases h; rw [if_neg (List.ne_nil_of_mem hy)]; exact h1) (.inr ⟨y, hy, h2⟩) h3

theorem bad_s {x : Item} {need : List Item} (hc : (⟨some x, [], need⟩ : Site) ∈ sites) (h1 : Seen T i x)
    (h3 : Isnt T z i need) : Bad T z i :=
  bad_row _ hc (fun a h => by cases h; exact h1) (.inl rfl) h3

theorem bad_p {y : Item} {ys need : List Item} (hc : (⟨none, ys, need⟩ : Site) ∈ sites) (hy : y ∈ ys)
    (h2 : Pr T i y) (h3 : Isnt T z i need) : Bad T z i :=
  bad_row _ hc (fun a h => by cases h) (.inr ⟨y, hy, h2⟩) h3

/-- The unacceptable token has been read. -/
theorem bad_read {t : Token} (c : Site) (hc : c ∈ readSites)
    (h1 : ∀ a, c.seen = some a → Seen T (if c.prev = [] then i else i - 1) a)
    (h2 : c.prev = [] ∨ ∃ a ∈ c.prev, Pr T i a) (ht : T[i]? = some t) (h3 : ∀ a ∈ c.need, a.is t = false) :
    Bad T z (i + 1) :=
  .inr (.inr (.inr ⟨c, hc, i, rfl, h1, h2, t, ht, h3⟩))

theorem bad_read_p {t : Token} {y : Item} {ys need : List Item} (hc : (⟨none, ys, need⟩ : Site) ∈ readSites)
    (hy : y ∈ ys) (h2 : Pr T i y) (ht : T[i]? = some t) (h3 : ∀ a ∈ need, a.is t = false) : Bad T z (i + 1) :=
  bad_read _ hc (fun a h => by cases h) (.inr ⟨y, hy, h2⟩) ht h3

theorem bad_absurd {t : Token} {k : KW} (n : Isnt T z i [.kw k]) (hm : t.matchesKw k.str = true)
    (ht : T[i]? = some t) : Bad T z i := by
  rcases n with n | ⟨t', ht', n⟩
  · exact .inl n
  · rw [ht] at ht'
    cases ht'
    simp [Item.is, hm] at n

theorem bad_odd {t : Token} {k : KW} (hk : k ∈ twice) (n : Isnt T z i [.kw k]) (h : t.kw? = some k)
    (ht : T[i]? = some t) : Bad T z i := by
  rcases n with n | ⟨t', ht', n⟩
  · exact .inl n
  · rw [ht] at ht'
    cases ht'
    exact .inr (.inl ⟨t, k, .inl ht, hk, h, by simpa [Item.is] using n⟩)

/-- If no expression can begin here, there is a reason to panic. -/
def EStart (T : List Token) (z : Bool) (i : Nat) : Prop :=
  ∀ t, T[i]? = some t → (∀ a ∈ exprStart, a.is t = false) → Bad T z (i + 1)

theorem estart_of {a : Item} (h : Pr T i a) (ha : a ∈ exprPrev) : EStart T z i :=
  fun _ ht h3 => bad_read_p (List.mem_of_elem_eq_true rfl) ha h ht h3

theorem estart_like {a : Item} (h : Like T i a) (ha : a ∈ exprPrev) : EStart T z (i + 1) :=
  estart_of ⟨i, rfl, h⟩ ha

/-- If no query can begin here, there is a reason to panic. -/
def QStart (T : List Token) (z : Bool) (i : Nat) : Prop :=
  Isnt T z i [.kw .WITH] → Isnt T z i [.kw .SELECT] → Isnt T z i [.sym .LParen] → Bad T z i

/-- If no query body can begin here, there is a reason to panic. -/
def BStart (T : List Token) (z : Bool) (i : Nat) : Prop :=
  Isnt T z i [.kw .SELECT] → Isnt T z i [.sym .LParen] → Bad T z i

theorem Isnt.cons {a : Item} {xs : List Item} (h1 : Isnt T z i [a]) (h2 : Isnt T z i xs) : Isnt T z i (a :: xs) := by
  rcases h1 with h1 | ⟨t, ht, h1⟩
  · exact .inl h1
  · rcases h2 with h2 | ⟨t', ht', h2⟩
    · exact .inl h2
    · rw [ht] at ht'
      cases ht'
      refine .inr ⟨t, ht, ?_⟩
      intro b hb
      rcases List.mem_cons.1 hb with rfl | hb
      · exact h1 _ (by simp)
      · exact h2 b hb

theorem isnt_kw {t : Token} {k : KW} (ht : T[i]? = some t) (h : t.matchesKw k.str = false) :
    Isnt T z i [.kw k] := .inr ⟨t, ht, by simpa [Item.is] using h⟩

theorem like_kw {t : Token} {k : KW} (h : t.kw? = some k) (ht : T[i]? = some t) : Like T i (.kw k) :=
  ⟨t, ht, by simp [Item.like, h]⟩

theorem like_sym {t : Token} {s : Sym} (h : t.isSym s = true) (ht : T[i]? = some t) : Like T i (.sym s) :=
  ⟨t, ht, by simpa [Item.like, Item.is] using h⟩

theorem like_symTok {t : Token} {s : Sym} {x : Str} (h : t.tok = .sym s x) (ht : T[i]? = some t) :
    Like T i (.sym s) := like_sym (by simp [Token.isSym, h]) ht

theorem like_word {t : Token} {w : SQLWord} (ht : T[i]? = some t) (h : t.word? = some w) : Like T i .word :=
  ⟨t, ht, by simp [Item.like, Item.is, h]⟩

def pw (T : List Token) (z : Bool) (p : P α) (i : Nat) (Q : α → Nat → Prop) : Prop :=
  (z = true → p.asksI T i = false) →
    (∀ j, p.panicI T i = some j → Bad T z j) ∧ ∀ x j, p.runI T i = .ok x j → Q x j

theorem asksI_bind (T : List Token) : ∀ (p : P α) (f : α → P β) (i : Nat),
    (p.bind f).asksI T i = (p.asksI T i || match p.runI T i with
      | .ok a j => (f a).asksI T j
      | _ => false)
  | .ret a, f, i => by simp [P.bind, P.asksI, P.runI]
  | .err, _, _ => by simp [P.bind, P.asksI, P.runI]
  | .panic, _, _ => by simp [P.bind, P.asksI, P.runI]
  | .oof, _, _ => by simp [P.bind, P.asksI, P.runI]
  | .next k, f, i => by
    simp only [P.bind, P.asksI, P.runI]
    cases T[i]? with
    | none => simp
    | some t => exact asksI_bind T _ f _
  | .peek k, f, i => by
    simp only [P.bind, P.asksI, P.runI]
    rw [asksI_bind T _ f _, Bool.or_assoc]
  | .prev k, f, i => by
    simp only [P.bind, P.asksI, P.runI]
    split
    · simp
    · exact asksI_bind T _ f _
  | .kws ks k, f, i => by
    simp only [P.bind, P.asksI, P.runI]
    cases takeKws ks (T.drop i) with
    | none => simp only; rw [asksI_bind T _ f _, Bool.or_assoc]
    | some r => simp only; rw [asksI_bind T _ f _, Bool.or_assoc]

theorem panicI_bind (T : List Token) : ∀ (p : P α) (f : α → P β) (i : Nat),
    (p.bind f).panicI T i = match p.runI T i with
      | .ok a j => (f a).panicI T j
      | _ => p.panicI T i
  | .ret a, f, i => by simp [P.bind, P.panicI, P.runI]
  | .err, _, _ => by simp [P.bind, P.panicI, P.runI]
  | .panic, _, _ => by simp [P.bind, P.panicI, P.runI]
  | .oof, _, _ => by simp [P.bind, P.panicI, P.runI]
  | .next k, f, i => by
    simp only [P.bind, P.panicI, P.runI]
    cases T[i]? with
    | none => exact panicI_bind T _ f _
    | some t => exact panicI_bind T _ f _
  | .peek k, f, i => by simp only [P.bind, P.panicI, P.runI]; exact panicI_bind T _ f _
  | .prev k, f, i => by
    simp only [P.bind, P.panicI, P.runI]
    split
    · rfl
    · exact panicI_bind T _ f _
  | .kws ks k, f, i => by
    simp only [P.bind, P.panicI, P.runI]
    cases takeKws ks (T.drop i) with
    | none => exact panicI_bind T _ f _
    | some r => exact panicI_bind T _ f _

theorem pw_bind {p : P α} {f : α → P β} {Q : β → Nat → Prop}
    (h : pw T z p i fun x j => pw T z (f x) j Q) : pw T z (p >>= f) i Q := by
  unfold pw at h ⊢
  rw [P.bind_eq]
  intro ha
  rw [asksI_bind] at ha
  obtain ⟨h1, h2⟩ := h fun he => (Bool.or_eq_false_iff.1 (ha he)).1
  rw [panicI_bind, runI_bind]
  cases hp : p.runI T i with
  | ok x j =>
    rw [hp] at ha
    exact h2 x j hp fun he => (Bool.or_eq_false_iff.1 (ha he)).2
  | err => exact ⟨h1, fun x j h => by cases h⟩
  | panic => exact ⟨h1, fun x j h => by cases h⟩
  | oof => exact ⟨h1, fun x j h => by cases h⟩

theorem pw_mono {p : P α} {Q Q' : α → Nat → Prop} (h : pw T z p i Q) (hq : ∀ x j, Q x j → Q' x j) :
    pw T z p i Q' := fun ha => ⟨(h ha).1, fun x j hr => hq x j ((h ha).2 x j hr)⟩

/-- An optional clause: forget everything but the progress. -/
theorem pw_cut {p : P γ} {g : γ → P α} {f : α → P β} {Q : β → Nat → Prop}
    (h1 : pw T z (p >>= g) i fun _ j => i ≤ j)
    (h2 : ∀ x j, i ≤ j → pw T z (f x) j Q) : pw T z (p >>= g >>= f) i Q :=
  pw_bind (pw_mono h1 fun x j h => h2 x j h)

theorem pw_ret {a : α} {Q : α → Nat → Prop} (h : Q a i) : pw T z (pure a) i Q := by
  intro _
  refine ⟨fun j h => (by cases h), ?_⟩
  intro x j hr
  cases hr
  exact h

theorem pw_err {Q : α → Nat → Prop} : pw T z .err i Q :=
  fun _ => ⟨fun j h => (by cases h), fun x j h => (by cases h)⟩
theorem pw_oof {Q : α → Nat → Prop} : pw T z .oof i Q :=
  fun _ => ⟨fun j h => (by cases h), fun x j h => (by cases h)⟩
theorem pw_panic {Q : α → Nat → Prop} (h : Bad T z i) : pw T z .panic i Q :=
  fun _ => ⟨fun j h' => (by cases h'; exact h), fun x j h => (by cases h)⟩

theorem fin_of {b : Bool} (h : z = true → b = false) (hb : b = true) (hl : T.length ≤ i) : Fin_ T z i := by
  cases z with
  | false => exact ⟨rfl, hl⟩
  | true => rw [h rfl] at hb; cases hb

theorem pw_nextToken {Q : Option Token → Nat → Prop}
    (h1 : ∀ t, T[i]? = some t → Q (some t) (i + 1)) (h2 : Fin_ T z i → Q none i) :
    pw T z nextToken i Q := by
  intro ha
  simp only [nextToken, P.asksI, P.panicI, P.runI] at ha ⊢
  cases ht : T[i]? with
  | none =>
    rw [ht] at ha
    refine ⟨fun j h => (by cases h), fun x j h => ?_⟩
    cases h
    exact h2 (fin_of ha rfl (List.getElem?_eq_none_iff.1 ht))
  | some t =>
    refine ⟨fun j h => (by cases h), fun x j h => ?_⟩
    cases h
    exact h1 t ht

theorem pw_peekToken {Q : Option Token → Nat → Prop}
    (h1 : ∀ t, T[i]? = some t → Q (some t) i) (h2 : Fin_ T z i → Q none i) :
    pw T z peekToken i Q := by
  intro ha
  simp only [peekToken, P.asksI, P.panicI, P.runI] at ha ⊢
  cases ht : T[i]? with
  | none =>
    rw [ht] at ha
    refine ⟨fun j h => (by cases h), fun x j h => ?_⟩
    cases h
    exact h2 (fin_of ha rfl (List.getElem?_eq_none_iff.1 ht))
  | some t =>
    refine ⟨fun j h => (by cases h), fun x j h => ?_⟩
    cases h
    exact h1 t ht

theorem pw_prevToken {Q : Unit → Nat → Prop} (h0 : 1 ≤ i) (h : ∀ j, i = j + 1 → Q () j) : pw T z prevToken i Q := by
  intro _
  obtain ⟨j, rfl⟩ : ∃ j, i = j + 1 := ⟨i - 1, by omega⟩
  simp only [prevToken, P.panicI, P.runI, Nat.add_one_ne_zero, if_false, Nat.add_sub_cancel]
  refine ⟨fun j h => (by cases h), fun x j' h' => ?_⟩
  cases h'
  exact h _ rfl

theorem takeKws_last : ∀ {ks : List KW} {s ts s' : List Token}, takeKws (ks.map KW.str) s = some (ts, s') →
    ∀ k, ks.getLast? = some k → ∃ t, ts.getLast? = some t ∧ t.matchesKw k.str = true
  | [], s, ts, s', h, k, hk => by simp at hk
  | [k'], [], ts, s', h, k, hk => by simp [takeKws] at h
  | [k'], t :: s, ts, s', h, k, hk => by
    simp only [List.map_cons, List.map_nil, takeKws] at h
    simp at hk
    subst hk
    split at h
    · simp at h
      obtain ⟨rfl, rfl⟩ := h
      exact ⟨t, rfl, by assumption⟩
    · simp at h
  | k1 :: k2 :: ks, [], ts, s', h, k, hk => by simp [takeKws] at h
  | k1 :: k2 :: ks, t :: s, ts, s', h, k, hk => by
    rw [List.map_cons] at h
    unfold takeKws at h
    split at h
    · simp only [Option.map_eq_some_iff, Prod.mk.injEq] at h
      obtain ⟨⟨ts', s''⟩, h1, rfl, rfl⟩ := h
      obtain ⟨t', h2, h3⟩ := takeKws_last h1 k (by simpa using hk)
      refine ⟨t', ?_, h3⟩
      rw [List.getLast?_cons, h2]
      rfl
    · simp at h

theorem pw_parseKeywords {k : KW} {ks : List KW} {Q : Option (List Token) → Nat → Prop}
    (h1 : ∀ ts j, i + 1 ≤ j → Pr T j (.kw ((k :: ks).getLast (by simp))) → Q (some ts) j) (h2 : Q none i) :
    pw T z (parseKeywords (k :: ks)) i Q := by
  intro _
  simp only [parseKeywords, P.panicI, P.runI]
  cases htk : takeKws ((k :: ks).map KW.str) (T.drop i) with
  | none =>
    refine ⟨fun j h => (by cases h), fun x j h => ?_⟩
    cases h
    exact h2
  | some r =>
    obtain ⟨ts, s'⟩ := r
    obtain ⟨h, hl⟩ := takeKws_append htk
    have hl' := congrArg List.length h
    obtain ⟨t, ht, hm⟩ := takeKws_last htk _ (List.getLast?_eq_some_getLast (by simp))
    refine ⟨fun j h => (by cases h), fun x j h' => ?_⟩
    cases h'
    simp at hl hl'
    refine h1 ts _ (by omega) ⟨i + ts.length - 1, by omega, t, ?_, by simp [Item.like, hm]⟩
    have h3 : (T.drop i)[ts.length - 1]? = some t := by
      rw [h, List.getElem?_append_left (by omega), ← List.getLast?_eq_getElem?, ht]
    rw [List.getElem?_drop] at h3
    rw [show i + ts.length - 1 = i + (ts.length - 1) by omega]
    exact h3

theorem pw_nextOrErr {Q : Token → Nat → Prop} (h1 : ∀ t, T[i]? = some t → Q t (i + 1)) :
    pw T z nextOrErr i Q := by
  intro _
  simp only [nextOrErr, P.panicI, P.runI]
  cases ht : T[i]? with
  | none => exact ⟨fun j h => (by cases h), fun x j h => (by cases h)⟩
  | some t =>
    refine ⟨fun j h => (by cases h), fun x j h => ?_⟩
    cases h
    exact h1 t ht

theorem pw_mustNext {Q : Token → Nat → Prop} (h1 : ∀ t, T[i]? = some t → Q t (i + 1)) :
    pw T z mustNext i Q := by
  intro ha
  simp only [mustNext, P.panicI, P.runI, P.asksI] at ha ⊢
  cases ht : T[i]? with
  | none =>
    rw [ht] at ha
    refine ⟨fun j h => ?_, fun x j h => (by cases h)⟩
    cases h
    exact .inl (fin_of ha rfl (List.getElem?_eq_none_iff.1 ht))
  | some t =>
    refine ⟨fun j h => (by cases h), fun x j h => ?_⟩
    cases h
    exact h1 t ht

theorem pw_mustPeek {Q : Token → Nat → Prop} (h1 : ∀ t, T[i]? = some t → Q t i) :
    pw T z mustPeek i Q := by
  intro ha
  simp only [mustPeek, P.panicI, P.runI, P.asksI] at ha ⊢
  cases ht : T[i]? with
  | none =>
    rw [ht] at ha
    refine ⟨fun j h => ?_, fun x j h => (by cases h)⟩
    cases h
    exact .inl (fin_of ha rfl (List.getElem?_eq_none_iff.1 ht))
  | some t =>
    refine ⟨fun j h => (by cases h), fun x j h => ?_⟩
    cases h
    exact h1 t ht

theorem pw_parseKeyword {k : KW} {Q : KwRes → Nat → Prop} (h0 : Fin_ T z i → Q .eof i)
    (h1 : ∀ t, T[i]? = some t → t.matchesKw k.str = true → Like T i (.kw k) → Q (.yes t) (i + 1))
    (h2 : ∀ t, T[i]? = some t → t.matchesKw k.str = false → Isnt T z i [.kw k] → Q (.no t) i) :
    pw T z (parseKeyword k) i Q := by
  unfold parseKeyword
  refine pw_bind (pw_peekToken ?_ fun h => pw_ret (h0 h))
  intro t ht
  simp only
  split
  · rename_i hm
    refine pw_bind (pw_mustNext ?_)
    intro t' ht'
    exact pw_ret (h1 t ht hm ⟨t, ht, by simp [Item.like, hm]⟩)
  · rename_i hm
    have hm : t.matchesKw k.str = false := by simpa using hm
    exact pw_ret (h2 t ht hm (isnt_kw ht hm))

theorem pw_kw {k : KW} {Q : Bool → Nat → Prop}
    (h1 : ∀ t, T[i]? = some t → t.matchesKw k.str = true → Like T i (.kw k) → Q true (i + 1))
    (h2 : Isnt T z i [.kw k] → Q false i) : pw T z (kw k) i Q := by
  unfold kw
  refine pw_bind (pw_parseKeyword ?_ ?_ ?_)
  · intro hi; exact pw_ret (h2 (.inl hi))
  · intro t h3 h4 h5; exact pw_ret (h1 t h3 h4 h5)
  · intro t ht hm h; exact pw_ret (h2 h)

theorem pw_kwTok {k : KW} {Q : Option Token → Nat → Prop}
    (h1 : ∀ t, T[i]? = some t → t.matchesKw k.str = true → Like T i (.kw k) → Q (some t) (i + 1))
    (h2 : Isnt T z i [.kw k] → Q none i) : pw T z (kwTok k) i Q := by
  unfold kwTok
  exact pw_bind (pw_parseKeyword (fun h => pw_ret (h2 (.inl h))) (fun t h3 h4 h5 => pw_ret (h1 t h3 h4 h5))
    (fun _ _ _ h => pw_ret (h2 h)))

theorem pw_kwOrErr {k : KW} {Q : Token → Nat → Prop}
    (h1 : ∀ t, T[i]? = some t → t.matchesKw k.str = true → Like T i (.kw k) → Q t (i + 1)) :
    pw T z (kwOrErr k) i Q := by
  unfold kwOrErr
  exact pw_bind (pw_parseKeyword (fun _ => pw_err) (fun t h3 h4 h5 => pw_ret (h1 t h3 h4 h5)) (fun _ _ _ _ => pw_err))

theorem pw_expectKeyword {k : KW} {Q : Token → Nat → Prop} (h0 : Isnt T z i [.kw k] → Bad T z i)
    (h1 : ∀ t, T[i]? = some t → t.matchesKw k.str = true → Like T i (.kw k) → Q t (i + 1)) :
    pw T z (expectKeyword k) i Q := by
  unfold expectKeyword
  exact pw_bind (pw_parseKeyword (fun h => pw_panic (.inl h)) (fun t h3 h4 h5 => pw_ret (h1 t h3 h4 h5))
    (fun _ _ _ h => pw_panic (h0 h)))

theorem pw_consumeToken {k : Sym} {Q : Bool → Nat → Prop}
    (h1 : ∀ t, T[i]? = some t → t.isSym k = true → Like T i (.sym k) → Q true (i + 1))
    (h2 : Isnt T z i [.sym k] → Q false i) :
    pw T z (consumeToken k) i Q := by
  unfold consumeToken
  refine pw_bind (pw_peekToken ?_ (fun h => pw_ret (h2 (.inl h))))
  intro t ht
  simp only
  split
  · rename_i hs
    refine pw_bind (pw_nextOrErr ?_)
    intro t' ht'
    exact pw_ret (h1 t ht hs ⟨t, ht, by simpa [Item.like, Item.is] using hs⟩)
  · rename_i hs
    exact pw_ret (h2 (.inr ⟨t, ht, by simpa [Item.is] using hs⟩))

theorem pw_expectToken {k : Sym} {Q : Unit → Nat → Prop} (h0 : Isnt T z i [.sym k] → Bad T z i)
    (h1 : ∀ t, T[i]? = some t → t.isSym k = true → Like T i (.sym k) → Q () (i + 1)) :
    pw T z (expectToken k) i Q := by
  unfold expectToken
  exact pw_bind (pw_consumeToken (fun t ht hs hl => pw_ret (h1 t ht hs hl)) (fun h => pw_panic (h0 h)))

theorem pw_nextSym {k : Sym} {Q : Token → Nat → Prop}
    (h1 : ∀ t, T[i]? = some t → t.isSym k = true → Like T i (.sym k) → Q t (i + 1)) :
    pw T z (nextSym k) i Q := by
  unfold nextSym
  refine pw_bind (pw_mustNext ?_)
  intro t ht
  split
  · rename_i hs
    exact pw_ret (h1 t ht hs ⟨t, ht, by simpa [Item.like, Item.is] using hs⟩)
  · exact pw_err

end

attribute [irreducible] pw

/-- What the recursive entry points promise: allowed reasons for panics, and progress. -/
structure Pan (T : List Token) (z : Bool) (r : Parsers) : Prop where
  subexpr : ∀ p i, EStart T z i → pw T z (r.subexpr p) i (fun _ j => i + 1 ≤ j)
  subexprLoop : ∀ p e i, pw T z (r.subexprLoop p e) i (fun _ j => i ≤ j)
  prefix_ : ∀ i, EStart T z i → pw T z (r.prefix_) i (fun _ j => i + 1 ≤ j)
  idParts : ∀ i, pw T z (r.idParts) i (fun _ j => i ≤ j)
  exprList : ∀ i, EStart T z i → pw T z (r.exprList) i (fun _ j => i + 1 ≤ j)
  listOfIds : ∀ s i, pw T z (r.listOfIds s) i (fun x j => i ≤ j ∧ (x.isSome = true → i + 1 ≤ j ∧ Pr T j .word))
  listOfIdsSep : ∀ s i, Pr T i .word → pw T z (r.listOfIdsSep s) i (fun x j => i ≤ j ∧ (x.isSome = true → Pr T j .word))
  orderByList : ∀ i, EStart T z i → pw T z (r.orderByList) i (fun _ j => i + 1 ≤ j)
  caseLoop : ∀ i, Pr T i (.kw .WHEN) → pw T z (r.caseLoop) i (fun _ j => i + 1 ≤ j)
  query : ∀ i, QStart T z i → pw T z (r.query) i (fun _ j => i + 1 ≤ j)
  queryBody : ∀ p i, BStart T z i → pw T z (r.queryBody p) i (fun _ j => i + 1 ≤ j)
  bodyLoop : ∀ p e i, pw T z (r.bodyLoop p e) i (fun _ j => i ≤ j)
  cteList : ∀ i, Seen T i (.kw .WITH) → pw T z (r.cteList) i (fun _ j => i + 1 ≤ j ∧ Pr T j (.sym .RParen) ∧ Isnt T z j [.sym .Comma])
  selectList : ∀ i, EStart T z i → pw T z (r.selectList) i (fun _ j => i + 1 ≤ j)
  tableRef : ∀ i, pw T z (r.tableRef) i (fun _ j => i + 1 ≤ j)
  tableRefLoop : ∀ l e i, pw T z (r.tableRefLoop l e) i (fun _ j => i ≤ j)
  fromRest : ∀ i, pw T z (r.fromRest) i (fun _ j => i ≤ j)
  defaultLoop : ∀ e i, pw T z (r.defaultLoop e) i (fun _ j => i ≤ j)
  columnLoop : ∀ d s a i, pw T z (r.columnLoop d s a) i (fun _ j => i ≤ j)
  columnConstraints : ∀ i, pw T z (r.columnConstraints) i (fun _ j => i ≤ j)
  elements : ∀ i, Seen T i (.kw .TABLE) → pw T z (r.elements) i (fun _ j => i + 1 ≤ j)
  tableOptions : ∀ i, pw T z (r.tableOptions) i (fun _ j => i ≤ j)
  assignments : ∀ i, Seen T i (.kw .UPDATE) → pw T z (r.assignments) i (fun _ j => i + 1 ≤ j)
  rows : ∀ i, pw T z (r.rows) i (fun _ j => i + 1 ≤ j)
  statement : ∀ i, pw T z (r.statement) i (fun _ j => i + 1 ≤ j)

section
variable {T : List Token} {z : Bool} {r : Parsers} {i : Nat}

open Lean Elab Tactic Meta in
/-- One step of symbolic execution: apply the rule for the head of the program. -/
elab "pw_step" : tactic => do
  let g ← getMainGoal
  g.withContext do
  let tgt ← instantiateMVars (← g.getType)
  let tgt := tgt.consumeMData
  unless tgt.isAppOf ``Verif.pw do throwError "not pw"
  let args := tgt.getAppArgs
  let p := args[args.size - 3]!.consumeMData
  let .const c _ := p.getAppFn | throwError "no head"
  let direct (n : Name) : TacticM Unit := do
    let gs ← g.apply (← mkConstWithFreshMVarLevels n)
    replaceMainGoal gs
  let viaMono (n : Name) : TacticM Unit := do
    let [h, hq] ← g.apply (← mkConstWithFreshMVarLevels ``Verif.pw_mono) (cfg := { newGoals := .nonDependentOnly })
      | do
        throwError "pw_mono"
    let gs ← h.apply (← mkConstWithFreshMVarLevels n)
    let mut rest : List MVarId := []
    for x in gs do
      if ← x.isAssigned then continue
      let ty ← instantiateMVars (← x.getType)
      if ty.isAppOf `Verif.Pan then
        x.withContext x.assumption
      else rest := rest ++ [x]
    replaceMainGoal (rest ++ [hq])
  if c == ``Bind.bind then
    let m := p.getAppArgs[4]!
    if m.consumeMData.isAppOf ``Bind.bind then direct ``Verif.pw_cut else direct ``Verif.pw_bind
  else if c == ``Pure.pure then direct ``Verif.pw_ret
  else if c == ``Verif.P.err then direct ``Verif.pw_err
  else if c == ``Verif.P.panic then direct ``Verif.pw_panic
  else match c with
    | .str (.str .anonymous "Verif") s =>
      let env ← getEnv
      let w := (`Verif).str ("pw_" ++ s)
      let t := (`Verif).str ("pan_" ++ s)
      if env.contains w then direct w
      else if env.contains t then viaMono t
      else throwError "no rule for {c}"
    | .str (.str (.str .anonymous "Verif") "Parsers") s => viaMono (`Verif.Pan |>.str s)
    | .str (.str (.str .anonymous "Verif") f) s => viaMono ((`Verif).str ("pan_" ++ f ++ "_" ++ s))
    | _ => throwError "no rule for {c}"

theorem Seen.mono {a : Item} {j : Nat} (h : Seen T i a) (hj : i ≤ j) : Seen T j a :=
  let ⟨k, h1, h2⟩ := h
  ⟨k, by omega, h2⟩

theorem Pr.seen {a : Item} {j : Nat} (h : Pr T i a) (hj : i ≤ j) : Seen T j a :=
  let ⟨k, h1, h2⟩ := h
  ⟨k, by omega, h2⟩

theorem Seen.of {a : Item} {k : Nat} (h : Like T k a) (hj : k < i) : Seen T i a := ⟨k, hj, h⟩

theorem like_word' {t : Token} {w : SQLWord} (h : t.word? = some w) (ht : T[i]? = some t) : Like T i .word :=
  like_word ht h

theorem like_kwOf {t : Token} {w : SQLWord} {k : KW} (h : kwOf w.keyword = some k) (hw : t.word? = some w)
    (ht : T[i]? = some t) : Like T i (.kw k) := like_kw (by simp [Token.kw?, hw, h]) ht

theorem like_number {t : Token} {s : Str} (ht : T[i]? = some t) (h : t.tok = .number s) : Like T i .number :=
  ⟨t, ht, by simp [Item.like, Item.is, h]⟩

theorem like_tok {t : Token} {w : SQLWord} {k : KW} (h : kwOf w.keyword = some k) (hw : t.tok = .word w)
    (ht : T[i]? = some t) : Like T i (.kw k) := like_kwOf h (by simp [Token.word?, hw]) ht

theorem row_0 (n3 : Isnt T z i [.kw .INDEX]) (n2 : Isnt T z i [.kw .VIEW]) (n1 : Isnt T z i [.kw .MATERIALIZED]) (n0 : Isnt T z i [.kw .TABLE]) (h2 : Pr T i (.kw .CREATE)) : Bad T z i :=
  bad_p (ys := [.kw .CREATE]) (need := [.kw .TABLE, .kw .MATERIALIZED, .kw .VIEW, .kw .INDEX]) (List.mem_of_elem_eq_true rfl) (List.mem_of_elem_eq_true rfl) h2 (n0.cons (n1.cons (n2.cons n3)))

theorem row_1 (n0 : Isnt T z i [.kw .VIEW]) (h2 : Pr T i (.kw .MATERIALIZED)) : Bad T z i :=
  bad_p (ys := [.kw .MATERIALIZED]) (need := [.kw .VIEW]) (List.mem_of_elem_eq_true rfl) (List.mem_of_elem_eq_true rfl) h2 n0

theorem row_2 (n0 : Isnt T z i [.kw .AS]) (h1 : Seen T (i - 1) (.kw .VIEW)) (h2 : Pr T i .word) : Bad T z i :=
  bad_sp (ys := [.word]) (need := [.kw .AS]) (List.mem_of_elem_eq_true rfl) (List.mem_of_elem_eq_true rfl) h1 h2 n0

theorem row_3 (n0 : Isnt T z i [.kw .ON]) (h1 : Seen T (i - 1) (.kw .INDEX)) (h2 : Pr T i .word) : Bad T z i :=
  bad_sp (ys := [.word]) (need := [.kw .ON]) (List.mem_of_elem_eq_true rfl) (List.mem_of_elem_eq_true rfl) h1 h2 n0

theorem row_4 (n0 : Isnt T z i [.kw .FROM]) (h2 : Pr T i (.kw .DELETE)) : Bad T z i :=
  bad_p (ys := [.kw .DELETE]) (need := [.kw .FROM]) (List.mem_of_elem_eq_true rfl) (List.mem_of_elem_eq_true rfl) h2 n0

theorem row_5 (n0 : Isnt T z i [.kw .INTO]) (h2 : Pr T i (.kw .INSERT)) : Bad T z i :=
  bad_p (ys := [.kw .INSERT]) (need := [.kw .INTO]) (List.mem_of_elem_eq_true rfl) (List.mem_of_elem_eq_true rfl) h2 n0

theorem row_6 (n0 : Isnt T z i [.kw .TABLE]) (h2 : Pr T i (.kw .ALTER)) : Bad T z i :=
  bad_p (ys := [.kw .ALTER]) (need := [.kw .TABLE]) (List.mem_of_elem_eq_true rfl) (List.mem_of_elem_eq_true rfl) h2 n0

theorem row_7 (n1 : Isnt T z i [.kw .INDEX]) (n0 : Isnt T z i [.kw .TABLE]) (h2 : Pr T i (.kw .DROP)) : Bad T z i :=
  bad_p (ys := [.kw .DROP]) (need := [.kw .TABLE, .kw .INDEX]) (List.mem_of_elem_eq_true rfl) (List.mem_of_elem_eq_true rfl) h2 (n0.cons n1)

theorem row_8 (n0 : Isnt T z i [.kw .SET]) (h1 : Seen T (i - 1) (.kw .UPDATE)) (h2 : Pr T i .word) : Bad T z i :=
  bad_sp (ys := [.word]) (need := [.kw .SET]) (List.mem_of_elem_eq_true rfl) (List.mem_of_elem_eq_true rfl) h1 h2 n0

theorem row_9 (n0 : Isnt T z i [.sym .Eq]) (h1 : Seen T (i - 1) (.kw .UPDATE)) (h2 : Pr T i .word) : Bad T z i :=
  bad_sp (ys := [.word]) (need := [.sym .Eq]) (List.mem_of_elem_eq_true rfl) (List.mem_of_elem_eq_true rfl) h1 h2 n0

theorem row_10 (n0 : Isnt T z i [.word]) (h1 : Seen T (i - 1) (.kw .CONSTRAINT)) (h2 : Pr T i .word) : Bad T z i :=
  bad_sp (ys := [.word]) (need := [.word]) (List.mem_of_elem_eq_true rfl) (List.mem_of_elem_eq_true rfl) h1 h2 n0

theorem row_11 (n1 : Isnt T z i [.sym .LParen]) (n0 : Isnt T z i [.kw .KEY]) (h2 : Pr T i (.kw .UNIQUE)) : Bad T z i :=
  bad_p (ys := [.kw .UNIQUE]) (need := [.kw .KEY, .sym .LParen]) (List.mem_of_elem_eq_true rfl) (List.mem_of_elem_eq_true rfl) h2 (n0.cons n1)

theorem row_12 (n0 : Isnt T z i [.kw .KEY]) (h2 : Pr T i (.kw .PRIMARY)) : Bad T z i :=
  bad_p (ys := [.kw .PRIMARY, .kw .FOREIGN]) (need := [.kw .KEY]) (List.mem_of_elem_eq_true rfl) (List.mem_of_elem_eq_true rfl) h2 n0

theorem row_13 (n0 : Isnt T z i [.kw .KEY]) (h2 : Pr T i (.kw .FOREIGN)) : Bad T z i :=
  bad_p (ys := [.kw .PRIMARY, .kw .FOREIGN]) (need := [.kw .KEY]) (List.mem_of_elem_eq_true rfl) (List.mem_of_elem_eq_true rfl) h2 n0

theorem row_14 (n0 : Isnt T z i [.sym .LParen]) (h2 : Pr T i (.kw .KEY)) : Bad T z i :=
  bad_p (ys := [.kw .KEY, .kw .CHECK]) (need := [.sym .LParen]) (List.mem_of_elem_eq_true rfl) (List.mem_of_elem_eq_true rfl) h2 n0

theorem row_15 (n0 : Isnt T z i [.sym .LParen]) (h2 : Pr T i (.kw .CHECK)) : Bad T z i :=
  bad_p (ys := [.kw .KEY, .kw .CHECK]) (need := [.sym .LParen]) (List.mem_of_elem_eq_true rfl) (List.mem_of_elem_eq_true rfl) h2 n0

theorem row_16 (n0 : Isnt T z i [.kw .REFERENCES]) (h1 : Seen T (i - 1) (.kw .FOREIGN)) (h2 : Pr T i (.sym .RParen)) : Bad T z i :=
  bad_sp (ys := [.sym .RParen]) (need := [.kw .REFERENCES]) (List.mem_of_elem_eq_true rfl) (List.mem_of_elem_eq_true rfl) h1 h2 n0

theorem row_17 (n0 : Isnt T z i [.sym .LParen]) (h1 : Seen T (i - 1) (.kw .REFERENCES)) (h2 : Pr T i .word) : Bad T z i :=
  bad_sp (ys := [.word]) (need := [.sym .LParen]) (List.mem_of_elem_eq_true rfl) (List.mem_of_elem_eq_true rfl) h1 h2 n0

theorem row_18 (n0 : Isnt T z i [.kw .PRECISION]) (h2 : Pr T i (.kw .DOUBLE)) : Bad T z i :=
  bad_p (ys := [.kw .DOUBLE]) (need := [.kw .PRECISION]) (List.mem_of_elem_eq_true rfl) (List.mem_of_elem_eq_true rfl) h2 n0

theorem row_19 (n0 : Isnt T z i [.kw .TIME]) (h2 : Pr T i (.kw .WITH)) : Bad T z i :=
  bad_p (ys := [.kw .WITH, .kw .WITHOUT]) (need := [.kw .TIME]) (List.mem_of_elem_eq_true rfl) (List.mem_of_elem_eq_true rfl) h2 n0

theorem row_20 (n0 : Isnt T z i [.kw .TIME]) (h2 : Pr T i (.kw .WITHOUT)) : Bad T z i :=
  bad_p (ys := [.kw .WITH, .kw .WITHOUT]) (need := [.kw .TIME]) (List.mem_of_elem_eq_true rfl) (List.mem_of_elem_eq_true rfl) h2 n0

theorem row_21 (n0 : Isnt T z i [.kw .ZONE]) (h2 : Pr T i (.kw .TIME)) : Bad T z i :=
  bad_p (ys := [.kw .TIME]) (need := [.kw .ZONE]) (List.mem_of_elem_eq_true rfl) (List.mem_of_elem_eq_true rfl) h2 n0

theorem row_22 (n0 : Isnt T z i [.sym .RBracket]) (h2 : Pr T i (.sym .LBracket)) : Bad T z i :=
  bad_p (ys := [.sym .LBracket]) (need := [.sym .RBracket]) (List.mem_of_elem_eq_true rfl) (List.mem_of_elem_eq_true rfl) h2 n0

theorem row_23 (n2 : Isnt T z i [.sym .LParen]) (n1 : Isnt T z i [.kw .SELECT]) (n0 : Isnt T z i [.kw .WITH]) (h2 : Pr T i (.sym .LParen)) : Bad T z i :=
  bad_p (ys := [.sym .LParen]) (need := [.kw .WITH, .kw .SELECT, .sym .LParen]) (List.mem_of_elem_eq_true rfl) (List.mem_of_elem_eq_true rfl) h2 (n0.cons (n1.cons n2))

theorem row_24 (n2 : Isnt T z i [.sym .LParen]) (n1 : Isnt T z i [.kw .SELECT]) (n0 : Isnt T z i [.kw .WITH]) (h1 : Seen T (i - 1) (.kw .VIEW)) (h2 : Pr T i (.kw .AS)) : Bad T z i :=
  bad_sp (ys := [.kw .AS]) (need := [.kw .WITH, .kw .SELECT, .sym .LParen]) (List.mem_of_elem_eq_true rfl) (List.mem_of_elem_eq_true rfl) h1 h2 (n0.cons (n1.cons n2))

theorem row_25 (n3 : Isnt T z i [.sym .LParen]) (n2 : Isnt T z i [.kw .SELECT]) (n1 : Isnt T z i [.kw .WITH]) (n0 : Isnt T z i [.kw .VALUES]) (h1 : Seen T (i - 1) (.kw .INTO)) (h2 : Pr T i .word) : Bad T z i :=
  bad_sp (ys := [.word, .sym .RParen]) (need := [.kw .VALUES, .kw .WITH, .kw .SELECT, .sym .LParen]) (List.mem_of_elem_eq_true rfl) (List.mem_of_elem_eq_true rfl) h1 h2 (n0.cons (n1.cons (n2.cons n3)))

theorem row_26 (n3 : Isnt T z i [.sym .LParen]) (n2 : Isnt T z i [.kw .SELECT]) (n1 : Isnt T z i [.kw .WITH]) (n0 : Isnt T z i [.kw .VALUES]) (h1 : Seen T (i - 1) (.kw .INTO)) (h2 : Pr T i (.sym .RParen)) : Bad T z i :=
  bad_sp (ys := [.word, .sym .RParen]) (need := [.kw .VALUES, .kw .WITH, .kw .SELECT, .sym .LParen]) (List.mem_of_elem_eq_true rfl) (List.mem_of_elem_eq_true rfl) h1 h2 (n0.cons (n1.cons (n2.cons n3)))

theorem row_27 (n2 : Isnt T z i [.sym .LParen]) (n1 : Isnt T z i [.kw .SELECT]) (n0 : Isnt T z i [.sym .Comma]) (h1 : Seen T (i - 1) (.kw .WITH)) (h2 : Pr T i (.sym .RParen)) : Bad T z i :=
  bad_sp (ys := [.sym .RParen]) (need := [.sym .Comma, .kw .SELECT, .sym .LParen]) (List.mem_of_elem_eq_true rfl) (List.mem_of_elem_eq_true rfl) h1 h2 (n0.cons (n1.cons n2))

theorem row_28 (n2 : Isnt T z i [.sym .LParen]) (n1 : Isnt T z i [.kw .SELECT]) (n0 : Isnt T z i [.kw .ALL]) (h2 : Pr T i (.kw .UNION)) : Bad T z i :=
  bad_p (ys := [.kw .UNION, .kw .EXCEPT, .kw .INTERSECT]) (need := [.kw .ALL, .kw .SELECT, .sym .LParen]) (List.mem_of_elem_eq_true rfl) (List.mem_of_elem_eq_true rfl) h2 (n0.cons (n1.cons n2))

theorem row_29 (n2 : Isnt T z i [.sym .LParen]) (n1 : Isnt T z i [.kw .SELECT]) (n0 : Isnt T z i [.kw .ALL]) (h2 : Pr T i (.kw .EXCEPT)) : Bad T z i :=
  bad_p (ys := [.kw .UNION, .kw .EXCEPT, .kw .INTERSECT]) (need := [.kw .ALL, .kw .SELECT, .sym .LParen]) (List.mem_of_elem_eq_true rfl) (List.mem_of_elem_eq_true rfl) h2 (n0.cons (n1.cons n2))

theorem row_30 (n2 : Isnt T z i [.sym .LParen]) (n1 : Isnt T z i [.kw .SELECT]) (n0 : Isnt T z i [.kw .ALL]) (h2 : Pr T i (.kw .INTERSECT)) : Bad T z i :=
  bad_p (ys := [.kw .UNION, .kw .EXCEPT, .kw .INTERSECT]) (need := [.kw .ALL, .kw .SELECT, .sym .LParen]) (List.mem_of_elem_eq_true rfl) (List.mem_of_elem_eq_true rfl) h2 (n0.cons (n1.cons n2))

theorem row_31 (n1 : Isnt T z i [.sym .LParen]) (n0 : Isnt T z i [.kw .SELECT]) (h2 : Pr T i (.kw .ALL)) : Bad T z i :=
  bad_p (ys := [.kw .ALL]) (need := [.kw .SELECT, .sym .LParen]) (List.mem_of_elem_eq_true rfl) (List.mem_of_elem_eq_true rfl) h2 (n0.cons n1)

theorem row_32 (n0 : Isnt T z i [.kw .AS]) (h1 : Seen T (i - 1) (.kw .WITH)) (h2 : Pr T i .word) : Bad T z i :=
  bad_sp (ys := [.word]) (need := [.kw .AS]) (List.mem_of_elem_eq_true rfl) (List.mem_of_elem_eq_true rfl) h1 h2 n0

theorem row_33 (n0 : Isnt T z i [.sym .LParen]) (h1 : Seen T (i - 1) (.kw .WITH)) (h2 : Pr T i (.kw .AS)) : Bad T z i :=
  bad_sp (ys := [.kw .AS]) (need := [.sym .LParen]) (List.mem_of_elem_eq_true rfl) (List.mem_of_elem_eq_true rfl) h1 h2 n0

theorem row_34 (n0 : Isnt T z i [.kw .JOIN]) (h2 : Pr T i (.kw .CROSS)) : Bad T z i :=
  bad_p (ys := [.kw .CROSS, .kw .INNER, .kw .OUTER]) (need := [.kw .JOIN]) (List.mem_of_elem_eq_true rfl) (List.mem_of_elem_eq_true rfl) h2 n0

theorem row_35 (n0 : Isnt T z i [.kw .JOIN]) (h2 : Pr T i (.kw .INNER)) : Bad T z i :=
  bad_p (ys := [.kw .CROSS, .kw .INNER, .kw .OUTER]) (need := [.kw .JOIN]) (List.mem_of_elem_eq_true rfl) (List.mem_of_elem_eq_true rfl) h2 n0

theorem row_36 (n0 : Isnt T z i [.kw .JOIN]) (h2 : Pr T i (.kw .OUTER)) : Bad T z i :=
  bad_p (ys := [.kw .CROSS, .kw .INNER, .kw .OUTER]) (need := [.kw .JOIN]) (List.mem_of_elem_eq_true rfl) (List.mem_of_elem_eq_true rfl) h2 n0

theorem row_37 (n1 : Isnt T z i [.kw .JOIN]) (n0 : Isnt T z i [.kw .OUTER]) (h2 : Pr T i (.kw .LEFT)) : Bad T z i :=
  bad_p (ys := [.kw .LEFT, .kw .RIGHT, .kw .FULL]) (need := [.kw .OUTER, .kw .JOIN]) (List.mem_of_elem_eq_true rfl) (List.mem_of_elem_eq_true rfl) h2 (n0.cons n1)

theorem row_38 (n1 : Isnt T z i [.kw .JOIN]) (n0 : Isnt T z i [.kw .OUTER]) (h2 : Pr T i (.kw .RIGHT)) : Bad T z i :=
  bad_p (ys := [.kw .LEFT, .kw .RIGHT, .kw .FULL]) (need := [.kw .OUTER, .kw .JOIN]) (List.mem_of_elem_eq_true rfl) (List.mem_of_elem_eq_true rfl) h2 (n0.cons n1)

theorem row_39 (n1 : Isnt T z i [.kw .JOIN]) (n0 : Isnt T z i [.kw .OUTER]) (h2 : Pr T i (.kw .FULL)) : Bad T z i :=
  bad_p (ys := [.kw .LEFT, .kw .RIGHT, .kw .FULL]) (need := [.kw .OUTER, .kw .JOIN]) (List.mem_of_elem_eq_true rfl) (List.mem_of_elem_eq_true rfl) h2 (n0.cons n1)

theorem row_40 (n0 : Isnt T z i [.sym .LParen]) (h2 : Pr T i (.kw .USING)) : Bad T z i :=
  bad_p (ys := [.kw .USING]) (need := [.sym .LParen]) (List.mem_of_elem_eq_true rfl) (List.mem_of_elem_eq_true rfl) h2 n0

theorem row_41 (n0 : Isnt T z i [.sym .RParen]) (h1 : Seen T i (.sym .LParen)) : Bad T z i :=
  bad_s (need := [.sym .RParen]) (List.mem_of_elem_eq_true rfl) h1 n0

theorem row_42 (n2 : Isnt T z i [.kw .LIKE]) (n1 : Isnt T z i [.kw .BETWEEN]) (n0 : Isnt T z i [.kw .IN]) (h2 : Pr T i (.kw .NOT)) : Bad T z i :=
  bad_p (ys := [.kw .NOT]) (need := [.kw .IN, .kw .BETWEEN, .kw .LIKE]) (List.mem_of_elem_eq_true rfl) (List.mem_of_elem_eq_true rfl) h2 (n0.cons (n1.cons n2))

theorem row_43 (n0 : Isnt T z i [.sym .LParen]) (h2 : Pr T i (.kw .IN)) : Bad T z i :=
  bad_p (ys := [.kw .IN, .kw .CAST, .kw .EXISTS, .kw .OVER]) (need := [.sym .LParen]) (List.mem_of_elem_eq_true rfl) (List.mem_of_elem_eq_true rfl) h2 n0

theorem row_44 (n0 : Isnt T z i [.sym .LParen]) (h2 : Pr T i (.kw .CAST)) : Bad T z i :=
  bad_p (ys := [.kw .IN, .kw .CAST, .kw .EXISTS, .kw .OVER]) (need := [.sym .LParen]) (List.mem_of_elem_eq_true rfl) (List.mem_of_elem_eq_true rfl) h2 n0

theorem row_45 (n0 : Isnt T z i [.sym .LParen]) (h2 : Pr T i (.kw .EXISTS)) : Bad T z i :=
  bad_p (ys := [.kw .IN, .kw .CAST, .kw .EXISTS, .kw .OVER]) (need := [.sym .LParen]) (List.mem_of_elem_eq_true rfl) (List.mem_of_elem_eq_true rfl) h2 n0

theorem row_46 (n0 : Isnt T z i [.sym .LParen]) (h2 : Pr T i (.kw .OVER)) : Bad T z i :=
  bad_p (ys := [.kw .IN, .kw .CAST, .kw .EXISTS, .kw .OVER]) (need := [.sym .LParen]) (List.mem_of_elem_eq_true rfl) (List.mem_of_elem_eq_true rfl) h2 n0

theorem row_47 (n0 : Isnt T z i [.kw .AND]) (h1 : Seen T i (.kw .BETWEEN)) : Bad T z i :=
  bad_s (need := [.kw .AND]) (List.mem_of_elem_eq_true rfl) h1 n0

theorem row_48 (n0 : Isnt T z i [.kw .WHEN]) (h1 : Seen T i (.kw .CASE)) : Bad T z i :=
  bad_s (need := [.kw .WHEN]) (List.mem_of_elem_eq_true rfl) h1 n0

theorem row_49 (n0 : Isnt T z i [.kw .THEN]) (h1 : Seen T i (.kw .WHEN)) : Bad T z i :=
  bad_s (need := [.kw .THEN]) (List.mem_of_elem_eq_true rfl) h1 n0

theorem row_50 (n0 : Isnt T z i [.kw .AS]) (h1 : Seen T i (.kw .CAST)) : Bad T z i :=
  bad_s (need := [.kw .AS]) (List.mem_of_elem_eq_true rfl) h1 n0

theorem row_51 (n0 : Isnt T z i [.kw .BY]) (h2 : Pr T i (.kw .PARTITION)) : Bad T z i :=
  bad_p (ys := [.kw .PARTITION, .kw .ORDER]) (need := [.kw .BY]) (List.mem_of_elem_eq_true rfl) (List.mem_of_elem_eq_true rfl) h2 n0

theorem row_52 (n0 : Isnt T z i [.kw .BY]) (h2 : Pr T i (.kw .ORDER)) : Bad T z i :=
  bad_p (ys := [.kw .PARTITION, .kw .ORDER]) (need := [.kw .BY]) (List.mem_of_elem_eq_true rfl) (List.mem_of_elem_eq_true rfl) h2 n0

theorem row_53 (n1 : Isnt T z i [.kw .FOLLOWING]) (n0 : Isnt T z i [.kw .PRECEDING]) (h1 : Seen T (i - 1) (.kw .OVER)) (h2 : Pr T i (.kw .UNBOUNDED)) : Bad T z i :=
  bad_sp (ys := [.kw .UNBOUNDED, .number]) (need := [.kw .PRECEDING, .kw .FOLLOWING]) (List.mem_of_elem_eq_true rfl) (List.mem_of_elem_eq_true rfl) h1 h2 (n0.cons n1)

theorem row_54 (n1 : Isnt T z i [.kw .FOLLOWING]) (n0 : Isnt T z i [.kw .PRECEDING]) (h1 : Seen T (i - 1) (.kw .OVER)) (h2 : Pr T i .number) : Bad T z i :=
  bad_sp (ys := [.kw .UNBOUNDED, .number]) (need := [.kw .PRECEDING, .kw .FOLLOWING]) (List.mem_of_elem_eq_true rfl) (List.mem_of_elem_eq_true rfl) h1 h2 (n0.cons n1)

/-- Side conditions about tokens read before. -/
macro "pw_like" : tactic => `(tactic| first
  | assumption
  | exact like_kw (by assumption) (by assumption)
  | exact like_kwOf (by assumption) (by assumption) (by assumption)
  | exact like_tok (by assumption) (by assumption) (by assumption)
  | exact like_word (by assumption) (by assumption)
  | exact like_word' (by assumption) (by assumption)
  | exact like_number (by assumption) (by assumption)
  | exact like_sym (by assumption) (by assumption)
  | exact like_symTok (by assumption) (by assumption))

macro "pw_seen" : tactic => `(tactic| first
  | assumption
  | exact Seen.mono (by assumption) (by omega)
  | exact Pr.seen (by assumption) (by omega)
  | exact Seen.of (by assumption) (by omega)
  | exact Seen.of (like_kw (by assumption) (by assumption)) (by omega)
  | exact Seen.of (like_kwOf (by assumption) (by assumption) (by assumption)) (by omega)
  | exact Seen.of (like_tok (by assumption) (by assumption) (by assumption)) (by omega))

macro "pw_prev" : tactic => `(tactic| first
  | assumption
  | exact ⟨_, rfl, by pw_like⟩)

/-- Find a row of the table. -/
macro "pw_bad" : tactic => `(tactic| first
  | exact .inl (by assumption)
  | exact bad_absurd (k := .SELECT) (by assumption) (by assumption) (by assumption)
  | exact bad_absurd (k := .WITH) (by assumption) (by assumption) (by assumption)
  | exact row_0 (by assumption) (by assumption) (by assumption) (by assumption) (by pw_prev)
  | exact row_1 (by assumption) (by pw_prev)
  | exact row_2 (by assumption) (by pw_seen) (by pw_prev)
  | exact row_3 (by assumption) (by pw_seen) (by pw_prev)
  | exact row_4 (by assumption) (by pw_prev)
  | exact row_5 (by assumption) (by pw_prev)
  | exact row_6 (by assumption) (by pw_prev)
  | exact row_7 (by assumption) (by assumption) (by pw_prev)
  | exact row_8 (by assumption) (by pw_seen) (by pw_prev)
  | exact row_9 (by assumption) (by pw_seen) (by pw_prev)
  | exact row_10 (by assumption) (by pw_seen) (by pw_prev)
  | exact row_11 (by assumption) (by assumption) (by pw_prev)
  | exact row_12 (by assumption) (by pw_prev)
  | exact row_13 (by assumption) (by pw_prev)
  | exact row_14 (by assumption) (by pw_prev)
  | exact row_15 (by assumption) (by pw_prev)
  | exact row_16 (by assumption) (by pw_seen) (by pw_prev)
  | exact row_17 (by assumption) (by pw_seen) (by pw_prev)
  | exact row_18 (by assumption) (by pw_prev)
  | exact row_19 (by assumption) (by pw_prev)
  | exact row_20 (by assumption) (by pw_prev)
  | exact row_21 (by assumption) (by pw_prev)
  | exact row_22 (by assumption) (by pw_prev)
  | exact row_23 (by assumption) (by assumption) (by assumption) (by pw_prev)
  | exact row_24 (by assumption) (by assumption) (by assumption) (by pw_seen) (by pw_prev)
  | exact row_25 (by assumption) (by assumption) (by assumption) (by assumption) (by pw_seen) (by pw_prev)
  | exact row_26 (by assumption) (by assumption) (by assumption) (by assumption) (by pw_seen) (by pw_prev)
  | exact row_27 (by assumption) (by assumption) (by assumption) (by pw_seen) (by pw_prev)
  | exact row_28 (by assumption) (by assumption) (by assumption) (by pw_prev)
  | exact row_29 (by assumption) (by assumption) (by assumption) (by pw_prev)
  | exact row_30 (by assumption) (by assumption) (by assumption) (by pw_prev)
  | exact row_31 (by assumption) (by assumption) (by pw_prev)
  | exact row_32 (by assumption) (by pw_seen) (by pw_prev)
  | exact row_33 (by assumption) (by pw_seen) (by pw_prev)
  | exact row_34 (by assumption) (by pw_prev)
  | exact row_35 (by assumption) (by pw_prev)
  | exact row_36 (by assumption) (by pw_prev)
  | exact row_37 (by assumption) (by assumption) (by pw_prev)
  | exact row_38 (by assumption) (by assumption) (by pw_prev)
  | exact row_39 (by assumption) (by assumption) (by pw_prev)
  | exact row_40 (by assumption) (by pw_prev)
  | exact row_41 (by assumption) (by pw_seen)
  | exact row_42 (by assumption) (by assumption) (by assumption) (by pw_prev)
  | exact row_43 (by assumption) (by pw_prev)
  | exact row_44 (by assumption) (by pw_prev)
  | exact row_45 (by assumption) (by pw_prev)
  | exact row_46 (by assumption) (by pw_prev)
  | exact row_47 (by assumption) (by pw_seen)
  | exact row_48 (by assumption) (by pw_seen)
  | exact row_49 (by assumption) (by pw_seen)
  | exact row_50 (by assumption) (by pw_seen)
  | exact row_51 (by assumption) (by pw_prev)
  | exact row_52 (by assumption) (by pw_prev)
  | exact row_53 (by assumption) (by assumption) (by pw_seen) (by pw_prev)
  | exact row_54 (by assumption) (by assumption) (by pw_seen) (by pw_prev))

macro "pw_estart" : tactic => `(tactic| first
  | assumption
  | exact estart_of (by assumption) (List.mem_of_elem_eq_true rfl)
  | exact estart_like (by assumption) (List.mem_of_elem_eq_true rfl)
  | exact estart_like (like_sym (by assumption) (by assumption)) (List.mem_of_elem_eq_true rfl)
  | exact estart_like (like_symTok (by assumption) (by assumption)) (List.mem_of_elem_eq_true rfl)
  | exact estart_like (like_kw (by assumption) (by assumption)) (List.mem_of_elem_eq_true rfl)
  | exact estart_like (like_kwOf (by assumption) (by assumption) (by assumption)) (List.mem_of_elem_eq_true rfl)
  | exact estart_like (like_tok (by assumption) (by assumption) (by assumption)) (List.mem_of_elem_eq_true rfl))

macro "pw_intro" : tactic => `(tactic| (
  with_reducible intro h
  try first
    | with_reducible obtain ⟨_, _, _⟩ : _ ∧ _ ∧ _ := h
    | with_reducible obtain ⟨_, _⟩ : _ ∧ _ := h
    | with_reducible cases (show (_ : Nat) = _ from h)))

macro "pw_loop" : tactic => `(tactic| repeat' (first
  | pw_intro
  | pw_step
  | omega
  | pw_bad
  | pw_prev
  | pw_seen
  | pw_estart
  | unfold QStart
  | unfold BStart
  | exact ⟨_, by assumption, by assumption⟩
  | dsimp only
  | wp_clean
  | with_reducible apply And.intro
  | split))

theorem pan_parseIdentifier :
    pw T z (parseIdentifier) i (fun _ j => i + 1 = j ∧ Pr T j .word) := by
  unfold parseIdentifier
  pw_loop

theorem pan_parseLiteralInt :
    pw T z (parseLiteralInt) i (fun _ j => i + 1 = j ∧ Pr T j .number) := by
  unfold parseLiteralInt
  pw_loop

theorem pan_parseOptionalPrecision :
    pw T z (parseOptionalPrecision) i (fun _ j => i ≤ j) := by
  unfold parseOptionalPrecision
  pw_loop

theorem pan_parseOptionalPrecisionScale :
    pw T z (parseOptionalPrecisionScale) i (fun _ j => i ≤ j) := by
  unfold parseOptionalPrecisionScale
  pw_loop

theorem pan_parseMyUnsigned :
    pw T z (parseMyUnsigned) i (fun _ j => i ≤ j) := by
  unfold parseMyUnsigned
  pw_loop

theorem pan_parseOptionalAlias (r) :
    pw T z (parseOptionalAlias r) i (fun _ j => i ≤ j) := by
  unfold parseOptionalAlias
  pw_loop
  rename_i ht _ hw
  exact bad_read_p (y := .kw .AS) (ys := [.kw .AS]) (need := [.word]) (List.mem_of_elem_eq_true rfl)
    (by simp) (by pw_prev) ht (by simp [Item.is, hw])

theorem pan_parseValue (fns) :
    pw T z (parseValue fns) i (fun _ j => i + 1 ≤ j) := by
  unfold parseValue
  pw_loop

theorem pan_getNextPrecedence :
    pw T z (getNextPrecedence) i (fun x j => i = j ∧ (x ≠ 0 → ∃ t, T[i]? = some t ∧ x = getPrecedence t)) := by
  unfold getNextPrecedence
  refine pw_bind (pw_peekToken ?_ ?_)
  · intro t ht
    exact pw_ret ⟨rfl, fun _ => ⟨t, ht, rfl⟩⟩
  · intro _
    exact pw_ret ⟨rfl, fun h => absurd rfl h⟩

theorem pan_infixOp (t) :
    pw T z (infixOp t) i (fun _ j => i ≤ j) := by
  unfold infixOp
  pw_loop

theorem pan_parseWindowFrameBound (ho : Seen T i (.kw .OVER)) :
    pw T z (parseWindowFrameBound) i (fun _ j => i ≤ j) := by
  unfold parseWindowFrameBound
  pw_loop

theorem pan_parseWindowFrame (hs : Seen T i (.sym .LParen)) (ho : Seen T i (.kw .OVER)) :
    pw T z (parseWindowFrame) i (fun _ j => i ≤ j) := by
  unfold parseWindowFrame
  pw_loop

theorem pan_parseLimit :
    pw T z (parseLimit) i (fun _ j => i ≤ j) := by
  unfold parseLimit
  pw_loop

theorem pan_parseJoinType :
    pw T z (parseJoinType) i (fun _ j => i ≤ j ∧ (Isnt T z j [.kw .JOIN] → Bad T z j)) := by
  unfold parseJoinType
  pw_loop
  rename_i t ht _ w hw _ hk _ hn
  rcases hn with hn | ⟨t', ht', hn⟩
  · exact .inl hn
  · rw [ht] at ht'
    cases ht'
    exact .inr (.inl ⟨t, .JOIN, .inl ht, by simp [twice], by simp [Token.kw?, hw, hk], by simpa [Item.is] using hn⟩)

theorem pan_parseOptionName :
    pw T z (parseOptionName) i (fun _ j => i ≤ j) := by
  unfold parseOptionName
  pw_loop

theorem pan_parseTableOption :
    pw T z (parseTableOption) i (fun _ j => i + 1 ≤ j) := by
  unfold parseTableOption
  pw_loop

theorem pan_parseCascade :
    pw T z (parseCascade) i (fun _ j => i ≤ j) := by
  unfold parseCascade
  pw_loop

theorem pan_parseDataType_parseChar (t) :
    pw T z (parseDataType.parseChar t) i (fun _ j => i ≤ j) := by
  unfold parseDataType.parseChar
  pw_loop

theorem pan_parseDataType_parseTimeZone :
    pw T z (parseDataType.parseTimeZone) i (fun _ j => i ≤ j) := by
  unfold parseDataType.parseTimeZone
  pw_loop

theorem pan_parseListOfIds (H : Pan T z r) (s) :
    pw T z (parseListOfIds r s) i (fun _ j => i + 1 ≤ j ∧ Pr T j .word) := by
  unfold parseListOfIds
  refine pw_bind (pw_mono (H.listOfIds s i) ?_)
  rintro x j ⟨h1, h3⟩
  cases x with
  | none => exact pw_err
  | some l => exact pw_ret (h3 rfl)

theorem pan_parseColumnNames (H : Pan T z r) :
    pw T z (parseColumnNames r) i (fun _ j => i + 1 ≤ j ∧ Pr T j .word) := by
  unfold parseColumnNames
  pw_loop

theorem pan_parseObjectName (H : Pan T z r) :
    pw T z (parseObjectName r) i (fun _ j => i + 1 ≤ j ∧ Pr T j .word) := by
  unfold parseObjectName
  pw_loop

theorem pan_parseDataType (H : Pan T z r) :
    pw T z (parseDataType r) i (fun _ j => i + 1 ≤ j) := by
  unfold parseDataType
  pw_loop

theorem pan_parseExpr (H : Pan T z r) (hs : EStart T z i) :
    pw T z (parseExpr r) i (fun _ j => i + 1 ≤ j) := by
  unfold parseExpr
  pw_loop

theorem pan_parseIn (H : Pan T z r) (e) (g) (hs : Pr T i (.kw .IN)) :
    pw T z (parseIn r e g) i (fun _ j => i + 1 ≤ j) := by
  unfold parseIn
  pw_loop

theorem pan_parseBetween (H : Pan T z r) (e) (g) (hs : Pr T i (.kw .BETWEEN)) :
    pw T z (parseBetween r e g) i (fun _ j => i + 1 ≤ j) := by
  unfold parseBetween
  pw_loop

theorem pan_parseNotInBetween (H : Pan T z r) (e) (hp : ∃ k t, i = k + 1 ∧ T[k]? = some t ∧ (t.kw? = some .NOT ∧ Isnt T z i [.kw .LIKE] ∨ t.kw? = some .IN ∨ t.kw? = some .BETWEEN)) :
    pw T z (parseNotInBetween r e) i (fun _ j => i ≤ j) := by
  unfold parseNotInBetween
  obtain ⟨k, t, rfl, ht, hp⟩ := hp
  have hodd : ∀ k', k' ∈ twice → t.kw? = some k' → t.matchesKw k'.str = false → Bad T z k :=
    fun k' h1 h2 h3 => .inr (.inl ⟨t, k', .inl ht, h1, h2, h3⟩)
  have hnot : ∀ k', Isnt T z k [.kw k'] → t.matchesKw k'.str = false := by
    rintro k' (hn | ⟨t', ht', hn⟩)
    · rw [List.getElem?_eq_none hn.2] at ht; cases ht
    · rw [ht] at ht'; cases ht'; simpa [Item.is] using hn
  pw_loop
  · rename_i t' ht' hm hl h1 h2
    rw [ht] at ht'
    cases ht'
    rcases hp with ⟨-, hp⟩ | hp | hp
    · pw_bad
    · refine .inr (.inl ⟨t, .IN, .inr ⟨k, rfl, ht⟩, by simp [twice], hp, ?_⟩)
      cases hq : t.matchesKw KW.IN.str with
      | false => rfl
      | true => cases matchesKw_unique hm hq
    · refine .inr (.inl ⟨t, .BETWEEN, .inr ⟨k, rfl, ht⟩, by simp [twice], hp, ?_⟩)
      cases hq : t.matchesKw KW.BETWEEN.str with
      | false => rfl
      | true => cases matchesKw_unique hm hq
  · rename_i h1 h2 h3
    rcases hp with ⟨hp, -⟩ | hp | hp
    · exact hodd .NOT (by simp [twice]) hp (hnot _ h1)
    · exact hodd .IN (by simp [twice]) hp (hnot _ h2)
    · exact hodd .BETWEEN (by simp [twice]) hp (hnot _ h3)

theorem pan_parseInfix (H : Pan T z r) (e) (p) (hp : ∃ t, T[i]? = some t ∧ 0 < getPrecedence t) :
    pw T z (parseInfix r e p) i (fun _ j => i + 1 ≤ j) := by
  unfold parseInfix
  obtain ⟨t, ht, hp⟩ := hp
  refine pw_bind (pw_nextOrErr ?_)
  intro t' ht'
  rw [ht] at ht'
  cases ht'
  obtain ⟨tok, f, g⟩ := t
  cases tok with
  | word w =>
    simp only [getPrecedence] at hp
    simp only [infixOp]
    have hkw : ∀ k, kwOf w.keyword = some k → (⟨.word w, f, g⟩ : Token).kw? = some k := fun k h => by
      simpa [Token.kw?, Token.word?] using h
    split at hp
    case h_8 => omega
    case h_3 =>
      rename_i hk
      simp only [hk]
      refine pw_bind (pw_bind (pw_kw ?_ ?_))
      · pw_loop
      · intro hn
        refine pw_ret (pw_mono (pan_parseNotInBetween H e ?_) ?_)
        · exact ⟨i, _, rfl, ht, .inl ⟨hkw _ hk, hn⟩⟩
        · pw_loop
    all_goals (rename_i hk; have hl := like_kw (hkw _ hk) ht; simp only [hk]; pw_loop)
    · exact ⟨i, _, rfl, ht, .inr (.inl (hkw _ hk))⟩
    · exact ⟨i, _, rfl, ht, .inr (.inr (hkw _ hk))⟩
  | sym s x =>
    simp only [infixOp]
    have hl : Like T i (.sym s) := like_symTok rfl ht
    cases s <;> simp [getPrecedence] at hp <;> simp only [symOp] <;> pw_loop
  | _ => simp [getPrecedence] at hp

theorem pan_parseOptionalArgs (H : Pan T z r) (hs : Pr T i (.sym .LParen)) :
    pw T z (parseOptionalArgs r) i (fun _ j => i ≤ j) := by
  unfold parseOptionalArgs
  pw_loop

theorem pan_parseOver (H : Pan T z r) (hs : Pr T i (.kw .OVER)) :
    pw T z (parseOver r) i (fun _ j => i + 1 ≤ j) := by
  unfold parseOver
  pw_loop

theorem pan_parseFunction (H : Pan T z r) (m) (hp : ∃ t, T[i]? = some t ∧ t.isSym .LParen = true) :
    pw T z (parseFunction r m) i (fun _ j => i + 1 ≤ j) := by
  unfold parseFunction
  obtain ⟨t, ht, hs⟩ := hp
  pw_loop
  rename_i hn
  rcases hn with hn | ⟨t', ht', hn⟩
  · exact .inl hn
  · rw [ht] at ht'
    cases ht'
    simp [Item.is, hs] at hn

theorem pan_parseCaseExpression (H : Pan T z r) :
    pw T z (parseCaseExpression r) i (fun _ j => i + 1 ≤ j) := by
  unfold parseCaseExpression
  refine pw_bind (pw_kwOrErr ?_)
  intro t ht _ hl
  refine pw_bind (pw_mono (Q := fun _ j => i + 1 ≤ j ∧ Pr T j (.kw .WHEN)) ?_ ?_)
  · pw_loop
  · pw_loop

theorem pan_parseCastExpression (H : Pan T z r) :
    pw T z (parseCastExpression r) i (fun _ j => i + 1 ≤ j) := by
  unfold parseCastExpression
  pw_loop

theorem pan_parseExistsExpression (H : Pan T z r) (t) :
    pw T z (parseExistsExpression r t) i (fun _ j => i + 1 ≤ j) := by
  unfold parseExistsExpression
  pw_loop

theorem pan_parseName (H : Pan T z r) (t) (w) :
    pw T z (parseName r t w) i (fun _ j => i ≤ j) := by
  unfold parseName
  pw_loop

theorem pan_parseParen (H : Pan T z r) (t) (hs : Pr T i (.sym .LParen)) :
    pw T z (parseParen r t) i (fun _ j => i ≤ j) := by
  unfold parseParen
  pw_loop

theorem pan_parseNot (H : Pan T z r) (t) (hs : Pr T i (.kw .NOT)) :
    pw T z (parseNot r t) i (fun _ j => i ≤ j) := by
  unfold parseNot
  pw_loop

theorem pan_parseFromClause (H : Pan T z r) :
    pw T z (parseFromClause r) i (fun _ j => i + 1 ≤ j) := by
  unfold parseFromClause
  pw_loop

theorem pan_parseSelect (H : Pan T z r) (p) (hs : Pr T i (.kw .SELECT)) :
    pw T z (parseSelect r p) i (fun _ j => i + 1 ≤ j) := by
  unfold parseSelect
  refine pw_bind (pw_bind (pw_parseKeyword (fun _ => pw_err) ?_ ?_))
  all_goals pw_loop

theorem pan_parseTableFactor (H : Pan T z r) :
    pw T z (parseTableFactor r) i (fun _ j => i + 1 ≤ j) := by
  unfold parseTableFactor
  pw_loop

theorem pan_parseJoinSpec (H : Pan T z r) :
    pw T z (parseJoinSpec r) i (fun _ j => i + 1 ≤ j) := by
  unfold parseJoinSpec
  pw_loop

theorem pan_parseQualifiedJoin (H : Pan T z r) (h1 : 1 ≤ i) :
    pw T z (parseQualifiedJoin r) i (fun _ j => i ≤ j) := by
  unfold parseQualifiedJoin
  pw_loop
  rename_i h _
  exact h ‹_›

theorem pan_parseTableReferenceRight (H : Pan T z r) :
    pw T z (parseTableReferenceRight r) i (fun x j => i ≤ j ∧ (x.isSome = true → i + 1 ≤ j)) := by
  unfold parseTableReferenceRight
  pw_loop
  rename_i h _
  exact h ‹_›

theorem pan_parseDefaultExpr (H : Pan T z r) (hs : EStart T z i) :
    pw T z (parseDefaultExpr r) i (fun _ j => i + 1 ≤ j) := by
  unfold parseDefaultExpr
  pw_loop

theorem pan_parseColumnSpec (H : Pan T z r) (t) (ht : T[i]? = some t) :
    pw T z (parseColumnSpec r t) i (fun x j => i ≤ j ∧ (x.isSome = true → i + 1 ≤ j)) := by
  unfold parseColumnSpec
  pw_loop

theorem pan_parseColumnDef (H : Pan T z r) (hp : Like T i .word ∨ Pr T i (.kw .COLUMN)) :
    pw T z (parseColumnDef r) i (fun _ j => i + 1 ≤ j) := by
  unfold parseColumnDef
  pw_loop
  rename_i t ht _ hw
  rcases hp with ⟨t', ht', hp⟩ | hp
  · rw [ht] at ht'
    cases ht'
    simp [Item.like, Item.is, hw] at hp
  · exact bad_read_p (y := .kw .COLUMN) (ys := [.kw .COLUMN]) (need := [.word]) (List.mem_of_elem_eq_true rfl)
      (by simp) hp ht (by simp [Item.is, hw])

theorem pan_parseTableConstraintSpec (H : Pan T z r) (t) (ht : T[i]? = some t) (hp : t.word?.isSome = true ∨ Seen T (i - 1) (.kw .CONSTRAINT) ∧ Pr T i .word) :
    pw T z (parseTableConstraintSpec r t) i (fun _ j => i + 1 ≤ j) := by
  unfold parseTableConstraintSpec
  pw_loop
  · rename_i hw
    rcases hp with hp | hp
    · simp [hw] at hp
    · exact bad_sp (ys := [.word]) (need := [.word]) (List.mem_of_elem_eq_true rfl) (by simp) hp.1 hp.2 (.inr ⟨t, ht, by simp [Item.is, hw]⟩)
  · rename_i ht _ hw
    exact bad_read_p (y := .kw .REFERENCES) (ys := [.kw .REFERENCES]) (need := [.word])
      (List.mem_of_elem_eq_true rfl) (by simp) (by pw_prev) ht (by simp [Item.is, hw])

theorem pan_parseTableConstraints (H : Pan T z r) :
    pw T z (parseTableConstraints r) i (fun _ j => i + 1 ≤ j) := by
  unfold parseTableConstraints
  pw_loop
  · exact .inr ⟨by pw_seen, by assumption⟩
  · rename_i t1 h1 _ w hw _ t2 h2
    rw [h1] at h2
    cases h2
    exact .inl (by simp [hw])

theorem pan_parseElement_parseC (H : Pan T z r) :
    pw T z (parseElement.parseC r) i (fun _ j => i + 1 ≤ j) := by
  unfold parseElement.parseC
  pw_loop

theorem pan_parseElement (H : Pan T z r) (w) (h1 : 1 ≤ i) (hp : ∃ k t, i = k + 1 ∧ T[k]? = some t ∧ t.word? = some w) :
    pw T z (parseElement r w) i (fun _ j => i ≤ j) := by
  unfold parseElement
  obtain ⟨k, t, rfl, ht, hw⟩ := hp
  pw_loop
  exact .inl (by pw_like)

theorem pan_parseElements (H : Pan T z r) (hs : Seen T i (.kw .TABLE)) :
    pw T z (parseElements r) i (fun _ j => i ≤ j) := by
  unfold parseElements
  pw_loop

theorem pan_parseCreateTable (H : Pan T z r) (t) (hs : Seen T i (.kw .TABLE)) :
    pw T z (parseCreateTable r t) i (fun _ j => i ≤ j) := by
  unfold parseCreateTable
  pw_loop

theorem pan_parseCreateView (H : Pan T z r) (t) (hp : ∃ t, T[i]? = some t ∧ (t.matchesKw KW.VIEW.str = true ∨ t.matchesKw KW.MATERIALIZED.str = true)) :
    pw T z (parseCreateView r t) i (fun _ j => i ≤ j) := by
  unfold parseCreateView
  obtain ⟨t', ht, hp⟩ := hp
  pw_loop
  rename_i h1 h2
  rcases h1 with h1 | ⟨t1, ht1, h1⟩
  · exact .inl h1
  rcases h2 with h2 | ⟨t2, ht2, h2⟩
  · exact .inl h2
  rw [ht] at ht1 ht2
  cases ht1
  cases ht2
  simp [Item.is] at h1 h2
  rw [h1, h2] at hp
  simp at hp

theorem pan_parseCreateIndex (H : Pan T z r) (u) (hs : Seen T i (.kw .INDEX)) :
    pw T z (parseCreateIndex r u) i (fun _ j => i ≤ j) := by
  unfold parseCreateIndex
  pw_loop

theorem pan_parseCreate (H : Pan T z r) :
    pw T z (parseCreate r) i (fun _ j => i + 1 ≤ j) := by
  unfold parseCreate
  pw_loop
  · exact ⟨_, by assumption, .inl (by assumption)⟩
  · exact ⟨_, by assumption, .inr (by assumption)⟩
  · exact ⟨_, by assumption, .inl (by assumption)⟩

theorem pan_parseDelete (H : Pan T z r) :
    pw T z (parseDelete r) i (fun _ j => i + 1 ≤ j) := by
  unfold parseDelete
  pw_loop

theorem pan_parseUpdate (H : Pan T z r) :
    pw T z (parseUpdate r) i (fun _ j => i + 1 ≤ j) := by
  unfold parseUpdate
  pw_loop

theorem pan_parseInsert (H : Pan T z r) :
    pw T z (parseInsert r) i (fun _ j => i + 1 ≤ j) := by
  unfold parseInsert
  refine pw_bind (pw_kwOrErr ?_)
  intro t1 ht1 _ hl1
  refine pw_bind (pw_expectKeyword ?_ ?_)
  · pw_loop
  intro t2 ht2 _ hl2
  refine pw_bind (pw_mono (pan_parseObjectName H) ?_)
  rintro _ j ⟨hj, hw⟩
  refine pw_bind (pw_mono (Q := fun _ k => j ≤ k ∧ (Pr T k .word ∨ Pr T k (.sym .RParen))) ?_ ?_)
  · pw_loop
    exact .inr (by pw_prev)
  · rintro _ k ⟨hk, hp⟩
    refine pw_bind (pw_mono (Q := fun _ l => k ≤ l) ?_ ?_)
    · pw_loop
      rcases hp with hp | hp
      · pw_bad
      · pw_bad
    · pw_loop

theorem pan_parseAlterColumn (H : Pan T z r) (t) :
    pw T z (parseAlterColumn r t) i (fun _ j => i ≤ j) := by
  unfold parseAlterColumn
  pw_loop

theorem pan_parseAlterAction (H : Pan T z r) :
    pw T z (parseAlterAction r) i (fun _ j => i ≤ j) := by
  unfold parseAlterAction
  pw_loop
  exact .inr (by assumption)

theorem pan_parseAlter (H : Pan T z r) :
    pw T z (parseAlter r) i (fun _ j => i + 1 ≤ j) := by
  unfold parseAlter
  pw_loop

theorem pan_parseDrop (H : Pan T z r) :
    pw T z (parseDrop r) i (fun _ j => i + 1 ≤ j) := by
  unfold parseDrop
  pw_loop

theorem pan_statementF_parseQueryStmt (H : Pan T z r) (h1 : 1 ≤ i) (hp : ∃ k t, i = k + 1 ∧ T[k]? = some t ∧ (t.kw? = some .SELECT ∨ t.kw? = some .WITH)) :
    pw T z (statementF.parseQueryStmt r) i (fun _ j => i ≤ j) := by
  unfold statementF.parseQueryStmt
  obtain ⟨k, t, rfl, ht, hk⟩ := hp
  refine pw_bind (pw_prevToken (by omega) ?_)
  intro j hj
  cases hj
  refine pw_bind (pw_mono (H.query k ?_) ?_)
  · intro h1 h2 h3
    rcases hk with hk | hk
    · exact bad_odd (by simp [twice]) h2 hk ht
    · exact bad_odd (by simp [twice]) h1 hk ht
  · pw_loop

set_option maxHeartbeats 2000000 in
theorem pan_step (fns : FloatFns) (H : Pan T z r) : Pan T z (Parsers.step fns r) where
  subexpr := by
    intro p i hs
    show pw T z (subexprF r p) i _
    unfold subexprF
    pw_loop
  subexprLoop := by
    intro p e i
    show pw T z (subexprLoopF r p e) i _
    unfold subexprLoopF
    pw_loop
    rename_i hq hp
    obtain ⟨t, ht, h⟩ := hq (by omega)
    subst_vars
    exact ⟨t, ht, by omega⟩
  prefix_ := by
    intro  i hs
    show pw T z (prefixF fns r ) i _
    unfold prefixF
    pw_loop
    rename_i t ht _ h1 h2 h3 h4 h5 h6 h7 h8
    refine hs t ht ?_
    obtain ⟨tok, f, g⟩ := t
    intro a ha
    simp only [exprStart, List.mem_cons, List.not_mem_nil, or_false] at ha
    cases tok with
    | sym s x =>
      cases s <;> first
        | (exfalso; exact h2 x rfl)
        | (exfalso; exact h3 x rfl)
        | (exfalso; exact h4 x rfl)
        | (exfalso; exact h8 x rfl)
        | (rcases ha with rfl | rfl | rfl | rfl | rfl | rfl | rfl <;> rfl)
    | word w => exact absurd rfl (h1 w)
    | number s => exact absurd rfl (h5 s)
    | single s => exact absurd rfl (h6 s)
    | national s => exact absurd rfl (h7 s)
    | _ => rcases ha with rfl | rfl | rfl | rfl | rfl | rfl | rfl <;> rfl
  idParts := by
    intro  i
    show pw T z (idPartsF r ) i _
    unfold idPartsF
    pw_loop
  exprList := by
    intro  i hs
    show pw T z (exprListF r ) i _
    unfold exprListF
    pw_loop
  listOfIds := by
    intro s i
    show pw T z (listOfIdsF r s) i _
    unfold listOfIdsF
    pw_loop
    rename_i h1 h2
    exact h1 h2
  listOfIdsSep := by
    intro s i hs
    show pw T z (listOfIdsSepF r s) i _
    unfold listOfIdsSepF
    pw_loop
    rename_i h1 h2
    exact (h1 h2).2
  orderByList := by
    intro  i hs
    show pw T z (orderByListF r ) i _
    unfold orderByListF
    pw_loop
  caseLoop := by
    intro  i hs
    show pw T z (caseLoopF r ) i _
    unfold caseLoopF
    pw_loop
  query := by
    intro  i hs
    show pw T z (queryF r ) i _
    unfold queryF
    refine pw_bind (pw_bind (pw_kw ?_ ?_))
    · intro t ht _ hl
      simp only [if_true]
      refine pw_mono (H.cteList (i + 1) (by pw_seen)) ?_
      pw_loop
    · intro hn
      simp only [Bool.false_eq_true, if_false]
      refine pw_ret (pw_bind (pw_mono (H.queryBody 0 i ?_) ?_))
      · exact hs hn
      · pw_loop
  queryBody := by
    intro p i hs
    show pw T z (queryBodyF r p) i _
    unfold queryBodyF
    refine pw_bind (pw_kwTok ?_ ?_)
    · pw_loop
    · intro hn
      refine pw_bind (pw_consumeToken ?_ ?_)
      · pw_loop
      · intro hp
        exact pw_panic (hs hn hp)
  bodyLoop := by
    intro p e i
    show pw T z (bodyLoopF r p e) i _
    unfold bodyLoopF
    refine pw_bind (pw_peekToken ?_ ?_)
    · intro t ht
      simp only [Option.bind_some]
      split
      · exact pw_ret (Nat.le_refl _)
      · rename_i op np ho
        split
        · exact pw_ret (Nat.le_refl _)
        · refine pw_bind (pw_mustNext ?_)
          intro t' _
          refine pw_bind (pw_kw ?_ ?_)
          · pw_loop
          · intro hn
            refine pw_bind (pw_mono (H.queryBody np (i + 1) ?_) ?_)
            · intro h1 h2
              unfold setOperator at ho
              split at ho
              all_goals first
                | (cases ho; done)
                | pw_bad
            · pw_loop
    · intro _
      exact pw_ret (Nat.le_refl _)
  cteList := by
    intro  i hs
    show pw T z (cteListF r ) i _
    unfold cteListF
    pw_loop
  selectList := by
    intro  i hs
    show pw T z (selectListF r ) i _
    unfold selectListF
    pw_loop
  tableRef := by
    intro  i
    show pw T z (tableRefF r ) i _
    unfold tableRefF
    pw_loop
  tableRefLoop := by
    intro l e i
    show pw T z (tableRefLoopF r l e) i _
    unfold tableRefLoopF
    pw_loop
  fromRest := by
    intro  i
    show pw T z (fromRestF r ) i _
    unfold fromRestF
    pw_loop
  defaultLoop := by
    intro e i
    show pw T z (defaultLoopF r e) i _
    unfold defaultLoopF
    pw_loop
    all_goals
      rename_i hq hp
      obtain ⟨t, ht, h⟩ := hq (by omega)
      subst_vars
      exact ⟨t, ht, by omega⟩
  columnLoop := by
    intro d s a i
    show pw T z (columnLoopF r d s a) i _
    unfold columnLoopF
    pw_loop
    all_goals
      unfold columnLoopF.parseSpecs
      pw_loop
  columnConstraints := by
    intro  i
    show pw T z (columnConstraintsF r ) i _
    unfold columnConstraintsF
    pw_loop
  elements := by
    intro  i hs
    show pw T z (elementsF r ) i _
    unfold elementsF
    pw_loop
    · exact ⟨i, _, rfl, by assumption, by assumption⟩
    · rename_i ht h1 h2
      exact bad_read ⟨some (.kw .TABLE), [], [.sym .RParen, .sym .Comma]⟩ (List.mem_of_elem_eq_true rfl)
        (fun a h => by cases h; rw [if_pos rfl]; exact hs.mono (by omega)) (.inl rfl) ht (by simp [Item.is, h1, h2])
  tableOptions := by
    intro  i
    show pw T z (tableOptionsF r ) i _
    unfold tableOptionsF
    pw_loop
  assignments := by
    intro  i hs
    show pw T z (assignmentsF r ) i _
    unfold assignmentsF
    pw_loop
  rows := by
    intro  i
    show pw T z (rowsF r ) i _
    unfold rowsF
    pw_loop
  statement := by
    intro  i
    show pw T z (statementF r ) i _
    unfold statementF
    pw_loop
    · exact ⟨i, _, rfl, by assumption, .inl (by simp only [Token.kw?, *, Option.bind_some])⟩
    · exact ⟨i, _, rfl, by assumption, .inr (by simp only [Token.kw?, *, Option.bind_some])⟩

theorem pan_at (fns : FloatFns) : ∀ n, Pan T z (Parsers.at fns n)
  | 0 => by constructor <;> intros <;> exact pw_oof
  | n + 1 => pan_step fns (pan_at fns n)

theorem pan_parseSQLLoop (H : Pan T z r) (mode : Bool) : ∀ (m : Nat) (e : Bool) (i : Nat),
    pw T z (parseSQLLoop mode r m e) i fun _ j => i ≤ j
  | 0, _, _ => pw_oof
  | m + 1, e, i => by
    have hrest : ∀ j, i ≤ j → pw T z (do
        let s ← r.statement
        let ss ← parseSQLLoop mode r m true
        pure (s :: ss)) j fun _ k => i ≤ k := by
      intro j hj1
      refine pw_bind (pw_mono (H.statement j) ?_)
      intro s k h1
      refine pw_bind (pw_mono (pan_parseSQLLoop H mode m true k) ?_)
      intro ss l h3
      exact pw_ret (by omega)
    unfold parseSQLLoop
    have key : ∀ j, i ≤ j → pw T z (do
        let t ← if mode then nextToken else peekToken
        match t with
        | none => pure []
        | some _ => do
          if mode then prevToken
          let s ← r.statement
          let ss ← parseSQLLoop mode r m true
          pure (s :: ss)) j fun _ k => i ≤ k := by
      intro j hj1
      cases mode with
      | false =>
        refine pw_bind (pw_peekToken ?_ ?_)
        · intro t _; exact hrest j hj1
        · intro _; exact pw_ret hj1
      | true =>
        refine pw_bind (pw_nextToken ?_ ?_)
        · intro t _
          refine pw_bind (pw_prevToken (by omega) ?_)
          intro k hk
          cases hk
          exact hrest j hj1
        · intro _; exact pw_ret hj1
    refine pw_bind (pw_consumeToken ?_ ?_)
    · intro t _ _ _
      exact key (i + 1) (by omega)
    · intro _
      cases e with
      | true => exact pw_err
      | false => exact key i (Nat.le_refl _)

theorem pw_reason {p : P α} {Q : α → Nat → Prop} (h : pw T z p i Q) (ha : z = true → p.asksI T i = false) :
    ∀ j, p.panicI T i = some j → Bad T z j := by
  unfold pw at h
  exact (h ha).1

end

/-! ### Relation to the token slice -/

/-- Where the significant tokens before and after the cursor are. -/
def PState.At (T : List Token) (i : Nat) (s : PState) : Prop :=
  s.before = (T.take i).reverse ∧ s.after = T.drop i ∧ i ≤ T.length ∧ s.idx ≤ s.toks.length

theorem PState.at_self (s : PState) (hs : s.idx ≤ s.toks.length) :
    s.At (s.before.reverse ++ s.after) s.before.length := by
  refine ⟨?_, ?_, by simp, hs⟩
  · rw [List.take_left' (by simp)]; simp
  · exact (List.drop_left' (by simp)).symm

theorem kwsAsks_view (mode : Bool) : ∀ (ks : List Str) (s : PState), s.idx ≤ s.toks.length →
    s.kwsAskEnd mode ks = kwsAsksZ ks s.after
  | [], s, _ => by simp [PState.kwsAskEnd, kwsAsksZ]
  | k :: ks, s, hl => by
    unfold PState.kwsAskEnd
    rw [peek_view]
    rcases next_view mode s with ⟨h1, -, -, -⟩ | ⟨t, rest, h1, h2, h3, h4⟩
    · simp [h1, kwsAsksZ]
    · simp only [h1, List.head?_cons, kwsAsksZ]
      rw [kwsAsks_view mode ks _ (next_idx_le mode s hl), h4]

/-- The index and the state agree about panics and about asking for tokens beyond the end. -/
theorem panic_view (T : List Token) (mode : Bool) : ∀ (p : P α) (s : PState) (i : Nat), s.At T i →
    p.asksEnd mode s = p.asksI T i ∧ ∀ s', p.panicAt mode s = some s' → ∃ j, p.panicI T i = some j ∧ s'.At T j
  | .ret a, s, i, _ => by simp [P.asksEnd, P.asksI, P.panicAt]
  | .err, _, _, _ => by simp [P.asksEnd, P.asksI, P.panicAt]
  | .panic, _, _, h => by simp [P.asksEnd, P.asksI, P.panicAt, P.panicI]; exact h
  | .oof, _, _, _ => by simp [P.asksEnd, P.asksI, P.panicAt]
  | .next k, s, i, ⟨hb, ha, hi, hl⟩ => by
    unfold P.asksEnd P.asksI P.panicAt P.panicI
    have hle := next_idx_le mode s hl
    rcases next_view mode s with ⟨h1, h2, h3, h4⟩ | ⟨t, rest, h1, h2, h3, h4⟩
    · rw [ha] at h1
      have : T.length ≤ i := List.drop_eq_nil_iff.1 h1
      have ih := panic_view T mode (k (s.next mode).1) _ i ⟨by rw [h3, hb], by rw [h4, h1], hi, hle⟩
      rw [h2] at ih ⊢
      rw [List.getElem?_eq_none this]
      exact ⟨rfl, ih.2⟩
    · rw [ha] at h1
      have hlt : i < T.length := by
        rcases Nat.lt_or_ge i T.length with h | h
        · exact h
        · rw [List.drop_eq_nil_of_le h] at h1; cases h1
      rw [List.drop_eq_getElem_cons hlt] at h1
      injection h1 with h1 h1'
      have ht : T.take (i + 1) = T.take i ++ [T[i]] := by rw [List.take_add_one]; simp [hlt]
      have ih := panic_view T mode (k (s.next mode).1) _ (i + 1)
        ⟨by rw [h3, hb, ht, h1]; simp, by rw [h4, h1'], hlt, hle⟩
      rw [h2] at ih ⊢
      rw [List.getElem?_eq_getElem hlt, h1]
      exact ih
  | .peek k, s, i, h => by
    unfold P.asksEnd P.asksI P.panicAt P.panicI
    have ih := panic_view T mode (k s.peek) s i h
    rw [peek_view, h.2.1, List.head?_drop] at ih ⊢
    exact ⟨by rw [ih.1], ih.2⟩
  | .prev k, s, i, ⟨hb, ha, hi, hl⟩ => by
    unfold P.asksEnd P.asksI P.panicAt P.panicI
    rcases prev_view s hl with ⟨h1, h2⟩ | ⟨t, rest, s', h1, h2, h3, h4, h5, h6, -, -⟩
    · rw [hb] at h1
      have : i = 0 := by
        have := congrArg List.length h1
        simp at this
        rcases this with h | h
        · exact h
        · subst h; simp at hi; exact hi
      subst this
      simp only [h2, if_true, Option.some.injEq]
      refine ⟨trivial, ?_⟩
      rintro s' rfl
      exact ⟨0, rfl, hb, ha, hi, hl⟩
    · rw [hb] at h1
      cases i with
      | zero => simp at h1
      | succ i =>
        have hlt : i < T.length := hi
        have ht : T.take (i + 1) = T.take i ++ [T[i]] := by rw [List.take_add_one]; simp [hlt]
        rw [ht] at h1
        simp only [List.reverse_append, List.reverse_cons, List.reverse_nil, List.nil_append,
          List.singleton_append, List.cons.injEq] at h1
        obtain ⟨rfl, h1⟩ := h1
        simp only [h2, Nat.add_one_ne_zero, if_false, Nat.add_sub_cancel]
        exact panic_view T mode k s' i ⟨by rw [h3, ← h1], by rw [h4, ha, ← List.drop_eq_getElem_cons hlt], by omega,
          by rw [h6]; omega⟩
  | .kws ks k, s, i, ⟨hb, ha, hi, hl⟩ => by
    unfold P.asksEnd P.asksI P.panicAt P.panicI
    rw [kwsAsks_view mode ks s hl, ha]
    have h := kws_view mode ks s hl
    rw [ha] at h
    cases htk : takeKws ks (T.drop i) with
    | none =>
      rw [htk] at h
      obtain ⟨h1, h2, h3, h4, h5⟩ := h
      have ih := panic_view T mode (k (s.kws mode ks).1) _ i ⟨by rw [h4, hb], h5, hi, by rw [h1]; exact h2⟩
      rw [h3] at ih ⊢
      exact ⟨by rw [ih.1], ih.2⟩
    | some r =>
      obtain ⟨ts, s'⟩ := r
      rw [htk] at h
      obtain ⟨h1, h2, h3, h4, h5⟩ := h
      have hd := (takeKws_append htk).1
      have hlen := congrArg List.length hd
      simp at hlen
      have e1 : T.drop (i + ts.length) = s' := by
        rw [← List.drop_drop, hd]; simp
      have e2 : T.take (i + ts.length) = T.take i ++ ts := by
        rw [List.take_add, hd]; simp
      have ih := panic_view T mode (k (s.kws mode ks).1) _ (i + ts.length)
        ⟨by rw [h4, hb, e2]; simp, by rw [h5, e1], by omega, by rw [h1]; exact h2⟩
      rw [h3] at ih ⊢
      exact ⟨by rw [ih.1], ih.2⟩

theorem panicAt_none (mode : Bool) : ∀ (p : P α) (s : PState), p.panicAt mode s = none ↔ p.run mode s ≠ .panic
  | .ret a, s => by simp [P.panicAt, P.run]
  | .err, _ => by simp [P.panicAt, P.run]
  | .panic, _ => by simp [P.panicAt, P.run]
  | .oof, _ => by simp [P.panicAt, P.run]
  | .next k, s => by simp only [P.panicAt, P.run]; exact panicAt_none mode _ _
  | .peek k, s => by simp only [P.panicAt, P.run]; exact panicAt_none mode _ _
  | .prev k, s => by
    simp only [P.panicAt, P.run]
    cases s.prev with
    | none => simp
    | some s' => exact panicAt_none mode _ _
  | .kws ks k, s => by simp only [P.panicAt, P.run]; exact panicAt_none mode _ _

theorem Seen.mem {T : List Token} {i : Nat} {a : Item} (h : Seen T i a) :
    ∃ t ∈ (T.take i).reverse, a.like t = true := by
  obtain ⟨k, hk, t, ht, ha⟩ := h
  refine ⟨t, List.mem_reverse.2 (List.mem_of_getElem? (i := k) ?_), ha⟩
  rw [List.getElem?_take_of_lt hk, ht]

theorem take_head {T : List Token} {k : Nat} {t : Token} (h : T[k]? = some t) :
    (T.take (k + 1)).reverse = t :: (T.take k).reverse := by
  obtain ⟨hlt, rfl⟩ := List.getElem?_eq_some_iff.1 h
  rw [List.take_add_one]
  simp [hlt]

theorem Site.at_holds {T : List Token} {o : Nat} {c : Site} (h : c.at_ T o) :
    c.holds (T.take o).reverse (T.drop o) := by
  obtain ⟨h1, h2, t, ht, h3⟩ := h
  refine ⟨fun a ha => ?_, ?_, t, by rw [List.head?_drop, ht], h3⟩
  · obtain ⟨t, h, h'⟩ := (h1 a ha).mem
    refine ⟨t, ?_, h'⟩
    split
    · rename_i he; rw [if_pos he] at h; exact h
    · rename_i he
      rw [if_neg he] at h
      rcases h2 with h2 | ⟨b, -, k, rfl, t', ht', -⟩
      · exact absurd h2 he
      · rw [take_head ht']; exact h
  rcases h2 with h2 | ⟨a, ha, k, rfl, t', ht', h4⟩
  · exact .inl h2
  · exact .inr ⟨a, ha, t', by rw [take_head ht']; rfl, h4⟩

theorem bad_state {T : List Token} {z : Bool} {j : Nat} {s : PState} (hs : s.At T j) (h : Bad T z j) :
    z = false ∧ s.after = [] ∨ s.explained := by
  obtain ⟨hb, ha, hj, -⟩ := hs
  rcases h with ⟨h, hl⟩ | ⟨t, k, ht, hk, h1, h2⟩ | ⟨c, hc, h⟩ | ⟨c, hc, o, rfl, h⟩
  · exact .inl ⟨h, by rw [ha]; exact List.drop_eq_nil_of_le hl⟩
  · refine .inr (.inl ⟨t, k, ?_, hk, h1, h2⟩)
    rcases ht with ht | ⟨i, rfl, ht⟩
    · exact .inl (by rw [ha, List.head?_drop, ht])
    · exact .inr (by rw [hb, take_head ht]; rfl)
  · exact .inr (.inr (.inl ⟨c, hc, by rw [ha, hb]; exact Site.at_holds h⟩))
  · obtain ⟨-, -, t, ht, -⟩ := id h
    refine .inr (.inr (.inr ⟨c, hc, t, (T.take o).reverse, by rw [hb, take_head ht], ?_⟩))
    have := Site.at_holds h
    obtain ⟨hlt, rfl⟩ := List.getElem?_eq_some_iff.1 ht
    rw [List.drop_eq_getElem_cons hlt] at this
    rw [ha]
    exact this

end Verif
