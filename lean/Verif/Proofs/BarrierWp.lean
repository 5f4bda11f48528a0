import Lean.Elab.Tactic
import Verif.Proofs.Wp
/-
Which part of the tokens a program looks at: `bw T lo L d p i Q` says that `p`, started at index `i` of `T`, never
goes back before `lo`, does not ask for a token behind index `L` if `d` is true, and that `Q` holds of its result
and final index if it succeeds.  `L` is the end of `T` if `d` is false, and the index of a semicolon otherwise.
-/
set_option linter.unusedVariables false
namespace Verif

/-- The program never goes back before `lo` and, if `d`, never asks for a token behind `L`. -/
def P.within (T : List Token) (lo L : Nat) (d : Bool) : P α → Nat → Prop
  | .next k, i => (d = true → i ≤ L) ∧
    match T[i]? with
    | some t => (k (some t)).within T lo L d (i + 1)
    | none => (k none).within T lo L d i
  | .peek k, i => (d = true → i ≤ L) ∧ (k T[i]?).within T lo L d i
  | .prev k, i => lo < i ∧ k.within T lo L d (i - 1)
  | .kws ks k, i => (d = true → i ≤ L) ∧
    match takeKws ks (T.drop i) with
    | some (ts, _) => (k (some ts)).within T lo L d (i + ts.length)
    | none => (k none).within T lo L d i
  | _, _ => True

/-- Where the part of the tokens ends. -/
structure Rim (T : List Token) (L : Nat) (d : Bool) : Prop where
  le : L ≤ T.length
  open_ : d = false → L = T.length
  semi : d = true → ∃ s f g, T[L]? = some ⟨.sym .Semicolon s, f, g⟩

/-- The same tokens from `lo` in `T` and from `lo'` in `T'`, up to the edge. -/
structure Agree (T : List Token) (lo L : Nat) (d : Bool) (T' : List Token) (lo' : Nat) : Prop where
  edge : Rim T L d
  lo_le : lo ≤ L
  get : ∀ k, (d = true → lo + k ≤ L) → T'[lo' + k]? = T[lo + k]?

theorem bar_takeKws_get {ks : List Str} : ∀ {s s' : List Token} (n : Nat), (∀ k, k ≤ n → s[k]? = s'[k]?) →
    (∃ t, s[n]? = some t ∧ t.word? = none) →
    (takeKws ks s).map Prod.fst = (takeKws ks s').map Prod.fst := by
  induction ks with
  | nil => intros; rfl
  | cons k ks ih =>
    intro s s' n h ht
    have h0 := h 0 (by omega)
    obtain ⟨t, ht, hw⟩ := ht
    cases s with
    | nil => simp at ht
    | cons x s =>
      cases s' with
      | nil => simp at h0
      | cons x' s' =>
        simp only [List.getElem?_cons_zero, Option.some.injEq] at h0
        subst h0
        simp only [takeKws]
        cases n with
        | zero =>
          simp only [List.getElem?_cons_zero, Option.some.injEq] at ht
          subst ht
          have : x.matchesKw k = false := by
            unfold Token.matchesKw; unfold Token.word? at hw
            split <;> simp_all
          simp [this]
        | succ n =>
          have := ih (s := s) (s' := s') n (fun k hk => by simpa using h (k + 1) (by omega)) ⟨t, by simpa using ht, hw⟩
          split
          · rw [Option.map_map, Option.map_map]
            have h2 := congrArg (Option.map (x :: ·)) this
            rw [Option.map_map, Option.map_map] at h2
            exact h2
          · rfl

theorem takeKws_fst {ks : List Str} {s s' : List Token} (h : (takeKws ks s).map Prod.fst = (takeKws ks s').map Prod.fst) :
    (∃ ts r r', takeKws ks s = some (ts, r) ∧ takeKws ks s' = some (ts, r')) ∨
      takeKws ks s = none ∧ takeKws ks s' = none := by
  cases h1 : takeKws ks s with
  | none => rw [h1] at h; cases h2 : takeKws ks s' with
    | none => exact .inr ⟨rfl, rfl⟩
    | some r => rw [h2] at h; simp at h
  | some r => rw [h1] at h; cases h2 : takeKws ks s' with
    | none => rw [h2] at h; simp at h
    | some r' =>
      rw [h2] at h
      simp at h
      exact .inl ⟨r.1, r.2, r'.2, rfl, by rw [h]⟩

theorem Agree.kws {T T' : List Token} {lo L lo' : Nat} {d : Bool} (h : Agree T lo L d T' lo') (ks : List Str) (k : Nat)
    (hk : d = true → lo + k ≤ L) :
    (takeKws ks (T'.drop (lo' + k))).map Prod.fst = (takeKws ks (T.drop (lo + k))).map Prod.fst := by
  cases d with
  | false =>
    have : T'.drop (lo' + k) = T.drop (lo + k) := by
      apply List.ext_getElem?
      intro m
      rw [List.getElem?_drop, List.getElem?_drop, Nat.add_assoc, Nat.add_assoc]
      exact h.get _ (by simp)
    rw [this]
  | true =>
    obtain ⟨s, f, g, hs⟩ := h.edge.semi rfl
    have hk := hk rfl
    have e : ∀ m, m ≤ L - (lo + k) → (T'.drop (lo' + k))[m]? = (T.drop (lo + k))[m]? := by
      intro m hm
      rw [List.getElem?_drop, List.getElem?_drop, Nat.add_assoc, Nat.add_assoc]
      exact h.get _ (fun _ => by omega)
    refine bar_takeKws_get (L - (lo + k)) e ⟨⟨.sym .Semicolon s, f, g⟩, ?_, rfl⟩
    rw [e _ (Nat.le_refl _), List.getElem?_drop, show lo + k + (L - (lo + k)) = L by omega, hs]

/-- The result and the number of tokens read depend only on the part of the tokens the program looks at. -/
theorem within_runI {T T' : List Token} {lo L lo' : Nat} {d : Bool} (h : Agree T lo L d T' lo') :
    ∀ (p : P α) (k : Nat), p.within T lo L d (lo + k) →
      match p.runI T (lo + k) with
      | .ok x j => ∃ m, j = lo + m ∧ p.runI T' (lo' + k) = .ok x (lo' + m)
      | .err => p.runI T' (lo' + k) = .err
      | .panic => p.runI T' (lo' + k) = .panic
      | .oof => p.runI T' (lo' + k) = .oof
  | .ret a, k, _ => ⟨k, rfl, rfl⟩
  | .err, _, _ => rfl
  | .panic, _, _ => rfl
  | .oof, _, _ => rfl
  | .next f, k, hw => by
    simp only [P.within] at hw
    obtain ⟨h1, h2⟩ := hw
    have hg := h.get k h1
    simp only [P.runI, hg]
    cases ht : T[lo + k]? with
    | none => rw [ht] at h2; exact within_runI h _ k h2
    | some t => rw [ht] at h2; exact within_runI h _ (k + 1) h2
  | .peek f, k, hw => by
    simp only [P.within] at hw
    obtain ⟨h1, h2⟩ := hw
    simp only [P.runI, h.get k h1]
    exact within_runI h _ k h2
  | .prev f, k, hw => by
    simp only [P.within] at hw
    obtain ⟨h1, h2⟩ := hw
    obtain ⟨k, rfl⟩ : ∃ m, k = m + 1 := ⟨k - 1, by omega⟩
    simp only [P.runI, if_neg (show ¬ lo + (k + 1) = 0 by omega), if_neg (show ¬ lo' + (k + 1) = 0 by omega)]
    exact within_runI h f k h2
  | .kws ks f, k, hw => by
    simp only [P.within] at hw
    obtain ⟨h1, h2⟩ := hw
    simp only [P.runI]
    rcases takeKws_fst (h.kws ks k h1) with ⟨ts, r, r', e1, e2⟩ | ⟨e1, e2⟩
    · rw [e2] at h2
      rw [e1, e2]
      simp only [Nat.add_assoc] at h2 ⊢
      exact within_runI h _ (k + ts.length) h2
    · rw [e2] at h2
      rw [e1, e2]
      exact within_runI h _ k h2

def bw (T : List Token) (lo L : Nat) (d : Bool) (p : P α) (i : Nat) (Q : α → Nat → Prop) : Prop :=
  p.within T lo L d i ∧
    match p.runI T i with
    | .ok x j => Q x j
    | _ => True

variable {T : List Token} {i lo L : Nat} {d : Bool} {α β γ : Type}

theorem within_bind : ∀ (p : P α) (f : α → P β) (i : Nat), p.within T lo L d i →
    (∀ x j, p.runI T i = .ok x j → (f x).within T lo L d j) → (p.bind f).within T lo L d i
  | .ret a, f, i, _, h => h a i rfl
  | .err, _, _, _, _ => trivial
  | .panic, _, _, _, _ => trivial
  | .oof, _, _, _, _ => trivial
  | .next k, f, i, hw, h => by
    simp only [P.bind, P.within, P.runI] at hw h ⊢
    refine ⟨hw.1, ?_⟩
    cases ht : T[i]? with
    | none => rw [ht] at hw h; exact within_bind _ f _ hw.2 h
    | some t => rw [ht] at hw h; exact within_bind _ f _ hw.2 h
  | .peek k, f, i, hw, h => by
    simp only [P.bind, P.within, P.runI] at hw h ⊢
    exact ⟨hw.1, within_bind _ f _ hw.2 h⟩
  | .prev k, f, i, hw, h => by
    simp only [P.bind, P.within, P.runI] at hw h ⊢
    rw [if_neg (by omega)] at h
    exact ⟨hw.1, within_bind _ f _ hw.2 h⟩
  | .kws ks k, f, i, hw, h => by
    simp only [P.bind, P.within, P.runI] at hw h ⊢
    refine ⟨hw.1, ?_⟩
    cases ht : takeKws ks (T.drop i) with
    | none => rw [ht] at hw h; exact within_bind _ f _ hw.2 h
    | some r => rw [ht] at hw h; exact within_bind _ f _ hw.2 h

theorem bw_mono {p : P α} {Q Q' : α → Nat → Prop} (h : bw T lo L d p i Q) (hq : ∀ x j, Q x j → Q' x j) :
    bw T lo L d p i Q' := by
  refine ⟨h.1, ?_⟩
  have h2 := h.2
  cases hp : p.runI T i with
  | ok x j => rw [hp] at h2; exact hq x j h2
  | _ => trivial

theorem bw_bind {p : P α} {f : α → P β} {Q : β → Nat → Prop}
    (h : bw T lo L d p i fun x j => bw T lo L d (f x) j Q) : bw T lo L d (p >>= f) i Q := by
  obtain ⟨h1, h2⟩ := h
  constructor
  · apply within_bind _ _ _ h1
    intro x j hp
    rw [hp] at h2
    exact h2.1
  · rw [P.bind_eq, runI_bind]
    cases hp : p.runI T i with
    | ok x j => rw [hp] at h2; exact h2.2
    | _ => trivial

/-- An optional clause: forget everything but the progress. -/
theorem bw_cut {p : P γ} {g : γ → P α} {f : α → P β} {Q : β → Nat → Prop}
    (h1 : bw T lo L d (p >>= g) i fun _ j => i ≤ j ∧ j ≤ L)
    (h2 : ∀ x j, i ≤ j → j ≤ L → bw T lo L d (f x) j Q) : bw T lo L d (p >>= g >>= f) i Q :=
  bw_bind (bw_mono h1 fun x j h => h2 x j h.1 h.2)

theorem bw_ret {a : α} {Q : α → Nat → Prop} (h : Q a i) : bw T lo L d (pure a) i Q := ⟨trivial, h⟩
theorem bw_err {Q : α → Nat → Prop} : bw T lo L d .err i Q := ⟨trivial, trivial⟩
theorem bw_panic {Q : α → Nat → Prop} : bw T lo L d .panic i Q := ⟨trivial, trivial⟩
theorem bw_oof {Q : α → Nat → Prop} : bw T lo L d .oof i Q := ⟨trivial, trivial⟩

/-- The token at `i`, for `i` up to the edge. -/
theorem Rim.cases (E : Rim T L d) (hi : i ≤ L) {motive : Option Token → Prop}
    (h1 : ∀ t, T[i]? = some t → i + 1 ≤ L → motive (some t))
    (h2 : ∀ s f g, T[i]? = some ⟨.sym .Semicolon s, f, g⟩ → i = L → motive (some ⟨.sym .Semicolon s, f, g⟩))
    (h3 : i = L → d = false → motive none) : motive T[i]? := by
  have hl := E.le
  rcases Nat.lt_or_ge i L with h | h
  · have ht := List.getElem?_eq_getElem (show i < T.length by omega)
    rw [ht]; exact h1 _ ht h
  · have he : i = L := by omega
    cases d with
    | true =>
      obtain ⟨s, f, g, hs⟩ := E.semi rfl
      rw [← he] at hs
      rw [hs]; exact h2 s f g hs he
    | false =>
      rw [List.getElem?_eq_none (by rw [← E.open_ rfl]; exact h)]
      exact h3 he rfl

theorem bw_nextToken {Q : Option Token → Nat → Prop} (E : Rim T L d) (hi : i ≤ L)
    (h1 : ∀ t, T[i]? = some t → i + 1 ≤ L → Q (some t) (i + 1))
    (h2 : ∀ s f g, T[i]? = some ⟨.sym .Semicolon s, f, g⟩ → i = L → Q (some ⟨.sym .Semicolon s, f, g⟩) (i + 1))
    (h3 : i = L → Q none i) : bw T lo L d nextToken i Q := by
  have := E.cases hi (motive := fun o => match o with | some t => Q (some t) (i + 1) | none => Q none i) h1 h2
    (fun h _ => h3 h)
  revert this
  unfold bw nextToken
  simp only [P.within, P.runI]
  cases ht : T[i]? with
  | none => exact fun h => ⟨⟨fun _ => hi, trivial⟩, h⟩
  | some t => exact fun h => ⟨⟨fun _ => hi, trivial⟩, h⟩

theorem bw_peekToken {Q : Option Token → Nat → Prop} (E : Rim T L d) (hi : i ≤ L)
    (h1 : ∀ t, T[i]? = some t → i + 1 ≤ L → Q (some t) i)
    (h2 : ∀ s f g, T[i]? = some ⟨.sym .Semicolon s, f, g⟩ → i = L → Q (some ⟨.sym .Semicolon s, f, g⟩) i)
    (h3 : i = L → Q none i) : bw T lo L d peekToken i Q := by
  have := E.cases hi (motive := fun o => Q o i) h1 h2 (fun h _ => h3 h)
  exact ⟨⟨fun _ => hi, trivial⟩, this⟩

theorem bw_prevToken {Q : Unit → Nat → Prop} (h0 : lo < i) (h : ∀ j, i = j + 1 → Q () j) :
    bw T lo L d prevToken i Q := by
  obtain ⟨i, rfl⟩ : ∃ j, i = j + 1 := ⟨i - 1, by omega⟩
  exact ⟨⟨h0, trivial⟩, h i rfl⟩

theorem takeKws_word {ks : List Str} : ∀ {s ts r : List Token}, takeKws ks s = some (ts, r) → ∀ t ∈ ts, t.word? ≠ none := by
  induction ks with
  | nil => intro s ts r h; simp [takeKws] at h; simp [h.1]
  | cons k ks ih =>
    intro s ts r h
    cases s with
    | nil => simp [takeKws] at h
    | cons x s =>
      simp only [takeKws] at h
      split at h
      · rename_i hm
        simp only [Option.map_eq_some_iff, Prod.mk.injEq] at h
        obtain ⟨⟨ts', s''⟩, h1, rfl, rfl⟩ := h
        intro t ht
        rcases List.mem_cons.1 ht with rfl | ht
        · intro hw
          unfold Token.matchesKw at hm; unfold Token.word? at hw
          split at hm <;> simp_all
        · exact ih h1 t ht
      · simp at h

theorem bw_parseKeywords {k : KW} {ks : List KW} {Q : Option (List Token) → Nat → Prop} (E : Rim T L d) (hi : i ≤ L)
    (h1 : ∀ ts j, i + 1 ≤ j → j ≤ L → Q (some ts) j) (h2 : Q none i) :
    bw T lo L d (parseKeywords (k :: ks)) i Q := by
  unfold bw parseKeywords
  simp only [P.within, P.runI]
  cases htk : takeKws ((k :: ks).map KW.str) (T.drop i) with
  | none => exact ⟨⟨fun _ => hi, trivial⟩, h2⟩
  | some r =>
    obtain ⟨ts, s'⟩ := r
    obtain ⟨h, hl⟩ := takeKws_append htk
    have hl' := congrArg List.length h
    simp at hl hl'
    have hle : i + ts.length ≤ L := by
      cases d with
      | false => rw [E.open_ rfl]; omega
      | true =>
        obtain ⟨s, f, g, hs⟩ := E.semi rfl
        rcases Nat.lt_or_ge L (i + ts.length) with hlt | h'
        · have hm : ts[L - i]? = some ⟨.sym .Semicolon s, f, g⟩ := by
            have := congrArg (·[L - i]?) h
            rw [List.getElem?_drop, show i + (L - i) = L by omega, hs,
              List.getElem?_append_left (by omega)] at this
            exact this.symm
          exact absurd rfl (takeKws_word htk _ (List.mem_of_getElem? hm))
        · exact h'
    exact ⟨⟨fun _ => hi, trivial⟩, h1 ts _ (by omega) hle⟩

theorem bw_nextOrErr {Q : Token → Nat → Prop} (E : Rim T L d) (hi : i ≤ L)
    (h1 : ∀ t, T[i]? = some t → i + 1 ≤ L → Q t (i + 1))
    (h2 : ∀ s f g, T[i]? = some ⟨.sym .Semicolon s, f, g⟩ → i = L → Q ⟨.sym .Semicolon s, f, g⟩ (i + 1)) :
    bw T lo L d nextOrErr i Q := by
  refine bw_mono (p := nextOrErr) (Q := Q) ?_ fun _ _ h => h
  have := E.cases hi (motive := fun o => match o with | some t => Q t (i + 1) | none => True) h1 h2
    (fun h _ => trivial)
  revert this
  unfold bw nextOrErr
  simp only [P.within, P.runI]
  cases ht : T[i]? with
  | none => exact fun h => ⟨⟨fun _ => hi, trivial⟩, trivial⟩
  | some t => exact fun h => ⟨⟨fun _ => hi, trivial⟩, h⟩

theorem bw_mustNext {Q : Token → Nat → Prop} (E : Rim T L d) (hi : i ≤ L)
    (h1 : ∀ t, T[i]? = some t → i + 1 ≤ L → Q t (i + 1))
    (h2 : ∀ s f g, T[i]? = some ⟨.sym .Semicolon s, f, g⟩ → i = L → Q ⟨.sym .Semicolon s, f, g⟩ (i + 1)) :
    bw T lo L d mustNext i Q := by
  have := E.cases hi (motive := fun o => match o with | some t => Q t (i + 1) | none => True) h1 h2
    (fun h _ => trivial)
  revert this
  unfold bw mustNext
  simp only [P.within, P.runI]
  cases ht : T[i]? with
  | none => exact fun h => ⟨⟨fun _ => hi, trivial⟩, trivial⟩
  | some t => exact fun h => ⟨⟨fun _ => hi, trivial⟩, h⟩

theorem bw_mustPeek {Q : Token → Nat → Prop} (E : Rim T L d) (hi : i ≤ L)
    (h1 : ∀ t, T[i]? = some t → i + 1 ≤ L → Q t i)
    (h2 : ∀ s f g, T[i]? = some ⟨.sym .Semicolon s, f, g⟩ → i = L → Q ⟨.sym .Semicolon s, f, g⟩ i) :
    bw T lo L d mustPeek i Q := by
  have := E.cases hi (motive := fun o => match o with | some t => Q t i | none => True) h1 h2
    (fun h _ => trivial)
  revert this
  unfold bw mustPeek
  simp only [P.within, P.runI]
  cases ht : T[i]? with
  | none => exact fun h => ⟨⟨fun _ => hi, trivial⟩, trivial⟩
  | some t => exact fun h => ⟨⟨fun _ => hi, trivial⟩, h⟩

theorem bw_parseKeyword {k : KW} {Q : KwRes → Nat → Prop} (E : Rim T L d) (hi : i ≤ L) (h0 : i = L → Q .eof i)
    (h1 : ∀ t, T[i]? = some t → t.matchesKw k.str = true → i + 1 ≤ L → Q (.yes t) (i + 1))
    (h2 : ∀ t, T[i]? = some t → t.matchesKw k.str = false → Q (.no t) i) :
    bw T lo L d (parseKeyword k) i Q := by
  unfold parseKeyword
  refine bw_bind (bw_peekToken E hi ?_ ?_ (fun h => bw_ret (h0 h)))
  · intro t ht hlt
    simp only
    split
    · refine bw_bind (bw_mustNext E hi ?_ ?_)
      · intro t' ht' _
        exact bw_ret (h1 t ht ‹_› hlt)
      · intro s f g _ _; omega
    · rename_i hm; exact bw_ret (h2 t ht (by simpa using hm))
  · intro s f g ht _
    simp only
    rw [if_neg (by simp [Token.matchesKw])]
    exact bw_ret (h2 _ ht (by simp [Token.matchesKw]))

theorem bw_kw {k : KW} {Q : Bool → Nat → Prop} (E : Rim T L d) (hi : i ≤ L)
    (h1 : ∀ t, T[i]? = some t → t.matchesKw k.str = true → i + 1 ≤ L → Q true (i + 1))
    (h2 : Q false i) : bw T lo L d (kw k) i Q := by
  unfold kw
  exact bw_bind (bw_parseKeyword E hi (fun _ => bw_ret h2) (fun t a b c => bw_ret (h1 t a b c)) (fun _ _ _ => bw_ret h2))

theorem bw_kwTok {k : KW} {Q : Option Token → Nat → Prop} (E : Rim T L d) (hi : i ≤ L)
    (h1 : ∀ t, T[i]? = some t → t.matchesKw k.str = true → i + 1 ≤ L → Q (some t) (i + 1))
    (h2 : Q none i) : bw T lo L d (kwTok k) i Q := by
  unfold kwTok
  exact bw_bind (bw_parseKeyword E hi (fun _ => bw_ret h2) (fun t a b c => bw_ret (h1 t a b c)) (fun _ _ _ => bw_ret h2))

theorem bw_kwOrErr {k : KW} {Q : Token → Nat → Prop} (E : Rim T L d) (hi : i ≤ L)
    (h1 : ∀ t, T[i]? = some t → t.matchesKw k.str = true → i + 1 ≤ L → Q t (i + 1)) :
    bw T lo L d (kwOrErr k) i Q := by
  unfold kwOrErr
  exact bw_bind (bw_parseKeyword E hi (fun _ => bw_err) (fun t a b c => bw_ret (h1 t a b c)) (fun _ _ _ => bw_err))

theorem bw_expectKeyword {k : KW} {Q : Token → Nat → Prop} (E : Rim T L d) (hi : i ≤ L)
    (h1 : ∀ t, T[i]? = some t → t.matchesKw k.str = true → i + 1 ≤ L → Q t (i + 1)) :
    bw T lo L d (expectKeyword k) i Q := by
  unfold expectKeyword
  exact bw_bind (bw_parseKeyword E hi (fun _ => bw_panic) (fun t a b c => bw_ret (h1 t a b c)) (fun _ _ _ => bw_panic))

theorem bw_consumeToken {k : Sym} {Q : Bool → Nat → Prop} (E : Rim T L d) (hk : k ≠ .Semicolon) (hi : i ≤ L)
    (h1 : ∀ t, T[i]? = some t → t.isSym k = true → i + 1 ≤ L → Q true (i + 1)) (h2 : Q false i) :
    bw T lo L d (consumeToken k) i Q := by
  unfold consumeToken
  refine bw_bind (bw_peekToken E hi ?_ ?_ (fun _ => bw_ret h2))
  · intro t ht hlt
    simp only
    split
    · refine bw_bind (bw_nextOrErr E hi ?_ ?_)
      · intro t' ht' _
        exact bw_ret (h1 t ht ‹_› hlt)
      · intro s f g _ _; omega
    · exact bw_ret h2
  · intro s f g ht _
    simp only
    rw [if_neg (by simp [Token.isSym, Ne.symm hk])]
    exact bw_ret h2

theorem bw_expectToken {k : Sym} {Q : Unit → Nat → Prop} (E : Rim T L d) (hk : k ≠ .Semicolon) (hi : i ≤ L)
    (h1 : ∀ t, T[i]? = some t → t.isSym k = true → i + 1 ≤ L → Q () (i + 1)) :
    bw T lo L d (expectToken k) i Q := by
  unfold expectToken
  exact bw_bind (bw_consumeToken E hk hi (fun t ht hs hl => bw_ret (h1 t ht hs hl)) bw_panic)

theorem bw_nextSym {k : Sym} {Q : Token → Nat → Prop} (E : Rim T L d) (hk : k ≠ .Semicolon) (hi : i ≤ L)
    (h1 : ∀ t, T[i]? = some t → t.isSym k = true → i + 1 ≤ L → Q t (i + 1)) :
    bw T lo L d (nextSym k) i Q := by
  unfold nextSym
  refine bw_bind (bw_mustNext E hi ?_ ?_)
  · intro t ht hlt
    split
    · exact bw_ret (h1 t ht ‹_› hlt)
    · exact bw_err
  · intro s f g ht _
    rw [if_neg (by simp [Token.isSym, Ne.symm hk])]
    exact bw_err

end Verif
