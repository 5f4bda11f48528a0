import Verif.Proofs.Wp
import Verif.Spec.Cost
/-
The number of cursor operations of a program, on the significant tokens with an index, and rules to bound it:
`wpc T B p i c Q` says that `p`, started at index `i` of `T` after `c` operations, reaches no more than `B`
operations if it fails, and that `Q` holds of its result, its final index and the number of operations so far
if it succeeds.
-/
set_option linter.unusedVariables false
namespace Verif

/-- `P.ops` on significant tokens with an index. -/
def P.opsI (T : List Token) : P α → Nat → Nat
  | .ret _, _ => 0
  | .next k, i =>
    match T[i]? with
    | some t => 1 + (k (some t)).opsI T (i + 1)
    | none => 1 + (k none).opsI T i
  | .peek k, i => 1 + (k T[i]?).opsI T i
  | .prev k, i => if i = 0 then 1 else 1 + k.opsI T (i - 1)
  | .kws ks k, i =>
    match takeKws ks (T.drop i) with
    | some (ts, _) => (2 * ks.length + 1) + (k (some ts)).opsI T (i + ts.length)
    | none => (2 * ks.length + 1) + (k none).opsI T i
  | .err, _ => 0
  | .panic, _ => 0
  | .oof, _ => 0

/-- `P.ops` on significant tokens before and after the cursor. -/
def P.opsZ : P α → List Token → List Token → Nat
  | .ret _, _, _ => 0
  | .next k, b, t :: a => 1 + (k (some t)).opsZ (t :: b) a
  | .next k, b, [] => 1 + (k none).opsZ b []
  | .peek k, b, a => 1 + (k a.head?).opsZ b a
  | .prev k, t :: b, a => 1 + k.opsZ b (t :: a)
  | .prev _, [], _ => 1
  | .kws ks k, b, a =>
    match takeKws ks a with
    | some (ts, a') => (2 * ks.length + 1) + (k (some ts)).opsZ (ts.reverse ++ b) a'
    | none => (2 * ks.length + 1) + (k none).opsZ b a
  | .err, _, _ => 0
  | .panic, _, _ => 0
  | .oof, _, _ => 0

theorem ops_view (mode : Bool) : ∀ (p : P α) (s : PState), s.idx ≤ s.toks.length →
    p.ops mode s = p.opsZ s.before s.after
  | .ret a, s, _ => rfl
  | .err, _, _ => rfl
  | .panic, _, _ => rfl
  | .oof, _, _ => rfl
  | .next k, s, hl => by
    unfold P.ops
    rw [ops_view mode (k (s.next mode).1) _ (next_idx_le mode s hl)]
    rcases next_view mode s with ⟨h1, h2, h3, h4⟩ | ⟨t, rest, h1, h2, h3, h4⟩
    · rw [h2, h3, h4, h1, P.opsZ]
    · rw [h2, h3, h4, h1, P.opsZ]
  | .peek k, s, hl => by
    unfold P.ops
    rw [ops_view mode (k s.peek) s hl, peek_view, P.opsZ]
  | .prev k, s, hl => by
    unfold P.ops
    rcases prev_view s hl with ⟨h1, h2⟩ | ⟨t, rest, s', h1, h2, h3, h4, h5, h6, -, -⟩
    · simp [h1, h2, P.opsZ]
    · simp only [h2, h1, P.opsZ]
      rw [ops_view mode k s' (by rw [h6]; omega), h3, h4]
  | .kws ks k, s, hl => by
    unfold P.ops
    have h := kws_view mode ks s hl
    rw [ops_view mode (k (s.kws mode ks).1) _ (by rw [h.1]; exact h.2.1)]
    rw [P.opsZ]
    cases htk : takeKws ks s.after with
    | none =>
      rw [htk] at h
      obtain ⟨-, -, h3, h4, h5⟩ := h
      rw [h3, h4, h5]
    | some r =>
      rw [htk] at h
      obtain ⟨-, -, h3, h4, h5⟩ := h
      rw [h3, h4, h5]

theorem opsZ_opsI (T : List Token) : ∀ (p : P α) (i : Nat), i ≤ T.length →
    p.opsZ (T.take i).reverse (T.drop i) = p.opsI T i
  | .ret a, i, hi => rfl
  | .err, _, _ => rfl
  | .panic, _, _ => rfl
  | .oof, _, _ => rfl
  | .next k, i, hi => by
    rcases Nat.lt_or_ge i T.length with h | h
    · have ht : T.take (i + 1) = T.take i ++ [T[i]] := by rw [List.take_add_one]; simp [h]
      have ht' : (T.take (i + 1)).reverse = T[i] :: (T.take i).reverse := by rw [ht]; simp
      have := opsZ_opsI T (k (some T[i])) (i + 1) h
      rw [ht'] at this
      rw [List.drop_eq_getElem_cons h]
      simp only [P.opsZ, P.opsI, List.getElem?_eq_getElem h]
      rw [this]
    · have hd : T.drop i = [] := List.drop_eq_nil_of_le h
      have := opsZ_opsI T (k none) i hi
      rw [hd] at this
      rw [hd]
      simp only [P.opsZ, P.opsI, List.getElem?_eq_none h]
      rw [this]
  | .peek k, i, hi => by
    simp only [P.opsZ, P.opsI, List.head?_drop]
    rw [opsZ_opsI T _ i hi]
  | .prev k, i, hi => by
    cases i with
    | zero => simp [P.opsZ, P.opsI]
    | succ i =>
      have h : i < T.length := hi
      have ht : T.take (i + 1) = T.take i ++ [T[i]] := by rw [List.take_add_one]; simp [h]
      have := opsZ_opsI T k i (by omega)
      rw [List.drop_eq_getElem_cons h] at this
      rw [ht]
      simp only [List.reverse_append, List.reverse_cons, List.reverse_nil, List.nil_append,
        List.singleton_append, P.opsZ, P.opsI]
      simpa using this
  | .kws ks k, i, hi => by
    simp only [P.opsZ, P.opsI]
    cases htk : takeKws ks (T.drop i) with
    | none => simp only; rw [opsZ_opsI T _ i hi]
    | some r =>
      obtain ⟨ts, s'⟩ := r
      have h := (takeKws_append htk).1
      have hl := congrArg List.length h
      simp at hl
      have h1 : T.drop (i + ts.length) = s' := by
        rw [← List.drop_drop, h]; simp
      have h2 : T.take (i + ts.length) = T.take i ++ ts := by
        rw [List.take_add, h]; simp
      have := opsZ_opsI T (k (some ts)) (i + ts.length) (by omega)
      rw [h1, h2] at this
      simp only [List.reverse_append] at this
      simp only [this]

def wpc (T : List Token) (B : Nat) (p : P α) (i c : Nat) (Q : α → Nat → Nat → Prop) : Prop :=
  match p.runI T i with
  | .ok x j => Q x j (c + p.opsI T i)
  | _ => c + p.opsI T i ≤ B

variable {T : List Token} {B i c : Nat} {α β γ : Type}

theorem opsI_bind (T : List Token) : ∀ (p : P α) (f : α → P β) (i : Nat),
    (p.bind f).opsI T i = p.opsI T i +
      match p.runI T i with
      | .ok a j => (f a).opsI T j
      | _ => 0
  | .ret a, f, i => by simp [P.bind, P.runI, P.opsI]
  | .err, _, _ => by simp [P.bind, P.runI, P.opsI]
  | .panic, _, _ => by simp [P.bind, P.runI, P.opsI]
  | .oof, _, _ => by simp [P.bind, P.runI, P.opsI]
  | .next k, f, i => by
    simp only [P.bind, P.runI, P.opsI]
    cases T[i]? with
    | none => simp only; rw [opsI_bind T _ f _]; omega
    | some t => simp only; rw [opsI_bind T _ f _]; omega
  | .peek k, f, i => by simp only [P.bind, P.runI, P.opsI]; rw [opsI_bind T _ f _]; omega
  | .prev k, f, i => by
    simp only [P.bind, P.runI, P.opsI]
    split
    · rfl
    · rw [opsI_bind T _ f _]; omega
  | .kws ks k, f, i => by
    simp only [P.bind, P.runI, P.opsI]
    cases takeKws ks (T.drop i) with
    | none => simp only; rw [opsI_bind T _ f _]; omega
    | some r => simp only; rw [opsI_bind T _ f _]; omega

theorem wpc_mono {p : P α} {Q Q' : α → Nat → Nat → Prop} (h : wpc T B p i c Q)
    (hq : ∀ x j d, Q x j d → Q' x j d) : wpc T B p i c Q' := by
  unfold wpc at h ⊢
  cases hp : p.runI T i with
  | ok x j => rw [hp] at h; exact hq x j _ h
  | err => rw [hp] at h; exact h
  | panic => rw [hp] at h; exact h
  | oof => rw [hp] at h; exact h

theorem wpc_bind {p : P α} {f : α → P β} {Q : β → Nat → Nat → Prop}
    (h : wpc T B p i c fun x j d => wpc T B (f x) j d Q) : wpc T B (p >>= f) i c Q := by
  unfold wpc at h ⊢
  rw [P.bind_eq, runI_bind, opsI_bind]
  cases hp : p.runI T i with
  | ok x j => rw [hp] at h; simp only [← Nat.add_assoc]; exact h
  | err => rw [hp] at h; exact h
  | panic => rw [hp] at h; exact h
  | oof => rw [hp] at h; exact h

/-- An optional clause: forget everything but the progress and the cost. -/
theorem wpc_cut {p : P γ} {g : γ → P α} {f : α → P β} {Q : β → Nat → Nat → Prop}
    (h1 : wpc T B (p >>= g) i c fun _ j d => i ≤ j ∧ j ≤ T.length ∧ d + 200 * i ≤ c + 200 * j + 14)
    (h2 : ∀ x j d, i ≤ j → j ≤ T.length → d + 200 * i ≤ c + 200 * j + 14 → wpc T B (f x) j d Q) :
    wpc T B (p >>= g >>= f) i c Q :=
  wpc_bind (wpc_mono h1 fun x j d h => h2 x j d h.1 h.2.1 h.2.2)

theorem wpc_and {p : P α} {Q : α → Nat → Nat → Prop} {Q' : α → Nat → Prop} (h : wpc T B p i c Q)
    (h' : ∀ x j, p.runI T i = .ok x j → Q' x j) : wpc T B p i c fun x j d => Q x j d ∧ Q' x j := by
  unfold wpc at h ⊢
  cases hp : p.runI T i with
  | ok x j => rw [hp] at h; exact ⟨h, h' x j hp⟩
  | err => rw [hp] at h; exact h
  | panic => rw [hp] at h; exact h
  | oof => rw [hp] at h; exact h

theorem wpc_ret {a : α} {Q : α → Nat → Nat → Prop} (h : Q a i c) : wpc T B (pure a) i c Q := h
theorem wpc_err {Q : α → Nat → Nat → Prop} (h : c ≤ B) : wpc T B .err i c Q := h
theorem wpc_panic {Q : α → Nat → Nat → Prop} (h : c ≤ B) : wpc T B .panic i c Q := h
theorem wpc_oof {Q : α → Nat → Nat → Prop} (h : c ≤ B) : wpc T B .oof i c Q := h

theorem wpc_nextToken {Q : Option Token → Nat → Nat → Prop}
    (h1 : ∀ t, T[i]? = some t → i < T.length → Q (some t) (i + 1) (c + 1)) (h2 : T.length ≤ i → Q none i (c + 1)) :
    wpc T B nextToken i c Q := by
  simp only [wpc, nextToken, P.runI, P.opsI]
  cases ht : T[i]? with
  | none => exact h2 (List.getElem?_eq_none_iff.1 ht)
  | some t => exact h1 t ht (List.getElem?_eq_some_iff.1 ht).1

theorem wpc_peekToken {Q : Option Token → Nat → Nat → Prop}
    (h1 : ∀ t, T[i]? = some t → i < T.length → Q (some t) i (c + 1)) (h2 : T.length ≤ i → Q none i (c + 1)) :
    wpc T B peekToken i c Q := by
  simp only [wpc, peekToken, P.runI, P.opsI]
  cases ht : T[i]? with
  | none => exact h2 (List.getElem?_eq_none_iff.1 ht)
  | some t => exact h1 t ht (List.getElem?_eq_some_iff.1 ht).1

theorem wpc_prevToken {Q : Unit → Nat → Nat → Prop} (h0 : c + 1 ≤ B) (h : ∀ j, i = j + 1 → Q () j (c + 1)) :
    wpc T B prevToken i c Q := by
  simp only [wpc, prevToken, P.runI, P.opsI]
  cases i with
  | zero => exact h0
  | succ i => exact h i rfl

theorem wpc_parseKeywords {k : KW} {ks : List KW} {Q : Option (List Token) → Nat → Nat → Prop}
    (hb : ks.length ≤ 3) (h1 : ∀ ts j d, i + 1 ≤ j → j ≤ T.length → d ≤ c + 9 → Q (some ts) j d)
    (h2 : ∀ d, d ≤ c + 9 → Q none i d) :
    wpc T B (parseKeywords (k :: ks)) i c Q := by
  simp only [wpc, parseKeywords, P.runI, P.opsI, List.length_map, List.length_cons]
  cases htk : takeKws ((k :: ks).map KW.str) (T.drop i) with
  | none => exact h2 _ (by simp only; omega)
  | some r =>
    obtain ⟨ts, s'⟩ := r
    obtain ⟨h, hl⟩ := takeKws_append htk
    have hl' := congrArg List.length h
    simp at hl hl'
    exact h1 ts _ _ (by omega) (by omega) (by simp only; omega)

theorem wpc_nextOrErr {Q : Token → Nat → Nat → Prop} (h0 : c + 1 ≤ B)
    (h1 : ∀ t, T[i]? = some t → i < T.length → Q t (i + 1) (c + 1)) : wpc T B nextOrErr i c Q := by
  simp only [wpc, nextOrErr, P.runI, P.opsI]
  cases ht : T[i]? with
  | none => exact h0
  | some t => exact h1 t ht (List.getElem?_eq_some_iff.1 ht).1

theorem wpc_mustNext {Q : Token → Nat → Nat → Prop} (h0 : c + 1 ≤ B)
    (h1 : ∀ t, T[i]? = some t → i < T.length → Q t (i + 1) (c + 1)) : wpc T B mustNext i c Q := by
  simp only [wpc, mustNext, P.runI, P.opsI]
  cases ht : T[i]? with
  | none => exact h0
  | some t => exact h1 t ht (List.getElem?_eq_some_iff.1 ht).1

theorem wpc_mustPeek {Q : Token → Nat → Nat → Prop} (h0 : c + 1 ≤ B)
    (h1 : ∀ t, T[i]? = some t → i < T.length → Q t i (c + 1)) : wpc T B mustPeek i c Q := by
  simp only [wpc, mustPeek, P.runI, P.opsI]
  cases ht : T[i]? with
  | none => exact h0
  | some t => exact h1 t ht (List.getElem?_eq_some_iff.1 ht).1

theorem wpc_parseKeyword {k : KW} {Q : KwRes → Nat → Nat → Prop} (hb : c + 2 ≤ B)
    (h0 : T.length ≤ i → Q .eof i (c + 1))
    (h1 : ∀ t, T[i]? = some t → t.matchesKw k.str = true → i < T.length → Q (.yes t) (i + 1) (c + 2))
    (h2 : ∀ t, T[i]? = some t → t.matchesKw k.str = false → i < T.length → Q (.no t) i (c + 1)) :
    wpc T B (parseKeyword k) i c Q := by
  unfold parseKeyword
  refine wpc_bind (wpc_peekToken ?_ h0)
  intro t ht hi
  simp only
  split
  · refine wpc_bind (wpc_mustNext hb ?_)
    intro t' ht' _
    exact h1 t ht ‹_› hi
  · rename_i hm; exact h2 t ht (by simpa using hm) hi

theorem wpc_kw {k : KW} {Q : Bool → Nat → Nat → Prop} (hb : c + 2 ≤ B)
    (h1 : ∀ t, T[i]? = some t → t.matchesKw k.str = true → i < T.length → Q true (i + 1) (c + 2))
    (h2 : (∀ t, T[i]? = some t → t.matchesKw k.str = false) → Q false i (c + 1)) :
    wpc T B (kw k) i c Q := by
  unfold kw
  refine wpc_bind (wpc_parseKeyword hb ?_ ?_ ?_)
  · intro hi; exact h2 (by intro t ht; rw [List.getElem?_eq_none hi] at ht; simp at ht)
  · exact h1
  · intro t ht hm _; exact h2 (by intro t' ht'; rw [ht] at ht'; cases ht'; exact hm)

theorem wpc_kwTok {k : KW} {Q : Option Token → Nat → Nat → Prop} (hb : c + 2 ≤ B)
    (h1 : ∀ t, T[i]? = some t → t.matchesKw k.str = true → i < T.length → Q (some t) (i + 1) (c + 2))
    (h2 : Q none i (c + 1)) : wpc T B (kwTok k) i c Q := by
  unfold kwTok
  exact wpc_bind (wpc_parseKeyword hb (fun _ => h2) h1 (fun _ _ _ _ => h2))

theorem wpc_kwOrErr {k : KW} {Q : Token → Nat → Nat → Prop} (hb : c + 2 ≤ B)
    (h1 : ∀ t, T[i]? = some t → t.matchesKw k.str = true → i < T.length → Q t (i + 1) (c + 2)) :
    wpc T B (kwOrErr k) i c Q := by
  unfold kwOrErr
  exact wpc_bind (wpc_parseKeyword hb (fun _ => wpc_err (by omega)) h1 (fun _ _ _ _ => wpc_err (by omega)))

theorem wpc_expectKeyword {k : KW} {Q : Token → Nat → Nat → Prop} (hb : c + 2 ≤ B)
    (h1 : ∀ t, T[i]? = some t → t.matchesKw k.str = true → i < T.length → Q t (i + 1) (c + 2)) :
    wpc T B (expectKeyword k) i c Q := by
  unfold expectKeyword
  exact wpc_bind (wpc_parseKeyword hb (fun _ => wpc_panic (by omega)) h1 (fun _ _ _ _ => wpc_panic (by omega)))

theorem wpc_consumeToken {k : Sym} {Q : Bool → Nat → Nat → Prop} (hb : c + 2 ≤ B)
    (h1 : ∀ t, T[i]? = some t → t.isSym k = true → i < T.length → Q true (i + 1) (c + 2))
    (h2 : Q false i (c + 1)) : wpc T B (consumeToken k) i c Q := by
  unfold consumeToken
  refine wpc_bind (wpc_peekToken ?_ (fun _ => h2))
  intro t ht hi
  simp only
  split
  · refine wpc_bind (wpc_nextOrErr hb ?_)
    intro t' ht' _
    exact h1 t ht ‹_› hi
  · exact h2

theorem wpc_expectToken {k : Sym} {Q : Unit → Nat → Nat → Prop} (hb : c + 2 ≤ B)
    (h1 : ∀ t, T[i]? = some t → t.isSym k = true → i < T.length → Q () (i + 1) (c + 2)) :
    wpc T B (expectToken k) i c Q := by
  unfold expectToken
  exact wpc_bind (wpc_consumeToken hb (fun t ht hs hi => h1 t ht hs hi) (wpc_panic (by omega)))

theorem wpc_nextSym {k : Sym} {Q : Token → Nat → Nat → Prop} (hb : c + 1 ≤ B)
    (h1 : ∀ t, T[i]? = some t → t.isSym k = true → i < T.length → Q t (i + 1) (c + 1)) :
    wpc T B (nextSym k) i c Q := by
  unfold nextSym
  refine wpc_bind (wpc_mustNext hb ?_)
  intro t ht hi
  split
  · exact h1 t ht ‹_› hi
  · exact wpc_err (by omega)

end Verif
