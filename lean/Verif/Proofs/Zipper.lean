import Verif.Model.Parser
/-
A second semantics of parser programs, on the significant tokens only: the tokens already read (latest
first) and the tokens still to come.  `run_view` relates it to the semantics on the token slice, in both
comment modes.
-/
set_option linter.unusedSimpArgs false
namespace Verif

/-- The keywords `ks` at the beginning of the remaining tokens. -/
def takeKws : List Str → List Token → Option (List Token × List Token)
  | [], s => some ([], s)
  | _ :: _, [] => none
  | k :: ks, t :: s => if t.matchesKw k then (takeKws ks s).map fun r => (t :: r.1, r.2) else none

/-- Execution on significant tokens. -/
def P.runZ : P α → List Token → List Token → Res (List Token × List Token) α
  | .ret a, b, s => .ok a (b, s)
  | .next k, b, [] => (k none).runZ b []
  | .next k, b, t :: s => (k (some t)).runZ (t :: b) s
  | .peek k, b, s => (k s.head?).runZ b s
  | .prev _, [], _ => .panic
  | .prev k, t :: b, s => k.runZ b (t :: s)
  | .kws ks k, b, s =>
    match takeKws ks s with
    | some (ts, s') => (k (some ts)).runZ (ts.reverse ++ b) s'
    | none => (k none).runZ b s
  | .err, _, _ => .err
  | .panic, _, _ => .panic
  | .oof, _, _ => .oof

/-- Change the final state. -/
def Res.mapState (f : σ → τ) : Res σ α → Res τ α
  | .ok a s => .ok a (f s)
  | .err => .err
  | .panic => .panic
  | .oof => .oof

/-- The significant tokens before and after the index. -/
def PState.before (s : PState) : List Token := ((s.toks.take s.idx).filter Token.sig).reverse
def PState.after (s : PState) : List Token := (s.toks.drop s.idx).filter Token.sig
def PState.view (s : PState) : List Token × List Token := (s.before, s.after)

theorem nextLoop_spec : ∀ (ts : List Token) (i : Nat),
    (nextLoop ts i = (none, i + ts.length) ∧ ∀ t ∈ ts, t.sig = false) ∨
    ∃ pre t post, ts = pre ++ t :: post ∧ (∀ x ∈ pre, x.sig = false) ∧ t.sig = true ∧
      nextLoop ts i = (some t, i + pre.length + 1)
  | [], i => by simp [nextLoop]
  | t :: ts, i => by
    by_cases h : t.sig = true
    · exact .inr ⟨[], t, ts, rfl, by simp, h, by simp [nextLoop, h]⟩
    · rcases nextLoop_spec ts (i + 1) with ⟨h1, h2⟩ | ⟨pre, t', post, h1, h2, h3, h4⟩
      · refine .inl ⟨by simp [nextLoop, h, h1]; omega, ?_⟩
        intro x hx
        rcases List.mem_cons.1 hx with rfl | hx
        · simpa using h
        · exact h2 x hx
      · refine .inr ⟨t :: pre, t', post, by simp [h1], ?_, h3, ?_⟩
        · intro x hx
          rcases List.mem_cons.1 hx with rfl | hx
          · simpa using h
          · exact h2 x hx
        · simp [nextLoop, h, h4]; omega

/-- Reading with comments moves the cursor as reading without. -/
theorem commentLoop_nextLoop (cm : List (Pos × CommentGroup)) : ∀ (ts before : List Token) (i : Nat)
    (skip : Bool) (groups : List CommentGroup) (m : List Comment),
    ((commentLoop cm ts before i skip groups m).1, (commentLoop cm ts before i skip groups m).2.1) =
      nextLoop ts i
  | [], _, i, _, _, _ => by simp [commentLoop, nextLoop]
  | t :: ts, before, i, skip, groups, m => by
    have ih := commentLoop_nextLoop cm ts
    unfold commentLoop
    split
    · rename_i s hs
      have h : t.sig = false := by simp [Token.sig, hs, Tok.insignificant]
      simp only [nextLoop, h, Bool.false_eq_true, if_false]
      split
      · exact ih ..
      · split <;> exact ih ..
    · rename_i s hs
      have h : t.sig = false := by simp [Token.sig, hs, Tok.insignificant]
      simp only [nextLoop, h, Bool.false_eq_true, if_false]
      split
      · exact ih ..
      · split <;> exact ih ..
    · rename_i h1 h2
      have h : t.sig = true := by
        cases t with | mk tok f t' =>
        cases tok <;> simp_all [Token.sig, Tok.insignificant]
      simp [nextLoop, h]

theorem next_toks (mode : Bool) (s : PState) : (s.next mode).2.toks = s.toks := by
  unfold PState.next; split <;> rfl

theorem next_cursor (mode : Bool) (s : PState) :
    ((s.next mode).1, (s.next mode).2.idx) = nextLoop (s.toks.drop s.idx) s.idx := by
  unfold PState.next
  split
  · exact commentLoop_nextLoop ..
  · rfl

theorem filter_nil_of {l : List Token} (h : ∀ t ∈ l, t.sig = false) : l.filter Token.sig = [] := by
  rw [List.filter_eq_nil_iff]
  intro t ht
  simp [h t ht]

/-- What `nextToken` returns and where it leaves the cursor. -/
theorem next_view (mode : Bool) (s : PState) :
    (s.after = [] ∧ (s.next mode).1 = none ∧ (s.next mode).2.before = s.before ∧
      (s.next mode).2.after = []) ∨
    ∃ t rest, s.after = t :: rest ∧ (s.next mode).1 = some t ∧ (s.next mode).2.before = t :: s.before ∧
      (s.next mode).2.after = rest := by
  have hc := next_cursor mode s
  have ht := next_toks mode s
  have hsplit : s.toks = s.toks.take s.idx ++ s.toks.drop s.idx := (List.take_append_drop ..).symm
  rcases nextLoop_spec (s.toks.drop s.idx) s.idx with ⟨h1, h2⟩ | ⟨pre, t, post, h1, h2, h3, h4⟩
  · rw [h1] at hc
    obtain ⟨hc1, hc2⟩ := Prod.mk.inj hc
    refine .inl ⟨filter_nil_of h2, hc1, ?_, ?_⟩
    · unfold PState.before
      rw [ht, hc2]
      congr 1
      by_cases hl : s.idx ≤ s.toks.length
      · have : s.idx + (s.toks.drop s.idx).length = s.toks.length := by simp; omega
        rw [this, List.take_length]
        conv => lhs; rw [hsplit]
        rw [List.filter_append, filter_nil_of h2, List.append_nil]
      · have : s.idx + (s.toks.drop s.idx).length = s.idx := by simp; omega
        rw [this]
    · unfold PState.after
      rw [ht, hc2]
      rw [List.drop_eq_nil_of_le]
      · rfl
      · simp; omega
  · rw [h4] at hc
    obtain ⟨hc1, hc2⟩ := Prod.mk.inj hc
    have hl : s.idx < s.toks.length := by
      have := congrArg List.length h1
      simp at this
      omega
    have hlen : (s.toks.take s.idx).length = s.idx := by simp; omega
    refine .inr ⟨t, post.filter Token.sig, ?_, hc1, ?_, ?_⟩
    · unfold PState.after
      rw [h1, List.filter_append, filter_nil_of h2]
      simp [h3]
    · unfold PState.before
      rw [ht, hc2]
      have : s.toks.take (s.idx + pre.length + 1) = s.toks.take s.idx ++ (pre ++ [t]) := by
        conv => lhs; rw [hsplit, h1]
        rw [show s.idx + pre.length + 1 = (s.toks.take s.idx).length + (pre ++ [t]).length by
          rw [hlen]; simp; omega]
        rw [show s.toks.take s.idx ++ (pre ++ t :: post) = s.toks.take s.idx ++ ((pre ++ [t]) ++ post) by simp]
        rw [List.take_length_add_append, List.take_left]
      rw [this]
      simp [List.filter_append, filter_nil_of h2, h3]
    · unfold PState.after
      rw [ht, hc2]
      congr 1
      rw [show s.idx + pre.length + 1 = s.idx + (pre.length + 1) by omega, ← List.drop_drop, h1]
      rw [show pre ++ t :: post = (pre ++ [t]) ++ post by simp]
      exact List.drop_left' (by simp)

theorem find_filter (l : List Token) : l.find? Token.sig = (l.filter Token.sig).head? := by
  induction l with
  | nil => rfl
  | cons t l ih =>
    rw [List.find?_cons, List.filter_cons]
    cases t.sig
    · simpa using ih
    · simp

theorem peek_view (s : PState) : s.peek = s.after.head? := find_filter _

theorem prevLoop_spec : ∀ (l : List Token) (i : Nat),
    (prevLoop l i = none ∧ ∀ t ∈ l, t.sig = false) ∨
    ∃ pre t post, l = pre ++ t :: post ∧ (∀ x ∈ pre, x.sig = false) ∧ t.sig = true ∧
      prevLoop l i = some (i - (pre.length + 1))
  | [], i => by simp [prevLoop]
  | t :: l, i => by
    by_cases h : t.sig = true
    · exact .inr ⟨[], t, l, rfl, by simp, h, by simp [prevLoop, h]⟩
    · rcases prevLoop_spec l (i - 1) with ⟨h1, h2⟩ | ⟨pre, t', post, h1, h2, h3, h4⟩
      · refine .inl ⟨by simp [prevLoop, h, h1], ?_⟩
        intro x hx
        rcases List.mem_cons.1 hx with rfl | hx
        · simpa using h
        · exact h2 x hx
      · refine .inr ⟨t :: pre, t', post, by simp [h1], ?_, h3, ?_⟩
        · intro x hx
          rcases List.mem_cons.1 hx with rfl | hx
          · simpa using h
          · exact h2 x hx
        · simp [prevLoop, h, h4]; omega

/-- Where `prevToken` leaves the cursor. -/
theorem prev_view (s : PState) (hl : s.idx ≤ s.toks.length) :
    (s.before = [] ∧ s.prev = none) ∨
    ∃ t rest s', s.before = t :: rest ∧ s.prev = some s' ∧ s'.before = rest ∧ s'.after = t :: s.after ∧
      s'.idx < s.idx ∧ s'.toks = s.toks ∧ s'.comments = s.comments ∧
      (s.toks[s'.idx]?.map Token.sig) = some true := by
  have hb : s.before = (s.toks.take s.idx).reverse.filter Token.sig := by
    simp [PState.before, List.filter_reverse]
  rcases prevLoop_spec (s.toks.take s.idx).reverse s.idx with ⟨h1, h2⟩ | ⟨pre, t, post, h1, h2, h3, h4⟩
  · refine .inl ⟨by rw [hb, filter_nil_of h2], by simp [PState.prev, h1]⟩
  · have h1' : s.toks.take s.idx = post.reverse ++ (t :: pre.reverse) := by
      have := congrArg List.reverse h1
      simpa using this
    have hlen : s.idx = post.length + 1 + pre.length := by
      have := congrArg List.length h1'
      simp at this
      omega
    have htoks : s.toks = post.reverse ++ (t :: pre.reverse ++ s.toks.drop s.idx) := by
      conv => lhs; rw [← List.take_append_drop s.idx s.toks, h1']
      simp
    have hi : s.idx - (pre.length + 1) = post.reverse.length := by simp; omega
    refine .inr ⟨t, post.filter Token.sig, { s with idx := s.idx - (pre.length + 1) }, ?_, ?_, ?_, ?_, ?_, rfl, rfl, ?_⟩
    · rw [hb, h1, List.filter_append, filter_nil_of h2]; simp [h3]
    · simp [PState.prev, h4]
    · show ((s.toks.take (s.idx - (pre.length + 1))).filter Token.sig).reverse = _
      rw [hi, htoks, List.take_left]
      simp [List.filter_reverse]
    · show (s.toks.drop (s.idx - (pre.length + 1))).filter Token.sig = _
      rw [hi]
      conv => lhs; rw [htoks]
      rw [List.drop_left]
      have : pre.reverse.filter Token.sig = [] := filter_nil_of (by simpa using h2)
      simp only [List.cons_append, List.filter_cons, h3, if_true, List.filter_append, this,
        List.nil_append]
      rfl
    · show s.idx - (pre.length + 1) < s.idx
      omega
    · show (s.toks[s.idx - (pre.length + 1)]?.map Token.sig) = _
      rw [hi, htoks, List.getElem?_append_right (by simp)]
      simp [h3]

theorem next_idx_le (mode : Bool) (s : PState) (hl : s.idx ≤ s.toks.length) :
    (s.next mode).2.idx ≤ (s.next mode).2.toks.length := by
  have hc := next_cursor mode s
  rw [next_toks]
  rcases nextLoop_spec (s.toks.drop s.idx) s.idx with ⟨h1, h2⟩ | ⟨pre, t, post, h1, h2, h3, h4⟩
  · rw [h1] at hc
    rw [(Prod.mk.inj hc).2]; simp; omega
  · rw [h4] at hc
    rw [(Prod.mk.inj hc).2]
    have := congrArg List.length h1
    simp at this
    omega

theorem keywords_view (mode : Bool) : ∀ (ks : List Str) (s : PState) (acc : List Token),
    s.idx ≤ s.toks.length →
    (PState.keywords mode ks s acc).2.toks = s.toks ∧
    (PState.keywords mode ks s acc).2.idx ≤ s.toks.length ∧
    match takeKws ks s.after with
    | none => (PState.keywords mode ks s acc).1 = none
    | some (ts, rest) => (PState.keywords mode ks s acc).1 = some (acc.reverse ++ ts) ∧
        (PState.keywords mode ks s acc).2.before = ts.reverse ++ s.before ∧
        (PState.keywords mode ks s acc).2.after = rest
  | [], s, acc, hl => by simp [PState.keywords, takeKws, hl]
  | k :: ks, s, acc, hl => by
    unfold PState.keywords
    rw [peek_view]
    rcases next_view mode s with ⟨h1, -, -, -⟩ | ⟨t, rest, h1, h2, h3, h4⟩
    · simp [h1, takeKws, hl]
    · simp only [h1, List.head?_cons]
      by_cases hm : t.matchesKw k = true
      · have hl' := next_idx_le mode s hl
        have ih := keywords_view mode ks (s.next mode).2 (t :: acc) hl'
        rw [next_toks] at ih
        simp only [hm, if_true, takeKws]
        refine ⟨ih.1, ih.2.1, ?_⟩
        have ih2 := ih.2.2
        rw [h4] at ih2
        cases htk : takeKws ks rest with
        | none =>
          rw [htk] at ih2
          simpa using ih2
        | some r =>
          rw [htk] at ih2
          simp only [Option.map_some] at ih2 ⊢
          rw [h3] at ih2
          simpa using ih2
      · simp [hm, takeKws, hl]

theorem kws_view (mode : Bool) (ks : List Str) (s : PState) (hl : s.idx ≤ s.toks.length) :
    (s.kws mode ks).2.toks = s.toks ∧ (s.kws mode ks).2.idx ≤ s.toks.length ∧
    match takeKws ks s.after with
    | none => (s.kws mode ks).1 = none ∧ (s.kws mode ks).2.before = s.before ∧
        (s.kws mode ks).2.after = s.after
    | some (ts, rest) => (s.kws mode ks).1 = some ts ∧
        (s.kws mode ks).2.before = ts.reverse ++ s.before ∧ (s.kws mode ks).2.after = rest := by
  have h := keywords_view mode ks s [] hl
  unfold PState.kws
  cases htk : takeKws ks s.after with
  | none =>
    rw [htk] at h
    obtain ⟨h1, h2, h3⟩ := h
    rcases hk : PState.keywords mode ks s [] with ⟨r, s'⟩
    rw [hk] at h1 h2 h3
    simp only at h1 h2 h3
    subst h3
    simp [h1, hl, PState.before, PState.after]
  | some r =>
    rw [htk] at h
    obtain ⟨h1, h2, h3⟩ := h
    rcases hk : PState.keywords mode ks s [] with ⟨r', s'⟩
    rw [hk] at h1 h2 h3
    simp only [List.reverse_nil, List.nil_append] at h1 h2 h3
    obtain ⟨rfl, h4, h5⟩ := h3
    simp [h1, h2, h4, h5]

/-- The two semantics agree. -/
theorem run_view (mode : Bool) : ∀ (p : P α) (s : PState), s.idx ≤ s.toks.length →
    (p.run mode s).mapState PState.view = p.runZ s.before s.after
  | .ret a, s, _ => rfl
  | .err, _, _ => by simp [P.run, P.runZ, Res.mapState]
  | .panic, _, _ => by simp [P.run, P.runZ, Res.mapState]
  | .oof, _, _ => by simp [P.run, P.runZ, Res.mapState]
  | .next k, s, hl => by
    unfold P.run
    rw [run_view mode (k (s.next mode).1) _ (next_idx_le mode s hl)]
    rcases next_view mode s with ⟨h1, h2, h3, h4⟩ | ⟨t, rest, h1, h2, h3, h4⟩
    · rw [h2, h3, h4, h1, P.runZ]
    · rw [h2, h3, h4, h1, P.runZ]
  | .peek k, s, hl => by
    unfold P.run
    rw [run_view mode (k s.peek) s hl, peek_view, P.runZ]
  | .prev k, s, hl => by
    unfold P.run
    rcases prev_view s hl with ⟨h1, h2⟩ | ⟨t, rest, s', h1, h2, h3, h4, h5, h6, -, -⟩
    · simp [h1, h2, P.runZ, Res.mapState]
    · simp only [h2, h1, P.runZ]
      rw [run_view mode k s' (by rw [h6]; omega), h3, h4]
  | .kws ks k, s, hl => by
    unfold P.run
    have h := kws_view mode ks s hl
    rw [run_view mode (k (s.kws mode ks).1) _ (by rw [h.1]; exact h.2.1)]
    rw [P.runZ]
    cases htk : takeKws ks s.after with
    | none =>
      rw [htk] at h
      obtain ⟨-, -, h3, h4, h5⟩ := h
      rw [h3, h4, h5]
    | some r =>
      rw [htk] at h
      obtain ⟨-, -, h3, h4, h5⟩ := h
      rw [h3, h4, h5]

/-! ### Composition -/

theorem P.bind_eq (p : P α) (f : α → P β) : (p >>= f) = p.bind f := rfl
theorem P.pure_eq (a : α) : (pure a : P α) = .ret a := rfl

theorem runZ_bind : ∀ (p : P α) (f : α → P β) (b s : List Token),
    (p.bind f).runZ b s =
      match p.runZ b s with
      | .ok a (b', s') => (f a).runZ b' s'
      | .err => .err
      | .panic => .panic
      | .oof => .oof
  | .ret a, f, b, s => by simp [P.bind, P.runZ]
  | .err, _, _, _ => by simp [P.bind, P.runZ]
  | .panic, _, _, _ => by simp [P.bind, P.runZ]
  | .oof, _, _, _ => by simp [P.bind, P.runZ]
  | .next k, f, b, [] => by simp only [P.bind, P.runZ]; exact runZ_bind (k none) f b []
  | .next k, f, b, t :: s => by simp only [P.bind, P.runZ]; exact runZ_bind (k (some t)) f (t :: b) s
  | .peek k, f, b, s => by simp only [P.bind, P.runZ]; exact runZ_bind (k s.head?) f b s
  | .prev k, f, [], s => by simp [P.bind, P.runZ]
  | .prev k, f, t :: b, s => by simp only [P.bind, P.runZ]; exact runZ_bind k f b (t :: s)
  | .kws ks k, f, b, s => by
    simp only [P.bind, P.runZ]
    cases takeKws ks s with
    | none => exact runZ_bind (k none) f b s
    | some r => exact runZ_bind (k (some r.1)) f (r.1.reverse ++ b) r.2

end Verif
