import Verif.Proofs.Attempt
import Verif.Props.Session
/-
Property theorem C79: a parser after a call that failed.
-/
set_option linter.unusedVariables false
namespace Verif

/-! ### Calls and attempted calls -/

theorem replyOr_attempt {α : Type} (p : P α) (f : α → Reply) (mode : Bool) (s : PState) :
    (∀ r s', (p.attempt.run mode s).replyOr f = .ok (some r) s' ↔ (p.run mode s).reply f = .ok r s') ∧
    ((∃ s', (p.attempt.run mode s).replyOr f = .ok none s') ↔ (p.run mode s).reply f = .err) ∧
    ((p.attempt.run mode s).replyOr f = .panic ↔ (p.run mode s).reply f = .panic) ∧
    ((p.attempt.run mode s).replyOr f = .oof ↔ (p.run mode s).reply f = .oof) ∧
    (p.attempt.run mode s).replyOr f ≠ .err := by
  obtain ⟨h1, h2, h3, h4⟩ := attempt_run mode p s
  cases hp : p.run mode s with
  | ok x s' => rw [h1 x s' hp]; simp [Res.replyOr, Res.reply]
  | err => obtain ⟨t, ht⟩ := h2 hp; rw [ht]; simp [Res.replyOr, Res.reply]
  | panic => rw [h3 hp]; simp [Res.replyOr, Res.reply]
  | oof => rw [h4 hp]; simp [Res.replyOr, Res.reply]

/-- An attempted call succeeds, fails, panics or does not end as the call does. -/
theorem C79_same (fns : FloatFns) (n : Nat) (mode : Bool) (c : Method) (s : PState) :
    (∀ r s', tryCall fns n mode c s = .ok (some r) s' ↔ call fns n mode c s = .ok r s') ∧
    ((∃ s', tryCall fns n mode c s = .ok none s') ↔ call fns n mode c s = .err) ∧
    (tryCall fns n mode c s = .panic ↔ call fns n mode c s = .panic) ∧
    (tryCall fns n mode c s = .oof ↔ call fns n mode c s = .oof) ∧
    tryCall fns n mode c s ≠ .err := by
  cases c with
  | sql => exact replyOr_attempt _ _ _ _
  | statement => exact replyOr_attempt _ _ _ _
  | expr => exact replyOr_attempt _ _ _ _
  | dataType => exact replyOr_attempt _ _ _ _
  | setTokens ts => simp [tryCall, call]
  | file =>
    obtain ⟨h1, h2, h3, h4⟩ := attempt_run mode (parseSQL mode (Parsers.at fns n) n) s
    simp only [tryCall, call, tryFile, parseFile]
    cases hp : (parseSQL mode (Parsers.at fns n) n).run mode s with
    | ok x s' => rw [h1 x s' hp]; simp [Res.reply]
    | err => obtain ⟨t, ht⟩ := h2 hp; rw [ht]; simp [Res.reply]
    | panic => rw [h3 hp]; simp [Res.reply]
    | oof => rw [h4 hp]; simp [Res.reply]

theorem replyOr_ok {α : Type} {f : α → Reply} {r : Res σ (Option α)} {y : Option Reply} {s : σ}
    (h : r.replyOr f = .ok y s) : ∃ x, r = .ok x s ∧ y = x.map f := by
  cases r with
  | ok x t => cases h; exact ⟨x, rfl, rfl⟩
  | err => cases h
  | panic => cases h
  | oof => cases h

theorem tryFile_ok {fns : FloatFns} {n : Nat} {mode : Bool} {s s' : PState} {r : Option Reply}
    (h : tryFile fns n mode s = .ok r s') :
    ∃ x, (parseSQL mode (Parsers.at fns n) n).attempt.run mode s = .ok x s' ∧
      r = x.map fun ss => .file ⟨ss, sortGroups (s'.comments.map Prod.snd)⟩ := by
  unfold tryFile at h
  split at h
  · rename_i hr; cases h; exact ⟨_, hr, rfl⟩
  · rename_i hr; cases h; exact ⟨_, hr, rfl⟩
  all_goals cases h

/-- An attempted call that reads is the attempt of a program that stays in front of the place where it began. -/
theorem tryCall_program {fns : FloatFns} {n : Nat} {mode : Bool} {c : Method} (hc : c.parses = true) {s s' : PState}
    {r : Option Reply} (h : tryCall fns n mode c s = .ok r s') :
    ∃ (α : Type) (p : P α) (x : Option α), p.within s.after 0 s.after.length false 0 ∧
      p.attempt.run mode s = .ok x s' := by
  have E : Rim s.after s.after.length false := ⟨Nat.le_refl _, fun _ => rfl, fun h => by cases h⟩
  have H := bar_at (lo := 0) fns E n
  have h0 := Nat.zero_le s.after.length
  cases c with
  | sql =>
    obtain ⟨x, h, -⟩ := replyOr_ok h
    exact ⟨_, _, x, (bar_parseSQLLoop E H mode n false 0 h0 (Nat.le_refl _)).1, h⟩
  | file =>
    obtain ⟨x, h, -⟩ := tryFile_ok h
    exact ⟨_, _, x, (bar_parseSQLLoop E H mode n false 0 h0 (Nat.le_refl _)).1, h⟩
  | statement =>
    obtain ⟨x, h, -⟩ := replyOr_ok h
    exact ⟨_, _, x, (H.statement 0 h0 (Nat.le_refl _)).1, h⟩
  | expr =>
    obtain ⟨x, h, -⟩ := replyOr_ok h
    exact ⟨_, _, x, (bar_parseExpr E H h0 (Nat.le_refl _)).1, h⟩
  | dataType =>
    obtain ⟨x, h, -⟩ := replyOr_ok h
    exact ⟨_, _, x, (bar_parseDataType E H h0 (Nat.le_refl _)).1, h⟩
  | setTokens ts => cases hc

theorem sessionE_cons {fns : FloatFns} {n : Nat} {mode : Bool} {c : Method} {cs : List Method} {s s' : PState}
    {rs : List (Option Reply)} (h : sessionE fns n mode (c :: cs) s = .ok rs s') :
    ∃ r rs' s1, rs = r :: rs' ∧ tryCall fns n mode c s = .ok r s1 ∧ sessionE fns n mode cs s1 = .ok rs' s' := by
  rw [sessionE] at h
  split at h
  · rename_i r s1 h1
    split at h
    · rename_i rs' s2 h2
      cases h
      exact ⟨r, rs', s1, rfl, h1, h2⟩
    all_goals cases h
  all_goals cases h

/-! ### Forward -/

/-- After any calls, failed or not, the tokens are the same, and what is left is the end of what was there before. -/
theorem C79_forward (fns : FloatFns) (n : Nat) (mode : Bool) : ∀ (cs : List Method) (s s' : PState)
    (rs : List (Option Reply)),
    (∀ c ∈ cs, c.parses = true) → s.idx ≤ s.toks.length → sessionE fns n mode cs s = .ok rs s' →
    s'.toks = s.toks ∧ s'.idx ≤ s.toks.length ∧
    ∃ used, s.after = used ++ s'.after ∧ s'.before = used.reverse ++ s.before
  | [], s, s', rs, _, hs, h => by
    cases h
    exact ⟨rfl, hs, [], rfl, rfl⟩
  | c :: cs, s, s', rs, hc, hs, h => by
    obtain ⟨r, rs', s1, -, h1, h2⟩ := sessionE_cons h
    obtain ⟨α, p, x, hw, hr⟩ := tryCall_program (hc c (by simp)) h1
    obtain ⟨a1, a2, u, a3, a4⟩ := forward_of_within hs (attempt_within hw) hr
    obtain ⟨b1, b2, v, b3, b4⟩ := C79_forward fns n mode cs s1 s' rs' (fun c hm => hc c (by simp [hm]))
      (by rw [a1]; exact a2) h2
    exact ⟨b1.trans a1, a1 ▸ b2, u ++ v, by rw [a3, b3, List.append_assoc], by rw [b4, a4]; simp⟩

/-- After any calls, failed or not, the next call answers as a fresh parser on some end of the tokens would. -/
theorem C79_fresh (fns : FloatFns) (n : Nat) (mode : Bool) (cs : List Method) (toks : List Token) (s : PState)
    (rs : List (Option Reply)) (hc : ∀ c ∈ cs, c.parses = true)
    (h : sessionE fns n mode cs (newParser toks) = .ok rs s) :
    ∃ rest, rest <:+ toks ∧
      ((Parsers.at fns n).statement.run mode s).outcome = runStatement fns n mode rest ∧
      ((parseExpr (Parsers.at fns n)).run mode s).outcome = runExpr fns n mode rest ∧
      ((parseDataType (Parsers.at fns n)).run mode s).outcome = runDataType fns n mode rest ∧
      ((parseSQL mode (Parsers.at fns n) n).run mode s).outcome = runSQL fns n mode rest := by
  obtain ⟨h1, h2, -⟩ := C79_forward fns n mode cs _ s rs hc (Nat.zero_le _) h
  have h1 : s.toks = toks := h1
  refine ⟨s.toks.drop s.idx, by rw [h1]; exact List.drop_suffix _ _, ?_⟩
  exact C62_context fns n mode s (by rw [h1]; exact h2)

/-- `ParseFile` returns all comments of the text, whatever calls have been made before and whether they failed. -/
theorem C79_comments (fns : FloatFns) (n : Nat) (cs : List Method) (toks : List Token) (s s' : PState)
    (rs : List (Option Reply)) (f : File) (hc : ∀ c ∈ cs, c.parses = true) (hs : Increasing toks)
    (h : sessionE fns n true cs (newParser toks) = .ok rs s) (hf : parseFile fns n true s = .ok f s') :
    f.comments.flatMap (·.list) = commentsOf toks := by
  have inv : ∀ (cs : List Method) (s s' : PState) (rs : List (Option Reply)) (hi : Nat), (∀ c ∈ cs, c.parses = true) →
      Sorted s.toks → CInv s hi → sessionE fns n true cs s = .ok rs s' → ∃ hi', CInv s' hi' ∧ s'.toks = s.toks := by
    intro cs
    induction cs with
    | nil => intro s s' rs hi _ _ hi h; cases h; exact ⟨_, hi, rfl⟩
    | cons c cs ih =>
      intro s s' rs hi hc hs hinv h
      obtain ⟨r, rs', s1, -, h1, h2⟩ := sessionE_cons h
      obtain ⟨α, p, x, -, hr⟩ := tryCall_program (hc c (by simp)) h1
      obtain ⟨hi1, -, i1, t1⟩ := run_inv p.attempt s hi hs hinv _ _ hr
      obtain ⟨hi2, i2, t2⟩ := ih s1 s' rs' hi1 (fun c hm => hc c (by simp [hm])) (by rw [t1]; exact hs) i1 h2
      exact ⟨hi2, i2, t2.trans t1⟩
  obtain ⟨hi, i1, t1⟩ := inv cs _ s rs 0 hc (by exact hs) (inv_init toks) h
  have t1 : s.toks = toks := t1
  exact file_comments hs t1 i1 hf

/-! ### Progress -/

theorem peek_after {s : PState} {t : Token} (h : s.peek = some t) : ∃ y, s.after = t :: y ∧ s.after[0]? = some t := by
  rw [peek_view] at h
  cases ha : s.after with
  | nil => rw [ha] at h; cases h
  | cons u y => rw [ha] at h; cases h; exact ⟨y, rfl, rfl⟩

theorem adv_state {α : Type} {p : P α} {mode : Bool} {s s' : PState} {x : Option α} (hs : s.idx ≤ s.toks.length)
    (hw : p.within s.after 0 s.after.length false 0) (ha : adv s.after 0 p 0) (h : p.attempt.run mode s = .ok x s') :
    s'.after.length < s.after.length ∨ s.after = [] := by
  obtain ⟨-, -, u, e, -⟩ := forward_of_within hs (attempt_within hw) h
  have hj : p.attempt.runI s.after 0 = .ok x u.length := by
    refine (runI_state (mode := mode) hs (attempt_within hw)).2 ⟨s', h, ?_, ?_⟩
    · rw [e]; simp
    · rw [e]; simp
  have := ha _ _ hj
  rw [e]
  simp
  omega

/-- Each call reads at least one token, even if it fails: unless the next word is written with a dotless i. -/
theorem C79_progress (fns : FloatFns) (n : Nat) (mode : Bool) (c : Method) (s s' : PState) (r : Option Reply) (t : Token)
    (hc : c.parses = true) (hs : s.idx ≤ s.toks.length) (ht : s.peek = some t)
    (hk : ∀ w, t.tok = .word w → w.keyword = upper w.value) (hi : ∀ w, t.tok = .word w → 'ı' ∉ w.value)
    (h : tryCall fns n mode c s = .ok r s') : s'.after.length < s.after.length := by
  obtain ⟨y, ha, h0⟩ := peek_after ht
  have hne : s.after ≠ [] := by rw [ha]; simp
  have hf : ∀ k, t.folds k := fun k h => kw_matches h hk hi
  have E : Rim s.after s.after.length false := ⟨Nat.le_refl _, fun _ => rfl, fun h => by cases h⟩
  have H := bar_at (lo := 0) fns E n
  have hl : 0 + 1 ≤ s.after.length := by rw [ha]; simp
  have hz := Nat.zero_le s.after.length
  have fin : ∀ {α : Type} {p : P α} {x : Option α}, p.within s.after 0 s.after.length false 0 → adv s.after 0 p 0 →
      p.attempt.run mode s = .ok x s' → s'.after.length < s.after.length :=
    fun hw ha hr => (adv_state hs hw ha hr).resolve_right hne
  cases c with
  | sql =>
    obtain ⟨x, h, -⟩ := replyOr_ok h
    exact fin (bar_parseSQLLoop E H mode n false 0 hz (Nat.le_refl _)).1 (adv_sql fns E h0 hl hk (hf _) mode n n) h
  | file =>
    obtain ⟨x, h, -⟩ := tryFile_ok h
    exact fin (bar_parseSQLLoop E H mode n false 0 hz (Nat.le_refl _)).1 (adv_sql fns E h0 hl hk (hf _) mode n n) h
  | statement =>
    obtain ⟨x, h, -⟩ := replyOr_ok h
    exact fin (H.statement 0 hz (Nat.le_refl _)).1 (adv_statement fns E h0 hl hk (hf _) n) h
  | expr =>
    obtain ⟨x, h, -⟩ := replyOr_ok h
    exact fin (bar_parseExpr E H hz (Nat.le_refl _)).1 (adv_subexpr fns E h0 hl hk (hf _) 0 n) h
  | dataType =>
    obtain ⟨x, h, -⟩ := replyOr_ok h
    exact fin (bar_parseDataType E H hz (Nat.le_refl _)).1 (adv_dataType fns E h0 hl n) h
  | setTokens ts => cases hc

/-- `ParseStatement` reads nothing in exactly one case: the next word counts as INSERT when it is upper-cased, but
`parseKeyword` does not accept it.  Then it fails, and it fails again each time it is called. -/
theorem C79_statement_stuck (fns : FloatFns) (n : Nat) (mode : Bool) (s : PState) (t : Token)
    (hs : s.idx ≤ s.toks.length) (ht : s.peek = some t) (hk : ∀ w, t.tok = .word w → w.keyword = upper w.value) :
    (∃ r s', tryCall fns (n + 1) mode .statement s = .ok r s' ∧ s'.after = s.after) ↔
    t.kw? = some .INSERT ∧ t.matchesKw (KW.str .INSERT) = false := by
  obtain ⟨y, ha, h0⟩ := peek_after ht
  have E : Rim s.after s.after.length false := ⟨Nat.le_refl _, fun _ => rfl, fun h => by cases h⟩
  have hl : 0 + 1 ≤ s.after.length := by rw [ha]; simp
  have hw := ((bar_at (lo := 0) fns E (n + 1)).statement 0 (Nat.zero_le _) (Nat.le_refl _)).1
  constructor
  · rintro ⟨r, s', h, he⟩
    obtain ⟨x, h, -⟩ := replyOr_ok h
    by_cases hf : t.folds .INSERT
    · have := adv_state hs hw (adv_statement fns E h0 hl hk hf (n + 1)) h
      rw [he, ha] at this
      simp at this
    · unfold Token.folds at hf
      refine ⟨?_, ?_⟩
      · exact Classical.not_not.1 fun h => hf fun h' => absurd h' h
      · cases hm : t.matchesKw (KW.str .INSERT) with
        | false => rfl
        | true => exact absurd (fun _ => hm) hf
  · rintro ⟨h1, h2⟩
    obtain ⟨s', hr, he, -⟩ := (runI_state (mode := mode) hs (attempt_within hw)).1 (stuck_statement fns h0 h1 h2 n)
    exact ⟨none, s', by rw [tryCall, hr]; rfl, by rw [he, List.drop_zero]⟩

/-- `ParseExpr` reads nothing in exactly one case, that of EXISTS. -/
theorem C79_expr_stuck (fns : FloatFns) (n : Nat) (mode : Bool) (s : PState) (t : Token)
    (hs : s.idx ≤ s.toks.length) (ht : s.peek = some t) (hk : ∀ w, t.tok = .word w → w.keyword = upper w.value) :
    (∃ r s', tryCall fns (n + 2) mode .expr s = .ok r s' ∧ s'.after = s.after) ↔
    t.kw? = some .EXISTS ∧ t.matchesKw (KW.str .EXISTS) = false := by
  obtain ⟨y, ha, h0⟩ := peek_after ht
  have E : Rim s.after s.after.length false := ⟨Nat.le_refl _, fun _ => rfl, fun h => by cases h⟩
  have hl : 0 + 1 ≤ s.after.length := by rw [ha]; simp
  have hw := (bar_parseExpr E (bar_at (lo := 0) fns E (n + 2)) (Nat.zero_le _) (Nat.le_refl _)).1
  constructor
  · rintro ⟨r, s', h, he⟩
    obtain ⟨x, h, -⟩ := replyOr_ok h
    by_cases hf : t.folds .EXISTS
    · have := adv_state hs hw (adv_subexpr fns E h0 hl hk hf 0 (n + 2)) h
      rw [he, ha] at this
      simp at this
    · unfold Token.folds at hf
      refine ⟨?_, ?_⟩
      · exact Classical.not_not.1 fun h => hf fun h' => absurd h' h
      · cases hm : t.matchesKw (KW.str .EXISTS) with
        | false => rfl
        | true => exact absurd (fun _ => hm) hf
  · rintro ⟨h1, h2⟩
    obtain ⟨s', hr, he, -⟩ := (runI_state (mode := mode) hs (attempt_within hw)).1 (stuck_expr fns h0 h1 h2 n)
    exact ⟨none, s', by rw [tryCall, hr]; rfl, by rw [he, List.drop_zero]⟩

/-- `ParseDataType` always reads something, whatever the tokens are. -/
theorem C79_dataType_reads (fns : FloatFns) (n : Nat) (mode : Bool) (s s' : PState) (r : Option Reply)
    (hs : s.idx ≤ s.toks.length) (ht : s.peek ≠ none) (h : tryCall fns n mode .dataType s = .ok r s') :
    s'.after.length < s.after.length := by
  obtain ⟨t, ht⟩ := Option.ne_none_iff_exists'.1 ht
  obtain ⟨y, ha, h0⟩ := peek_after ht
  have E : Rim s.after s.after.length false := ⟨Nat.le_refl _, fun _ => rfl, fun h => by cases h⟩
  have hl : 0 + 1 ≤ s.after.length := by rw [ha]; simp
  obtain ⟨x, h, -⟩ := replyOr_ok h
  refine (adv_state hs (bar_parseDataType E (bar_at (lo := 0) fns E n) (Nat.zero_le _) (Nat.le_refl _)).1
    (adv_dataType fns E h0 hl n) h).resolve_right ?_
  rw [ha]; simp

/-- Tokens without a dotless i, whose words have their upper-cased text as keyword. -/
def plainWords (toks : List Token) : Prop :=
  ∀ t ∈ toks, ∀ w, t.tok = .word w → w.keyword = upper w.value ∧ 'ı' ∉ w.value

/-- Any loop over calls comes to the end of the tokens, errors or not: as many calls as tokens are enough. -/
theorem C79_drain (fns : FloatFns) (n : Nat) (mode : Bool) : ∀ (cs : List Method) (s s' : PState)
    (rs : List (Option Reply)), (∀ c ∈ cs, c.parses = true) → s.idx ≤ s.toks.length → plainWords s.toks →
    sessionE fns n mode cs s = .ok rs s' → s'.after.length ≤ s.after.length - cs.length
  | [], s, s', rs, _, hs, hp, h => by cases h; simp
  | c :: cs, s, s', rs, hc, hs, hp, h => by
    obtain ⟨r, rs', s1, -, h1, h2⟩ := sessionE_cons h
    have hf := C79_forward fns n mode [c] s s1 [r] (by simpa using hc c (by simp)) hs (by rw [sessionE, h1]; rfl)
    obtain ⟨t1, i1, u, e1, -⟩ := hf
    have ih := C79_drain fns n mode cs s1 s' rs' (fun c hm => hc c (by simp [hm])) (by rw [t1]; exact i1)
      (by rw [t1]; exact hp) h2
    have hl : s1.after.length ≤ s.after.length - 1 := by
      cases hpk : s.peek with
      | none =>
        have : s.after = [] := by
          rw [peek_view] at hpk
          cases ha : s.after with
          | nil => rfl
          | cons x y => rw [ha] at hpk; cases hpk
        rw [this] at e1
        have := congrArg List.length e1
        simp at this
        omega
      | some t =>
        have htm : t ∈ s.toks := by
          obtain ⟨y, ha, -⟩ := peek_after hpk
          have : t ∈ s.after := by rw [ha]; simp
          exact List.mem_of_mem_drop (List.mem_filter.1 this).1
        have := C79_progress fns n mode c s s1 r t (hc c (by simp)) hs hpk (fun w hw => (hp t htm w hw).1)
          (fun w hw => (hp t htm w hw).2) h1
        omega
    simp only [List.length_cons]
    omega

/-! ### Not beyond the semicolon -/

/-- A call that fails may have read the next semicolon, but nothing behind it: a mistake in one statement does not
reach the next. -/
theorem C79_semicolon (fns : FloatFns) (n : Nat) (mode : Bool) (c : Method) (s s' : PState) (r : Option Reply)
    (a b : List Token) (sem : Token) (hc : c = .statement ∨ c = .expr ∨ c = .dataType) (hs : s.idx ≤ s.toks.length)
    (hsem : sem.isSym .Semicolon = true) (ha : s.after = a ++ sem :: b) (h : tryCall fns n mode c s = .ok r s') :
    s'.after = b ∨ ∃ rest, rest <:+ a ∧ s'.after = rest ++ sem :: b := by
  obtain ⟨q, f, g, rfl⟩ := isSemi_eq hsem
  have E : Rim s.after a.length true := ⟨by rw [ha]; simp, (fun h => by cases h),
    fun _ => ⟨q, f, g, by rw [ha]; simp⟩⟩
  have E0 : Rim s.after s.after.length false := ⟨Nat.le_refl _, fun _ => rfl, fun h => by cases h⟩
  have H := bar_at (lo := 0) fns E n
  have H0 := bar_at (lo := 0) fns E0 n
  have fin : ∀ {α : Type} {p : P α} {x : Option α}, p.within s.after 0 a.length true 0 →
      p.within s.after 0 s.after.length false 0 → p.attempt.run mode s = .ok x s' →
      s'.after = b ∨ ∃ rest, rest <:+ a ∧ s'.after = rest ++ ⟨.sym .Semicolon q, f, g⟩ :: b := by
    intro α p x hw hw0 hr
    obtain ⟨-, -, u, e, -⟩ := forward_of_within hs (attempt_within hw0) hr
    have hj : p.attempt.runI s.after 0 = .ok x u.length := by
      refine (runI_state (mode := mode) hs (attempt_within hw0)).2 ⟨s', hr, ?_, ?_⟩
      · rw [e]; simp
      · rw [e]; simp
    have hle := (within_end E (attempt_within hw) (Nat.le_refl _) (fun _ => by omega) hj).2 rfl
    have hd : s'.after = s.after.drop u.length := by rw [e]; simp
    rw [hd, ha]
    rcases Nat.lt_or_ge a.length u.length with h | h
    · left
      have : u.length = a.length + 1 := by omega
      rw [this, List.drop_append]
      simp
    · right
      refine ⟨a.drop u.length, List.drop_suffix _ _, ?_⟩
      rw [List.drop_append_of_le_length h]
  rcases hc with rfl | rfl | rfl
  · obtain ⟨x, h, -⟩ := replyOr_ok h
    exact fin (H.statement 0 (Nat.zero_le _) (Nat.le_refl _)).1 (H0.statement 0 (Nat.zero_le _) (Nat.le_refl _)).1 h
  · obtain ⟨x, h, -⟩ := replyOr_ok h
    exact fin (bar_parseExpr E H (Nat.zero_le _) (Nat.le_refl _)).1
      (bar_parseExpr E0 H0 (Nat.zero_le _) (Nat.le_refl _)).1 h
  · obtain ⟨x, h, -⟩ := replyOr_ok h
    exact fin (bar_parseDataType E H (Nat.zero_le _) (Nat.le_refl _)).1
      (bar_parseDataType E0 H0 (Nat.zero_le _) (Nat.le_refl _)).1 h

/-! ### A loop over `ParseStatement` that ignores errors -/

theorem try_statement {fns : FloatFns} {n : Nat} (mode : Bool) {s : PState} (hs : s.idx ≤ s.toks.length) {x : Option Stmt}
    {j : Nat} (h : (Parsers.at fns n).statement.attempt.runI s.after 0 = .ok x j) :
    ∃ s', tryCall fns n mode .statement s = .ok (x.map .stmt) s' ∧ s'.after = s.after.drop j ∧
      s'.idx ≤ s'.toks.length := by
  have E : Rim s.after s.after.length false := ⟨Nat.le_refl _, fun _ => rfl, fun h => by cases h⟩
  have hw := ((bar_at (lo := 0) fns E n).statement 0 (Nat.zero_le _) (Nat.le_refl _)).1
  obtain ⟨s', hr, he, -⟩ := (runI_state (mode := mode) hs (attempt_within hw)).1 h
  obtain ⟨t1, i1⟩ := run_toks mode _ s hs _ _ hr
  exact ⟨s', by rw [tryCall, hr]; rfl, he, by rw [t1]; exact i1⟩

theorem harvest_nil {fns : FloatFns} {n : Nat} (mode : Bool) : ∀ (k : Nat) (s : PState), s.idx ≤ s.toks.length →
    s.after = [] → ∃ rs s', sessionE fns (n + 1) mode (List.replicate k .statement) s = .ok rs s' ∧
      rs.filterMap id = [] ∧ s'.after = []
  | 0, s, hs, ha => ⟨[], s, rfl, rfl, ha⟩
  | k + 1, s, hs, ha => by
    have h1 : (Parsers.at fns (n + 1)).statement.attempt.runI s.after 0 = .ok none 0 := by rw [ha]; rfl
    obtain ⟨s1, h2, h3, h4⟩ := try_statement mode hs h1
    obtain ⟨rs, s', h5, h6, h7⟩ := harvest_nil (fns := fns) (n := n) mode k s1 h4 (by rw [h3, ha]; rfl)
    refine ⟨none :: rs, s', ?_, by simpa using h6, h7⟩
    rw [List.replicate_succ, sessionE, h2]
    simp only [h5]
    rfl

/-- `k` calls of `ParseStatement` come to the end and return these statements, among errors. -/
def Harvest (fns : FloatFns) (n : Nat) (mode : Bool) (k : Nat) (s : PState) (ss : List Stmt) : Prop :=
  ∃ rs s', sessionE fns n mode (List.replicate k .statement) s = .ok rs s' ∧
    rs.filterMap id = ss.map .stmt ∧ s'.after = []

theorem harvest_step {fns : FloatFns} {n : Nat} {mode : Bool} {k : Nat} {s s1 : PState} {ss : List Stmt} {x : Option Stmt}
    (h : tryCall fns n mode .statement s = .ok (x.map .stmt) s1) (h' : Harvest fns n mode k s1 ss) :
    Harvest fns n mode (k + 1) s (x.toList ++ ss) := by
  obtain ⟨rs, s', h1, h2, h3⟩ := h'
  refine ⟨x.map .stmt :: rs, s', ?_, ?_, h3⟩
  · rw [List.replicate_succ, sessionE, h]
    simp only [h1]
  · cases x with
    | none => simpa using h2
    | some x => simpa using h2

theorem harvest_body {fns : FloatFns} {n : Nat} {mode : Bool} {m : Nat}
    (ih : ∀ (k : Nat) (s : PState) (ss : List Stmt) (e : Bool), s.idx ≤ s.toks.length → s.after.length ≤ k →
      loopOut fns (n + 1) m e s.after = .ok ss () → Harvest fns (n + 1) mode k s ss)
    (k : Nat) (s : PState) (ss : List Stmt) (hs : s.idx ≤ s.toks.length) (hk : s.after.length ≤ k)
    (h : bodyOut fns (n + 1) m s.after = .ok ss ()) : Harvest fns (n + 1) mode k s ss := by
  by_cases ha : s.after = []
  · rw [ha] at h
    have : ss = [] := by cases h; rfl
    subst this
    exact harvest_nil mode k s hs ha
  · rw [bodyOut_ne _ _ ha] at h
    cases hz : (Parsers.at fns (n + 1)).statement.runZ [] s.after with
    | ok x st =>
      rw [hz] at h
      simp only [Res.bind_ok] at h
      obtain ⟨b, a⟩ := st
      have e := runZ_runI s.after (Parsers.at fns (n + 1)).statement 0 (Nat.zero_le _)
      simp only [List.take_zero, List.reverse_nil, List.drop_zero] at e
      obtain ⟨e1, e2⟩ := e
      obtain ⟨j, hj, rfl, rfl⟩ := e2 _ _ _ hz
      rw [hz] at e1
      simp only [Res.mapState, List.length_reverse, List.length_take, Nat.min_eq_left hj] at e1
      obtain ⟨s1, h1, h2, h3⟩ := try_statement mode hs (attempt_runI_ok _ _ _ _ _ e1.symm)
      have E : Rim s.after s.after.length false := ⟨Nat.le_refl _, fun _ => rfl, fun h => by cases h⟩
      have hb := ((bar_at (lo := 0) fns E (n + 1)).statement 0 (Nat.zero_le _) (Nat.le_refl _)).2
      rw [← e1] at hb
      have hj1 : 0 + 1 ≤ j := hb.1
      obtain ⟨k, rfl⟩ : ∃ l, k = l + 1 := ⟨k - 1, by omega⟩
      rw [← h2] at h
      cases hl : loopOut fns (n + 1) m true s1.after with
      | ok ss' u =>
        rw [hl] at h
        have : ss = x :: ss' := by cases h; rfl
        subst this
        exact harvest_step h1 (ih k s1 ss' true h3 (by rw [h2]; simp; omega) hl)
      | err => rw [hl] at h; cases h
      | panic => rw [hl] at h; cases h
      | oof => rw [hl] at h; cases h
    | err => rw [hz] at h; cases h
    | panic => rw [hz] at h; cases h
    | oof => rw [hz] at h; cases h

theorem harvest_loop {fns : FloatFns} {n : Nat} {mode : Bool} : ∀ (m k : Nat) (s : PState) (ss : List Stmt) (e : Bool),
    s.idx ≤ s.toks.length → s.after.length ≤ k → loopOut fns (n + 1) m e s.after = .ok ss () →
    Harvest fns (n + 1) mode k s ss
  | 0, _, _, _, _, _, _, h => by cases h
  | m + 1, k, s, ss, e, hs, hk, h => by
    have hbody := harvest_body (fun k s ss e => harvest_loop (fns := fns) (n := n) (mode := mode) m k s ss e)
    cases ha : s.after with
    | nil =>
      rw [ha, loopOut_nil] at h
      cases e with
      | true => cases h
      | false =>
        have : ss = [] := by cases h; rfl
        subst this
        exact harvest_nil mode k s hs ha
    | cons t y =>
      by_cases hsem : t.isSym .Semicolon = true
      · rw [ha, loopOut_semi _ _ hsem] at h
        have h1 : (Parsers.at fns (n + 1)).statement.attempt.runI s.after 0 = .ok none 1 := by
          obtain ⟨q, f, g, rfl⟩ := isSemi_eq hsem
          rw [ha]; rfl
        obtain ⟨s1, h2, h3, h4⟩ := try_statement mode hs h1
        rw [ha] at h3 hk
        simp only [List.length_cons] at hk
        obtain ⟨k, rfl⟩ : ∃ l, k = l + 1 := ⟨k - 1, by omega⟩
        have h3 : s1.after = y := h3
        exact harvest_step h2 (hbody k s1 ss h4 (by rw [h3]; omega) (by rw [h3]; exact h))
      · rw [ha, loopOut_nosemi _ _ hsem] at h
        cases e with
        | true => cases h
        | false => exact hbody k s ss hs hk (by rw [ha]; exact h)

/-- A loop that calls `ParseStatement` up to the end and ignores errors finds the statements that `ParseSQL` returns, if
it returns any. -/
theorem C79_harvest (fns : FloatFns) (n : Nat) (mode mode' : Bool) (k : Nat) (s s' : PState) (ss : List Stmt)
    (hs : s.idx ≤ s.toks.length) (hk : s.after.length ≤ k)
    (h : (parseSQL mode (Parsers.at fns (n + 1)) (n + 1)).run mode s = .ok ss s') :
    ∃ rs s1, sessionE fns (n + 1) mode' (List.replicate k .statement) s = .ok rs s1 ∧
      rs.filterMap id = ss.map .stmt ∧ s1.after = [] := by
  refine harvest_loop (n + 1) k s ss false hs hk ?_
  have e := (C62_context fns (n + 1) mode s hs).2.2.2
  rw [h, runSQL_loopOut] at e
  exact e.symm

/-! ### Examples -/

/-- What the replies of a session are, 0 for an error, and how many tokens are left. -/
def tagsE (r : Res PState (List (Option Reply))) : Option (List Nat) × Nat :=
  match r with
  | .ok rs s => (some (rs.map fun | some r => r.tag | none => 0), s.after.length)
  | .err => (none, 1)
  | .panic => (none, 2)
  | .oof => (none, 3)

def badFirst : List Token := textToks (str% "/* a */ DELETE /* b */ FROM 1; /* c */ DELETE FROM u;")

/-- `DELETE FROM 1` fails in front of the 1; the next two calls fail and read the 1 and the semicolon, and then comes the
second statement.  `ParseFile` in place of the third call returns that statement and all three comments, and so does
`ParseFile` called again after it has failed twice. -/
example : plainWords badFirst ∧ (newParser badFirst).after.length = 8 ∧
    tagsE (sessionE sampleFns 200 false [.statement] (newParser badFirst)) = (some [0], 6) ∧
    tagsE (sessionE sampleFns 200 false [.statement, .statement, .statement, .statement] (newParser badFirst)) =
      (some [0, 0, 0, 1000], 1) ∧
    tagsE (sessionE sampleFns 200 true [.statement, .statement, .file] (newParser badFirst)) = (some [0, 0, 113], 0) ∧
    tagsE (sessionE sampleFns 200 true [.file, .file, .file] (newParser badFirst)) = (some [0, 0, 113], 0) := by
  refine ⟨?_, by decide +kernel⟩
  have h : badFirst.all (fun t => match t.tok with
    | .word w => decide (w.keyword = upper w.value) && !w.value.contains 'ı'
    | _ => true) = true := by decide +kernel
  intro t ht w hw
  have := List.all_eq_true.1 h t ht
  simp only [hw, Bool.and_eq_true, decide_eq_true_eq, Bool.not_eq_true', List.contains_eq_mem,
    decide_eq_false_iff_not] at this
  exact this

/-- Both cases of `C79_semicolon`: `DELETE FROM ;` fails in front of the semicolon, `CREATE INDEX ;` behind it. -/
example : tagsE (sessionE sampleFns 200 false [.statement] (newParser (textToks (str% "DELETE FROM ; DELETE FROM u;")))) =
      (some [0], 5) ∧
    tagsE (sessionE sampleFns 200 false [.statement] (newParser (textToks (str% "CREATE INDEX ; DELETE FROM u;")))) =
      (some [0], 4) := by
  decide +kernel

/-- A word that counts as INSERT only when it is upper-cased: three calls of `ParseStatement` read nothing. -/
example : tagsE (sessionE sampleFns 200 false [.statement, .statement, .statement]
      (newParser (textToks (str% "\"ınsert\" INTO t VALUES (1);")))) = (some [0, 0, 0], 8) ∧
    tagsE (sessionE sampleFns 200 false [.expr, .expr] (newParser (textToks (str% "\"exısts\" (SELECT 1);")))) =
      (some [0, 0], 6) ∧
    tagsE (sessionE sampleFns 200 false [.statement, .statement]
      (newParser (textToks (str% "\"insert\" INTO t VALUES (1);")))) = (some [1000, 0], 0) := by
  decide +kernel

/-- The errors of the loop over a script that `ParseSQL` accepts: one for each semicolon, and one for each call at the
end. -/
example : tagsE (sessionE sampleFns 200 false (List.replicate 8 .statement) (newParser twoStmts)) =
      (some [1000, 0, 1000, 0, 0, 0, 0, 0], 0) ∧
    tags (session sampleFns 200 false [.sql] (newParser twoStmts)) = (some [2], 17) := by
  decide +kernel

end Verif
