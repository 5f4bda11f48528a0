import Verif.Spec.Beginnings
import Verif.Props.Brackets
import Verif.Props.RoundTrip
/-
Property theorem C75: the first words of a statement decide of which kind it is.

`Form`, `Stmt.form`, `beginnings`, `beginsWith` and `beginsAs` are defined in Verif/Spec/Beginnings.lean.
-/
set_option maxRecDepth 100000
namespace Verif
open Spec

/-! ### Letters -/

theorem capital_upper (c : Char) : capital (upperC c) = capital c := by
  by_cases hc : c.toNat < 128
  · have h : ∀ n < 128, capital (upperC (Char.ofNat n)) = capital (Char.ofNat n) := by decide +kernel
    have := h c.toNat hc
    rwa [Char.ofNat_toNat] at this
  · unfold upperC
    rw [if_neg (fun h => hc (by have h : c.toNat ≤ 122 := h.2; omega))]
    split
    · rename_i h; rw [h]; decide
    · split
      · rename_i h; rw [h]; decide
      · rfl

theorem capital_keyword (k : KW) : k.str.map capital = k.str := by
  have h : ∀ k ∈ KW.all, k.str.map capital = k.str := by decide +kernel
  exact h k (KW.mem_all k)

theorem capital_of_spells {s : Str} {k : KW} (h : spells s k) : s.map capital = k.str := by
  rcases h with h | h
  · have h : s.map foldC = k.str.map foldC := by simpa [equalFold] using h
    rw [← capital_keyword k]
    show s.map (upperC ∘ foldC) = k.str.map (upperC ∘ foldC)
    rw [← List.map_map, ← List.map_map, h]
  · rw [← capital_keyword k, ← h, upper, List.map_map]
    exact List.map_congr_left fun c _ => (capital_upper c).symm

theorem str_inj {k k' : KW} (h : k.str = k'.str) : k = k' := by
  have := congrArg kwOf h
  simpa using this

/-! ### Sentences begin with their keywords -/

def StartsWith (ks : List KW) (L : Lang) : Prop := ∀ ts, L ts → ∀ rest, beginsWith ks (ts ++ rest) = true

theorem StartsWith.nil {L : Lang} : StartsWith [] L := fun _ _ _ => by simp [beginsWith]

theorem StartsWith.kwd_cat {k : KW} {ks : List KW} {L : Lang} (h : StartsWith ks L) : StartsWith (k :: ks) (kwd k ⬝ L) := by
  rintro _ ⟨_, us, rfl, ⟨t, w, rfl, hw, hs⟩, hu⟩ rest
  simp [beginsWith, hw, capital_of_spells hs, h us hu rest]

theorem StartsWith.at_cat {p : Pos} {k : KW} {ks : List KW} {L : Lang} (h : StartsWith ks L) :
    StartsWith (k :: ks) (p ▹ kwd k ⬝ L) := by
  rintro _ ⟨xs, us, rfl, ⟨hx, -⟩, hu⟩ rest
  exact StartsWith.kwd_cat h _ ⟨xs, us, rfl, hx, hu⟩ rest

theorem begins_paren {a : Lang} {ts rest : List Token} (h : (parens a) ts) : ∃ t us x, ts ++ rest = t :: us ∧ t.tok = .sym .LParen x := by
  obtain ⟨_, us, rfl, ⟨t, x, rfl, ht⟩, -⟩ := h
  exact ⟨t, us ++ rest, x, rfl, ht⟩

/-- A query begins with SELECT or `(` if it does not begin with WITH. -/
theorem SetExpr.begins (fns : FloatFns) (q : Quirks) : ∀ (b : SetExpr) (ts : List Token), b.lang fns q ts → ∀ rest,
    beginsWith [.SELECT] (ts ++ rest) = true ∨ ∃ t us x, ts ++ rest = t :: us ∧ t.tok = .sym .LParen x
  | .selectExpr _, _, h, _ => by simp [SetExpr.lang, never] at h
  | .select (.mk ..), ts, h, rest => by
    rw [SetExpr.lang, SQLSelect.lang] at h
    exact .inl (StartsWith.at_cat .nil ts h rest)
  | .query .., ts, h, rest => by
    rw [SetExpr.lang] at h
    obtain ⟨us, vs, rfl, hu, -⟩ := h
    rw [List.append_assoc]
    exact .inr (begins_paren hu)
  | .setOp op all l r, ts, h, rest => by
    rw [SetExpr.lang] at h
    obtain ⟨us, vs, rfl, hu, -⟩ := h
    rw [List.append_assoc]
    exact SetExpr.begins fns q l us hu _

theorem QueryStmt.begins (fns : FloatFns) (q : Quirks) : ∀ (s : QueryStmt) (ts : List Token), s.lang fns q ts → ∀ rest,
    (beginsWith [.WITH] (ts ++ rest) = true ∨ beginsWith [.SELECT] (ts ++ rest) = true) ∨
      ∃ t us x, ts ++ rest = t :: us ∧ t.tok = .sym .LParen x
  | .mk w [] body o l, ts, h, rest => by
    rw [QueryStmt.lang] at h
    obtain ⟨us, vs, rfl, hu, ⟨vs, xs, rfl, hv, -⟩⟩ := h
    have : us = [] := by simpa [clause, clauseOr, CTE.langs, eps] using hu
    subst this
    rw [List.nil_append, List.append_assoc]
    rcases SetExpr.begins fns q body vs hv (xs ++ rest) with h | h
    · exact .inl (.inr h)
    · exact .inr h
  | .mk w (c :: cs) body o l, ts, h, rest => by
    rw [QueryStmt.lang] at h
    obtain ⟨us, vs, rfl, hu, -⟩ := h
    rw [List.append_assoc]
    rw [CTE.langs] at hu
    exact .inl (.inl (StartsWith.kwd_cat .nil us hu _))

theorem begins_cons {k : KW} {ks : List KW} {t : Token} {ts : List Token} :
    beginsWith (k :: ks) (t :: ts) = (beginsWith [k] [t] && beginsWith ks ts) := by
  conv => lhs; rw [beginsWith.eq_def]
  conv => rhs; lhs; rw [beginsWith.eq_def]
  dsimp only
  split <;> simp [beginsWith]

theorem begins_head {k : KW} {ks : List KW} {t : Token} {ts : List Token} (h : beginsWith (k :: ks) (t :: ts) = true) :
    beginsWith [k] [t] = true ∧ beginsWith ks ts = true := by
  simpa only [begins_cons (ks := ks) (ts := ts), Bool.and_eq_true] using h

theorem begins_unique {k k' : KW} {t : Token} (h : beginsWith [k] [t] = true) (h' : beginsWith [k'] [t] = true) : k = k' := by
  unfold beginsWith at h h'
  split at h
  · rename_i w hw
    rw [hw] at h'
    simp only [Bool.and_eq_true, beq_iff_eq] at h h'
    exact str_inj (h.1.symm.trans h'.1)
  · cases h

/-- The first token of a statement that is neither a query nor explained decides. -/
theorem Stmt.begins (fns : FloatFns) (q : Quirks) (s : Stmt) (ts : List Token) (h : s.lang fns q ts) (rest : List Token) :
    (∃ x, s.form = some x ∧ beginsAs x (ts ++ rest)) ∨ (∃ s', s = .query s') ∨
      ∃ s' p, s = .explain s' p ∧ beginsWith [.EXPLAIN] (ts ++ rest) = true := by
  have key : ∀ {f : Form} (ks : List KW), (ks, f) ∈ beginnings → StartsWith ks (s.lang fns q) → s.form = some (0, f) →
      ∃ x, s.form = some x ∧ beginsAs x (ts ++ rest) := fun ks hm hb hf =>
    ⟨_, hf, ks, hm, by simpa using hb ts h rest⟩
  cases s with
  | query s => exact .inr (.inl ⟨s, rfl⟩)
  | insert => exact .inl (key [.INSERT, .INTO] (by decide) (StartsWith.at_cat (.kwd_cat .nil)) rfl)
  | copy => exact h.elim
  | update => exact .inl (key [.UPDATE] (by decide) (StartsWith.at_cat .nil) rfl)
  | delete => exact .inl (key [.DELETE, .FROM] (by decide) (StartsWith.at_cat (.kwd_cat .nil)) rfl)
  | createView p name s m =>
    cases m with
    | true => exact h.elim
    | false =>
      left
      obtain ⟨us, vs, rfl, hu, ⟨xs, ys, rfl, hx, hy⟩⟩ := h
      rcases hx with hx | hx
      · cases hx
        exact ⟨_, rfl, [.CREATE, .VIEW], by decide, StartsWith.at_cat (.kwd_cat .nil) _ ⟨us, ys, rfl, hu, hy⟩ rest⟩
      · exact ⟨_, rfl, [.CREATE, .MATERIALIZED, .VIEW], by decide,
          StartsWith.at_cat (.kwd_cat (.kwd_cat .nil)) _ ⟨us, _, rfl, hu, xs, ys, rfl, hx, hy⟩ rest⟩
  | createTable => exact .inl (key [.CREATE, .TABLE] (by decide) (StartsWith.at_cat (.kwd_cat .nil)) rfl)
  | alterTable => exact .inl (key [.ALTER, .TABLE] (by decide) (StartsWith.at_cat (.kwd_cat .nil)) rfl)
  | dropTable => exact .inl (key [.DROP, .TABLE] (by decide) (StartsWith.at_cat (.kwd_cat .nil)) rfl)
  | createIndex p name unique =>
    cases unique with
    | false => exact .inl (key [.CREATE, .INDEX] (by decide) (StartsWith.kwd_cat (.kwd_cat .nil)) rfl)
    | true =>
      left
      obtain ⟨us, vs, rfl, hu, ⟨xs, ys, rfl, hx, -⟩⟩ := h
      obtain ⟨as, bs, rfl, ha, hb⟩ := hx
      rcases ha with ha | ha
      · cases ha
        have := StartsWith.kwd_cat (k := .CREATE) (StartsWith.kwd_cat (k := .UNIQUE) (StartsWith.kwd_cat (k := .INDEX) (L := eps) .nil))
          (us ++ bs) ⟨us, bs, rfl, hu, by obtain ⟨c, d, rfl, hc, hd⟩ := hb; exact ⟨c, d, rfl, hc, d, [], by simp, hd, rfl⟩⟩ (ys ++ rest)
        exact ⟨_, rfl, [.CREATE, .UNIQUE, .INDEX], by decide, by simpa using this⟩
      · have := StartsWith.kwd_cat (k := .CREATE) (StartsWith.kwd_cat (k := .INDEX) (L := eps) .nil)
          (us ++ as) ⟨us, as, rfl, hu, as, [], by simp, ha, rfl⟩ (bs ++ (ys ++ rest))
        exact ⟨_, rfl, [.CREATE, .INDEX], by decide, by simpa using this⟩
  | dropIndex => exact .inl (key [.DROP, .INDEX] (by decide) (StartsWith.at_cat (.kwd_cat .nil)) rfl)
  | explain s p => exact .inr (.inr ⟨s, p, rfl, StartsWith.kwd_cat .nil ts h rest⟩)

/-! ### The parser -/

theorem dispatch (fns : FloatFns) (n : Nat) (mode : Bool) (toks : List Token) (hk : KwOK toks) (s : Stmt)
    (h : runStatement fns (n + 1) mode toks = .ok s ()) :
    ∃ t rest k, significant toks = t :: rest ∧ k ∈ statementWords ∧ beginsWith [k] [t] = true ∧
      (k = .EXPLAIN → ∃ s', s = .explain s' Pos.zero ∧ runStatement fns n mode rest = .ok s' ()) := by
  cases hs : toks.filter Token.sig with
  | nil => rw [((C21_unknown_partial fns mode n toks).2 hs).1] at h; cases h
  | cons t rest =>
    by_cases hw : ∀ k ∈ statementWords, t.kw? ≠ some k
    · rw [((C21_unknown_partial fns mode n toks).1 t rest hs hw).1] at h; cases h
    · simp only [Classical.not_forall, Classical.not_not] at hw
      obtain ⟨k, hm, ht⟩ := hw
      obtain ⟨w, hw, hkw⟩ := kwOf_kw ht
      have hmem : t ∈ toks := (List.mem_filter.1 (by rw [hs]; simp : t ∈ toks.filter Token.sig)).1
      have hu : upper w.value = k.str := by rw [← hk t hmem w hw]; exact kwOf_eq_some.1 hkw
      refine ⟨t, rest, k, hs, hm, by simp [beginsWith, hw, capital_of_spells (.inr hu)], ?_⟩
      rintro rfl
      unfold runStatement at h
      rw [outcome_runZ, hs, show (Parsers.at fns (n + 1)).statement = statementF (Parsers.at fns n) from rfl] at h
      simp only [statementF, runZ_bindM, runZ_nextOrErr_cons, Res.bind_ok, Token.word?, hw, hkw] at h
      have hr : rest.filter Token.sig = rest := by
        have : (toks.filter Token.sig).filter Token.sig = toks.filter Token.sig := by simp
        rw [hs] at this
        rw [List.filter_eq_self] at this ⊢
        exact fun x hx => this x (by simp [hx])
      have hts : t.sig = true := by simp [Token.sig, hw, Tok.insignificant]
      have hc := (C62_context fns n mode ⟨t :: rest, 1, []⟩ (by simp)).1
      rw [outcome_run _ _ _ (by simp)] at hc
      simp only [PState.before, PState.after, List.take_succ_cons, List.take_zero, List.drop_succ_cons, List.drop_zero,
        List.filter_cons, hts, if_true, List.filter_nil, List.reverse_cons, List.reverse_nil, List.nil_append, hr] at hc
      cases hz : (Parsers.at fns n).statement.runZ [t] rest with
      | ok s' st =>
        rw [hz] at h hc
        cases h
        exact ⟨s', rfl, hc.symm⟩
      | err => rw [hz] at h; cases h
      | panic => rw [hz] at h; cases h
      | oof => rw [hz] at h; cases h

/-- C75: a statement that is accepted begins with the words for its kind, after as many EXPLAINs as it has. -/
theorem C75_begins (fns : FloatFns) : ∀ (n : Nat) (mode : Bool) (toks : List Token), KwOK toks → ∀ s : Stmt,
    runStatement fns n mode toks = .ok s () → ∃ x, s.form = some x ∧ beginsAs x (significant toks)
  | 0, mode, toks, _, s, h => by
    unfold runStatement at h
    rw [outcome_runZ] at h
    cases h
  | n + 1, mode, toks, hk, s, h => by
    obtain ⟨t, rest, k, ht, hm, hb, he⟩ := dispatch fns n mode toks hk s h
    obtain ⟨read, more, h1, h2⟩ := C50_statement_grammar fns (n + 1) mode toks hk s h
    by_cases hx : k = .EXPLAIN
    · obtain ⟨s', rfl, hs'⟩ := he hx
      have hk' : KwOK rest := fun x hx => hk x (List.mem_filter.1 (by
        rw [show toks.filter Token.sig = t :: rest from ht]; simp [hx] : x ∈ toks.filter Token.sig)).1
      obtain ⟨x, hf, ks, hks, hb'⟩ := C75_begins fns n mode rest hk' s' hs'
      have hr : significant rest = rest := by
        have : (toks.filter Token.sig).filter Token.sig = toks.filter Token.sig := by simp
        rw [show toks.filter Token.sig = t :: rest from ht] at this
        rw [List.filter_eq_self] at this
        exact List.filter_eq_self.2 fun x hx => this x (by simp [hx])
      refine ⟨(x.1 + 1, x.2), by simp [Stmt.form, hf], ks, hks, ?_⟩
      rw [hr] at hb'
      subst hx
      rw [ht, List.replicate_succ, List.cons_append, begins_cons, hb, hb']
      rfl
    · rcases Stmt.begins fns _ s read h2 more with hg | ⟨s', rfl⟩ | ⟨s', p, rfl, hg⟩
      · rw [h1]; exact hg
      · rw [Stmt.lang] at h2
        rcases QueryStmt.begins fns _ s' read h2 more with (hg | hg) | ⟨t', us, x, he, hp⟩
        · exact ⟨_, rfl, [.WITH], by decide, by rw [h1]; exact hg⟩
        · exact ⟨_, rfl, [.SELECT], by decide, by rw [h1]; exact hg⟩
        · rw [← h1, ht] at he
          cases he
          simp [beginsWith, hp] at hb
      · rw [← h1, ht] at hg
        exact absurd (begins_unique hb (begins_head hg).1) hx

/-! ### Only one kind -/

theorem begins_prefix : ∀ {ks ks' : List KW} {ts : List Token}, beginsWith ks ts = true → beginsWith ks' ts = true →
    ks.isPrefixOf ks' = true ∨ ks'.isPrefixOf ks = true
  | [], _, _, _, _ => .inl (by simp)
  | _ :: _, [], _, _, _ => .inr (by simp)
  | _ :: _, _ :: _, [], h, _ => by simp [beginsWith] at h
  | k :: ks, k' :: ks', t :: ts, h, h' => by
    obtain ⟨h1, h2⟩ := begins_head h
    obtain ⟨h3, h4⟩ := begins_head h'
    cases begins_unique h1 h3
    simpa using begins_prefix h2 h4

theorem beginnings_apart : ∀ a ∈ beginnings, ∀ b ∈ beginnings, a.1.isPrefixOf b.1 = true → a.2 = b.2 := by decide +kernel

theorem beginnings_explain : ∀ a ∈ beginnings, a.1.head? ≠ some .EXPLAIN ∧ a.1 ≠ [] := by decide +kernel

theorem explain_apart {f : Form} {ks ks' : List KW} {t : Token} {ts : List Token} (hm : (ks, f) ∈ beginnings)
    (h : beginsWith ks (t :: ts) = true) (h' : beginsWith (.EXPLAIN :: ks') (t :: ts) = true) : False := by
  obtain ⟨h1, h2⟩ := beginnings_explain _ hm
  cases ks with
  | nil => exact h2 rfl
  | cons k ks => exact h1 (congrArg some (begins_unique (begins_head h).1 (begins_head h').1))

theorem begins_only : ∀ (m m' : Nat) {f f' : Form} {ks ks' : List KW} {ts : List Token}, (ks, f) ∈ beginnings →
    (ks', f') ∈ beginnings → beginsWith (List.replicate m .EXPLAIN ++ ks) ts = true →
    beginsWith (List.replicate m' .EXPLAIN ++ ks') ts = true → (m, f) = (m', f')
  | 0, 0, f, f', ks, ks', ts, hm, hm', h, h' => by
    simp only [List.replicate_zero, List.nil_append] at h h'
    rcases begins_prefix h h' with hp | hp
    · cases beginnings_apart _ hm _ hm' hp; rfl
    · cases beginnings_apart _ hm' _ hm hp; rfl
  | m + 1, m' + 1, f, f', ks, ks', [], hm, hm', h, h' => by simp [List.replicate_succ, beginsWith] at h
  | m + 1, m' + 1, f, f', ks, ks', t :: ts, hm, hm', h, h' => by
    rw [List.replicate_succ, List.cons_append] at h h'
    have := begins_only m m' hm hm' (begins_head h).2 (begins_head h').2
    cases this; rfl
  | 0, m' + 1, f, f', ks, ks', [], hm, hm', h, h' => by simp [List.replicate_succ, beginsWith] at h'
  | m + 1, 0, f, f', ks, ks', [], hm, hm', h, h' => by simp [List.replicate_succ, beginsWith] at h
  | 0, m' + 1, f, f', ks, ks', t :: ts, hm, hm', h, h' => (explain_apart hm h h').elim
  | m + 1, 0, f, f', ks, ks', t :: ts, hm, hm', h, h' => (explain_apart hm' h' h).elim

/-- C75: tokens begin like a statement of at most one kind. -/
theorem C75_one_kind (x y : Nat × Form) (ts : List Token) (hx : beginsAs x ts) (hy : beginsAs y ts) : x = y := by
  obtain ⟨ks, h1, h2⟩ := hx
  obtain ⟨ks', h3, h4⟩ := hy
  exact begins_only x.1 y.1 h1 h3 h2 h4

/-- C75: of accepted statements, the first words decide of which kind the statement is, and how many EXPLAINs it has. -/
theorem C75_decides (fns : FloatFns) (n : Nat) (mode : Bool) (toks : List Token) (hk : KwOK toks) (s : Stmt)
    (h : runStatement fns n mode toks = .ok s ()) (x : Nat × Form) : s.form = some x ↔ beginsAs x (significant toks) := by
  obtain ⟨y, hy, hb⟩ := C75_begins fns n mode toks hk s h
  constructor
  · intro hx
    rw [hy] at hx
    cases hx
    exact hb
  · intro hx
    rw [hy, C75_one_kind x y _ hx hb]

/-! ### Scripts -/

theorem begins_part : ∀ {ks : List KW} {part rest : List Token} {sem : Token}, sem.isSym .Semicolon = true →
    beginsWith ks (part ++ sem :: rest) = true → beginsWith ks part = true
  | [], _, _, _, _, _ => by simp [beginsWith]
  | k :: ks, [], rest, sem, hs, h => by
    obtain ⟨s, f, g, rfl⟩ := isSemi_eq hs
    simp [beginsWith] at h
  | k :: ks, t :: part, rest, sem, hs, h => by
    obtain ⟨h1, h2⟩ := begins_head h
    rw [begins_cons, h1, begins_part hs h2]
    rfl

theorem splits_begin (fns : FloatFns) (n : Nat) {b a : List Token} {ss : List Stmt}
    (h : Splits (Parsers.at fns n).statement b a ss) (hk : KwOK a) (hs : a.filter Token.sig = a) : PartsBegin a ss := by
  induction h with
  | nil => exact .nil
  | @cons b seg rest sem s ss h1 h2 h3 _ ih =>
    have E : Rim (seg ++ sem :: rest) (seg ++ sem :: rest).length false := ⟨Nat.le_refl _, fun _ => rfl, fun h => by cases h⟩
    have hh := runZ_history ((bar_at (lo := 0) fns E n).statement 0 (Nat.zero_le _) (Nat.le_refl _)).1 b
    rw [h3] at hh
    cases hz : (Parsers.at fns n).statement.runZ [] (seg ++ sem :: rest) with
    | err => rw [hz] at hh; cases hh
    | panic => rw [hz] at hh; cases hh
    | oof => rw [hz] at hh; cases hh
    | ok s' st =>
      rw [hz] at hh
      simp only [Res.mapState, Res.ok.injEq, Prod.mk.injEq] at hh
      obtain ⟨rfl, -, hst⟩ := hh
      have hr : runStatement fns n false (seg ++ sem :: rest) = .ok s () := by
        unfold runStatement
        rw [outcome_runZ, hs, hz]
        rfl
      obtain ⟨x, hf, ks, hks, hb⟩ := C75_begins fns n false _ hk s hr
      rw [show significant (seg ++ sem :: rest) = _ from hs] at hb
      refine .cons ?_ ?_ hf ⟨ks, hks, begins_part h2 hb⟩ (ih (fun t ht => hk t (by simp [ht])) ?_)
      · intro t ht text htok
        obtain ⟨u, v, rfl⟩ := List.append_of_mem ht
        have hts : t.isSym .Semicolon = true := by simp [Token.isSym, htok]
        rw [List.append_assoc, List.cons_append] at hz
        obtain ⟨f1, f2⟩ := statement_future fns n (a := u) hts (v ++ sem :: rest)
        rw [f1] at hz
        cases hy : (Parsers.at fns n).statement.runZ [] (u ++ [t]) with
        | err => rw [hy] at hz; cases hz
        | panic => rw [hy] at hz; cases hz
        | oof => rw [hy] at hz; cases hz
        | ok y st' =>
          obtain ⟨b1, a1⟩ := st'
          obtain ⟨used, left, -, -, -, rfl⟩ := f2 _ _ _ hy
          rw [hy] at hz
          cases hz
          have := congrArg List.length hst
          simp at this
          omega
      · obtain ⟨c, f, g, rfl⟩ := isSemi_eq h2
        exact ⟨c, rfl⟩
      · rw [List.filter_eq_self] at hs ⊢
        exact fun t ht => hs t (by simp [ht])

/-- C75 for `ParseSQL`: an accepted script (up to a semicolon that comes first) consists of parts closed by semicolons, one
for each statement, and each part begins with the words for the kind of its statement. -/
theorem C75_script (fns : FloatFns) (mode : Bool) (toks : List Token) (hk : KwOK toks) (n : Nat)
    (hn : 3 * toks.length + 3 ≤ n) (ss : List Stmt) (h : runSQL fns n mode toks = .ok ss ()) :
    ∃ lead parts, significant toks = lead ++ parts ∧ LeadSemi lead ∧ PartsBegin parts ss := by
  obtain ⟨lead, a, h1, h2, -, h3⟩ := (C26_splits fns mode toks hk n hn ss).1 h
  refine ⟨lead, a, h1, h2, splits_begin fns n h3 (fun t ht => ?_) ?_⟩
  · exact hk t (List.mem_filter.1 (by rw [h1]; simp [ht] : t ∈ toks.filter Token.sig)).1
  · have : (toks.filter Token.sig).filter Token.sig = toks.filter Token.sig := by simp
    rw [h1, List.filter_eq_self] at this
    exact List.filter_eq_self.2 fun t ht => this t (by simp [ht])

/-- C75 for source texts: a text that begins with none of the words of the table is no statement. -/
theorem C75_source (fns : FloatFns) (n fuel : Nat) (mode keep : Bool) (d : Dialect) (src : Str) (toks : List Token)
    (ht : tokenize d keep fuel src = .ok toks) (hb : ∀ x, ¬ beginsAs x (significant toks)) (s : Stmt) :
    runStatement fns n mode toks ≠ .ok s () := by
  intro h
  obtain ⟨x, -, hx⟩ := C75_begins fns n mode toks (tokenizeFrom_kwOK ht) s h
  exact hb x hx

/-- Hypotheses met, and every row of the table occurs. -/
example (fns : FloatFns) : ∀ r ∈ [
    ((str% "select 1;"), 0, Form.query), ((str% "WITH a AS (SELECT 1) SELECT 2;"), 0, .query),
    ((str% "INSERT INTO t VALUES (1);"), 0, .insert), ((str% "update t set a = 1;"), 0, .update),
    ((str% "DELETE FROM t;"), 0, .delete), ((str% "CREATE VIEW v AS SELECT 1;"), 0, .createView),
    ((str% "CREATE MATERIALIZED VIEW v AS SELECT 1;"), 0, .createView), ((str% "CREATE TABLE t (a int);"), 0, .createTable),
    ((str% "CREATE INDEX ON t (a);"), 0, .createIndex), ((str% "CREATE UNIQUE INDEX i ON t (a);"), 0, .createIndex),
    ((str% "ALTER TABLE t DROP COLUMN a;"), 0, .alterTable), ((str% "DROP TABLE t;"), 0, .dropTable),
    ((str% "DROP INDEX i;"), 0, .dropIndex), ((str% "EXPLAIN EXPLAIN DELETE FROM t;"), 2, .delete)],
    (match runStatement fns 60 false (textToks r.1) with
      | .ok s _ => s.form == some r.2 | _ => false) = true := by
  simp only [List.forall_mem_cons, List.not_mem_nil, false_implies, implies_true, and_true]
  refine ⟨?_, ?_, ?_, ?_, ?_, ?_, ?_, ?_, ?_, ?_, ?_, ?_, ?_, ?_⟩ <;> kernel_rfl

/-- Hypotheses met. -/
example (fns : FloatFns) : ∃ ss, runSQL fns 200 false (textToks (str% "EXPLAIN SELECT a; DROP TABLE t;")) = .ok ss () ∧
    ss.map Stmt.form = [some (1, .query), some (0, .dropTable)] := by
  have h : (match runSQL fns 200 false (textToks (str% "EXPLAIN SELECT a; DROP TABLE t;")) with
    | .ok ss _ => ss.map Stmt.form == [some (1, .query), some (0, .dropTable)] | _ => false) = true := by kernel_rfl
  split at h
  · rename_i ss _ hs
    exact ⟨ss, hs, by simpa using h⟩
  · cases h

/-- Hypotheses met: `EXPLAIN CREATE FUNCTION f;`. -/
example (fns : FloatFns) (s : Stmt) : runStatement fns 60 false (textToks (str% "EXPLAIN CREATE FUNCTION f;")) ≠ .ok s () := by
  refine C75_source fns 60 200 false true genericDialect (str% "EXPLAIN CREATE FUNCTION f;") _ (by kernel_rfl) ?_ s
  rintro ⟨m, f⟩ ⟨ks, hm, h⟩
  have hm : (ks, f) ∈ beginnings := hm
  have h : beginsWith (List.replicate m .EXPLAIN ++ ks) (significant (textToks (str% "EXPLAIN CREATE FUNCTION f;"))) = true := h
  match m with
  | 0 =>
    have : ∀ r ∈ beginnings, beginsWith r.1 (significant (textToks (str% "EXPLAIN CREATE FUNCTION f;"))) = false := by
      decide +kernel
    rw [List.replicate_zero, List.nil_append, this _ hm] at h
    cases h
  | 1 =>
    have : ∀ r ∈ beginnings, beginsWith (.EXPLAIN :: r.1)
        (significant (textToks (str% "EXPLAIN CREATE FUNCTION f;"))) = false := by decide +kernel
    rw [show List.replicate 1 KW.EXPLAIN ++ ks = .EXPLAIN :: ks from rfl, this _ hm] at h
    cases h
  | m + 2 =>
    have := begins_prefix h (ks' := [.EXPLAIN, .CREATE]) (by decide +kernel)
    simp [List.replicate_succ] at this

end Verif
