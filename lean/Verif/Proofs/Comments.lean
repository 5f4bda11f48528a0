import Verif.Proofs.Zipper
import Verif.Proofs.Positions
/-
The comment table of the parser.  `grp` groups the comments of a whole token list; the invariant `CInv`
says that the table always holds exactly the groups of the tokens read so far, whatever the parser re-reads.
-/
set_option linter.unusedSimpArgs false
namespace Verif

/-- The comment of a comment token. -/
def commentOf (t : Token) : Option Comment :=
  match t.tok with
  | .comment s => some ⟨s, t.from_, t.to_⟩
  | _ => none

/-- The groups of a token list: `before` are the tokens before it in reverse, `m` is the open group. -/
def grp : List Token → List Token → List Comment → List CommentGroup
  | [], _, m => if m = [] then [] else [⟨m⟩]
  | t :: ts, before, m =>
    match t.tok with
    | .whitespace s =>
      if s ≠ ['\n'] ∨ m = [] then grp ts (t :: before) m
      else if splitGroup t.from_.line (t :: before) then ⟨m⟩ :: grp ts (t :: before) []
      else grp ts (t :: before) m
    | .comment s => grp ts (t :: before) (m ++ [⟨s, t.from_, t.to_⟩])
    | _ => (if m = [] then [] else [⟨m⟩]) ++ grp ts (t :: before) []

/-- The three kinds of tokens. -/
theorem tok_cases (t : Token) : (∃ s, t.tok = .whitespace s ∧ t.sig = false ∧ commentOf t = none) ∨
    (∃ s, t.tok = .comment s ∧ t.sig = false ∧ commentOf t = some ⟨s, t.from_, t.to_⟩) ∨
    (t.sig = true ∧ commentOf t = none ∧ ∀ s, t.tok ≠ .whitespace s ∧ t.tok ≠ .comment s) := by
  cases h : t.tok <;> simp [Token.sig, h, Tok.insignificant, commentOf]

theorem grp_sig {t : Token} (h : t.sig = true) (ts before : List Token) (m : List Comment) :
    grp (t :: ts) before m = (if m = [] then [] else [⟨m⟩]) ++ grp ts (t :: before) [] := by
  rcases tok_cases t with ⟨s, -, h', -⟩ | ⟨s, -, h', -⟩ | ⟨-, -, h'⟩
  · simp [h] at h'
  · simp [h] at h'
  · rw [grp]
    split
    · exact absurd ‹_› (h' _).1
    · exact absurd ‹_› (h' _).2
    · rfl

theorem grp_ws {t : Token} {s : Str} (h : t.tok = .whitespace s) (ts before : List Token) (m : List Comment) :
    grp (t :: ts) before m =
      if s ≠ ['\n'] ∨ m = [] then grp ts (t :: before) m
      else if splitGroup t.from_.line (t :: before) then ⟨m⟩ :: grp ts (t :: before) []
      else grp ts (t :: before) m := by
  rw [grp]; simp [h]

theorem grp_comment {t : Token} {s : Str} (h : t.tok = .comment s) (ts before : List Token)
    (m : List Comment) :
    grp (t :: ts) before m = grp ts (t :: before) (m ++ [⟨s, t.from_, t.to_⟩]) := by
  rw [grp]; simp [h]

theorem commentLoop_sig {t : Token} (h : t.sig = true) (cm : List (Pos × CommentGroup)) (ts before : List Token)
    (i : Nat) (skip : Bool) (groups : List CommentGroup) (m : List Comment) :
    commentLoop cm (t :: ts) before i skip groups m =
      (some t, i + 1, if m = [] then groups else groups ++ [⟨m⟩]) := by
  rcases tok_cases t with ⟨s, -, h', -⟩ | ⟨s, -, h', -⟩ | ⟨-, -, h'⟩
  · simp [h] at h'
  · simp [h] at h'
  · rw [commentLoop]
    split
    · exact absurd ‹_› (h' _).1
    · exact absurd ‹_› (h' _).2
    · rfl

/-- No comment is lost or reordered by grouping. -/
theorem grp_flat : ∀ (ts before : List Token) (m : List Comment),
    (grp ts before m).flatMap (·.list) = m ++ ts.filterMap commentOf
  | [], before, m => by by_cases h : m = [] <;> simp [grp, h]
  | t :: ts, before, m => by
    have ih := grp_flat ts
    rcases tok_cases t with ⟨s, h1, -, h2⟩ | ⟨s, h1, -, h2⟩ | ⟨h1, h2, -⟩
    · rw [grp_ws h1]
      simp only [List.filterMap_cons, h2]
      split
      · exact ih ..
      · split
        · simp [ih]
        · exact ih ..
    · rw [grp_comment h1, ih]
      simp [List.filterMap_cons, h2]
    · rw [grp_sig h1]
      by_cases h : m = [] <;> simp [h, ih, List.filterMap_cons, h2]

theorem grp_ne_nil : ∀ (ts before : List Token) (m : List Comment), ∀ g ∈ grp ts before m, g.list ≠ []
  | [], before, m => by by_cases h : m = [] <;> simp [grp, h]
  | t :: ts, before, m => by
    have ih := grp_ne_nil ts
    rcases tok_cases t with ⟨s, h1, -, h2⟩ | ⟨s, h1, -, h2⟩ | ⟨h1, h2, -⟩
    · rw [grp_ws h1]
      split
      · exact ih _ _
      · rename_i h
        split
        · intro g hg
          rcases List.mem_cons.1 hg with rfl | hg
          · simp at h; exact h.2
          · exact ih _ _ g hg
        · exact ih _ _
    · rw [grp_comment h1]; exact ih _ _
    · rw [grp_sig h1]
      intro g hg
      rcases List.mem_append.1 hg with hg | hg
      · by_cases h : m = []
        · simp [h] at hg
        · simp [h] at hg; subst hg; exact h
      · exact ih _ _ g hg

/-- An open group stays the first group. -/
theorem grp_head : ∀ (ts before : List Token) (c : Comment) (m : List Comment),
    ∃ m' gs, grp ts before (c :: m) = ⟨c :: m'⟩ :: gs
  | [], before, c, m => ⟨m, [], by simp [grp]⟩
  | t :: ts, before, c, m => by
    have ih := grp_head ts
    rcases tok_cases t with ⟨s, h1, -, h2⟩ | ⟨s, h1, -, h2⟩ | ⟨h1, h2, -⟩
    · rw [grp_ws h1]
      split
      · exact ih ..
      · split
        · exact ⟨_, _, rfl⟩
        · exact ih ..
    · rw [grp_comment h1]
      simp only [List.cons_append]
      exact ih ..
    · rw [grp_sig h1]
      exact ⟨m, _, by simp; rfl⟩

/-- Grouping is compositional at a significant token. -/
theorem grp_append : ∀ (A : List Token) (t : Token) (B before : List Token) (m : List Comment), t.sig = true →
    grp (A ++ t :: B) before m = grp (A ++ [t]) before m ++ grp B (t :: (A.reverse ++ before)) []
  | [], t, B, before, m, h => by
    simp only [List.nil_append]
    rw [grp_sig h, grp_sig h]
    simp [grp]
  | a :: A, t, B, before, m, h => by
    have ih := grp_append A t B
    rcases tok_cases a with ⟨s, h1, -, h2⟩ | ⟨s, h1, -, h2⟩ | ⟨h1, h2, -⟩
    · simp only [List.cons_append]
      rw [grp_ws h1, grp_ws h1]
      split
      · rw [ih _ _ h]; simp
      · split
        · rw [ih _ _ h]; simp
        · rw [ih _ _ h]; simp
    · simp only [List.cons_append]
      rw [grp_comment h1, grp_comment h1, ih _ _ h]; simp
    · simp only [List.cons_append]
      rw [grp_sig h1, grp_sig h1, ih _ _ h]; simp

/-! ### What one `nextToken` collects -/

/-- Collecting in new territory. -/
theorem commentLoop_new (cm : List (Pos × CommentGroup)) : ∀ (ts before : List Token) (i : Nat)
    (groups : List CommentGroup) (m : List Comment),
    (∀ t ∈ ts, mapHas cm t.from_ = false) →
    (commentLoop cm ts before i false groups m).2.2 =
      groups ++ grp (ts.take ((nextLoop ts i).2 - i)) before m
  | [], before, i, groups, m, _ => by
    by_cases h : m = [] <;> simp [commentLoop, nextLoop, grp, h]
  | t :: ts, before, i, groups, m, hk => by
    have ih := commentLoop_new cm ts (t :: before) (i + 1)
    have hk' : ∀ t ∈ ts, mapHas cm t.from_ = false := fun x hx => hk x (List.mem_cons_of_mem _ hx)
    have hge : i + 1 ≤ (nextLoop ts (i + 1)).2 := by
      rcases nextLoop_spec ts (i + 1) with ⟨h1, -⟩ | ⟨pre, t', post, -, -, -, h4⟩
      · rw [h1]; simp
      · rw [h4]; simp; omega
    rcases tok_cases t with ⟨s, h1, h0, h2⟩ | ⟨s, h1, h0, h2⟩ | ⟨h1, h2, -⟩
    · have e : (nextLoop (t :: ts) i).2 - i = ((nextLoop ts (i + 1)).2 - (i + 1)) + 1 := by
        simp [nextLoop, h0]; omega
      rw [e, List.take_succ_cons, grp_ws h1, commentLoop]
      simp only [h1]
      split
      · exact ih _ _ hk'
      · split
        · rw [ih _ _ hk']; simp
        · exact ih _ _ hk'
    · have e : (nextLoop (t :: ts) i).2 - i = ((nextLoop ts (i + 1)).2 - (i + 1)) + 1 := by
        simp [nextLoop, h0]; omega
      rw [e, List.take_succ_cons, grp_comment h1, commentLoop]
      simp only [h1, hk t List.mem_cons_self]
      exact ih _ _ hk'
    · have e : (nextLoop (t :: ts) i).2 - i = 1 := by simp [nextLoop, h1]
      rw [e, commentLoop_sig h1, List.take_succ_cons, List.take_zero, grp_sig h1]
      by_cases h : m = [] <;> simp [h, grp]

/-- Nothing is collected where the first comment is known. -/
theorem commentLoop_old (cm : List (Pos × CommentGroup)) : ∀ (ts before : List Token) (i : Nat) (skip : Bool),
    (skip = true ∨ ∀ pre t post, ts = pre ++ t :: post → (∀ x ∈ pre, x.sig = false ∧ commentOf x = none) →
      (∃ s, t.tok = .comment s) → mapHas cm t.from_ = true) →
    (commentLoop cm ts before i skip [] []).2.2 = []
  | [], before, i, skip, _ => by simp [commentLoop]
  | t :: ts, before, i, skip, hk => by
    have ih := commentLoop_old cm ts (t :: before) (i + 1)
    rcases tok_cases t with ⟨s, h1, h0, h2⟩ | ⟨s, h1, h0, h2⟩ | ⟨h1, h2, -⟩
    · rw [commentLoop]
      simp only [h1]
      rw [if_pos (.inr trivial)]
      apply ih
      rcases hk with hk | hk
      · exact .inl hk
      · refine .inr fun pre t' post he hp ht => hk (t :: pre) t' post (by simp [he]) ?_ ht
        intro x hx
        rcases List.mem_cons.1 hx with rfl | hx
        · exact ⟨h0, h2⟩
        · exact hp x hx
    · rw [commentLoop]
      simp only [h1]
      by_cases hs : skip = true
      · simp only [hs, if_true]
        exact ih true (.inl rfl)
      · rcases hk with hk | hk
        · exact absurd hk hs
        · have := hk [] t ts rfl (by simp) ⟨s, h1⟩
          simp only [hs, this, if_true]
          exact ih true (.inl rfl)
    · rw [commentLoop_sig h1]; simp

/-! ### The table as a list of groups -/

def keyed (gs : List CommentGroup) : List (Pos × CommentGroup) := gs.map fun g => (g.pos, g)

theorem mapHas_keyed (gs : List CommentGroup) (k : Pos) :
    mapHas (keyed gs) k = true ↔ ∃ g ∈ gs, g.pos = k := by
  simp [mapHas, keyed]

theorem mapInsert_new : ∀ (m : List (Pos × CommentGroup)) (k : Pos) (v : CommentGroup), mapHas m k = false →
    mapInsert m k v = m ++ [(k, v)]
  | [], k, v, _ => rfl
  | (k', v') :: m, k, v, h => by
    simp [mapHas] at h
    rw [mapInsert, if_neg h.1, mapInsert_new m k v (by simpa [mapHas] using h.2)]
    rfl

theorem record_new : ∀ (gs : List CommentGroup) (old : List CommentGroup),
    (∀ g ∈ gs, g.list ≠ []) → (old ++ gs).Pairwise (fun a b => a.pos ≠ b.pos) →
    record (keyed old) gs = keyed (old ++ gs)
  | [], old, _, _ => by simp [record]
  | g :: gs, old, hne, hp => by
    have h1 : mapHas (keyed old) g.pos = false := by
      rw [← Bool.not_eq_true, mapHas_keyed]
      rintro ⟨g', hg', he⟩
      have := (List.pairwise_append.1 hp).2.2 g' hg' g List.mem_cons_self
      exact this he
    have e : record (keyed old) (g :: gs) = record (keyed (old ++ [g])) gs := by
      simp only [record, List.foldl_cons]
      rw [if_neg (hne g List.mem_cons_self), mapInsert_new _ _ _ h1]
      simp [keyed]
    rw [e, record_new gs (old ++ [g]) (fun g' h => hne g' (List.mem_cons_of_mem _ h)) (by simpa using hp)]
    simp

/-- Token lists whose start positions are strictly sorted. -/
def Sorted (toks : List Token) : Prop := toks.Pairwise fun a b => comparePos a.from_ b.from_ = -1

theorem Sorted.comments {toks : List Token} (h : Sorted toks) :
    (toks.filterMap commentOf).Pairwise fun a b => comparePos a.from_ b.from_ = -1 := by
  unfold Sorted at h
  rw [List.pairwise_filterMap]
  refine h.imp ?_
  intro a b hab c hc c' hc'
  rcases tok_cases a with ⟨s, h1, -, h2⟩ | ⟨s, h1, -, h2⟩ | ⟨h1, h2, -⟩
  · simp [h2] at hc
  · rcases tok_cases b with ⟨s', h1', -, h2'⟩ | ⟨s', h1', -, h2'⟩ | ⟨h1', h2', -⟩
    · simp [h2'] at hc'
    · rw [h2] at hc; rw [h2'] at hc'
      cases hc; cases hc'
      exact hab
    · simp [h2'] at hc'
  · simp [h2] at hc

theorem groups_sorted : ∀ (gs : List CommentGroup), (∀ g ∈ gs, g.list ≠ []) →
    (gs.flatMap (·.list)).Pairwise (fun a b => comparePos a.from_ b.from_ = -1) →
    gs.Pairwise fun a b => comparePos a.pos b.pos = -1
  | [], _, _ => List.Pairwise.nil
  | g :: gs, hne, hp => by
    rw [List.flatMap_cons, List.pairwise_append] at hp
    refine List.Pairwise.cons ?_ (groups_sorted gs (fun g' h => hne g' (List.mem_cons_of_mem _ h)) hp.2.1)
    intro g' hg'
    have h1 := hne g List.mem_cons_self
    have h2 := hne g' (List.mem_cons_of_mem _ hg')
    cases hgl : g.list with
    | nil => exact absurd hgl h1
    | cons c cs =>
      cases hgl' : g'.list with
      | nil => exact absurd hgl' h2
      | cons c' cs' =>
        simp only [CommentGroup.pos, hgl, hgl']
        exact hp.2.2 c (by simp [hgl]) c' (List.mem_flatMap.2 ⟨g', hg', by simp [hgl']⟩)

theorem comparePos_self (x : Pos) : comparePos x x = 0 := by simp [comparePos]

theorem groups_distinct {gs : List CommentGroup} (h : gs.Pairwise fun a b => comparePos a.pos b.pos = -1) :
    gs.Pairwise fun a b => a.pos ≠ b.pos := by
  refine h.imp ?_
  intro a b hab he
  rw [he, comparePos_self] at hab
  exact absurd hab (by decide)

/-- Every group position is the position of a comment token. -/
theorem grp_pos_mem {ts before : List Token} {g : CommentGroup} (hg : g ∈ grp ts before []) :
    ∃ t ∈ ts, g.pos = t.from_ := by
  have hne := grp_ne_nil _ _ _ g hg
  cases hgl : g.list with
  | nil => exact absurd hgl hne
  | cons c cs =>
    have hmem : c ∈ (grp ts before []).flatMap (·.list) := List.mem_flatMap.2 ⟨g, hg, by simp [hgl]⟩
    rw [grp_flat, List.nil_append, List.mem_filterMap] at hmem
    obtain ⟨t, ht, hc⟩ := hmem
    refine ⟨t, ht, ?_⟩
    rcases tok_cases t with ⟨s, h1, -, h2⟩ | ⟨s, h1, -, h2⟩ | ⟨h1, h2, -⟩
    · simp [h2] at hc
    · rw [h2] at hc; cases hc; simp [CommentGroup.pos, hgl]
    · simp [h2] at hc

/-! ### The invariant -/

def SigAt (toks : List Token) (i : Nat) : Prop := ∃ t, toks[i]? = some t ∧ t.sig = true

/-- `hi` is the furthest index read so far. -/
structure CInv (s : PState) (hi : Nat) : Prop where
  le : s.idx ≤ hi
  hile : hi ≤ s.toks.length
  hiOK : hi = 0 ∨ hi = s.toks.length ∨ (0 < hi ∧ SigAt s.toks (hi - 1))
  pos : s.idx = 0 ∨ s.idx = s.toks.length ∨ (0 < s.idx ∧ SigAt s.toks (s.idx - 1)) ∨ SigAt s.toks s.idx
  table : s.comments = keyed (grp (s.toks.take hi) [] [])

theorem take_succ_of_sig {toks : List Token} {i : Nat} (h0 : 0 < i) (h : SigAt toks (i - 1)) :
    ∃ A t, t.sig = true ∧ toks.take i = A ++ [t] ∧ A.length = i - 1 := by
  obtain ⟨t, h1, h2⟩ := h
  refine ⟨toks.take (i - 1), t, h2, ?_, ?_⟩
  · have hi : i = (i - 1) + 1 := by omega
    conv => lhs; rw [hi]
    rw [List.take_add_one, h1]; rfl
  · have : i - 1 < toks.length := by
      rcases Nat.lt_or_ge (i - 1) toks.length with h | h
      · exact h
      · rw [List.getElem?_eq_none h] at h1; exact absurd h1 (by simp)
    simp; omega

/-- Splitting the groups at an index that is 0 or behind a significant token. -/
theorem grp_split {toks : List Token} {i : Nat} (h : i = 0 ∨ (0 < i ∧ SigAt toks (i - 1))) (B : List Token) :
    grp (toks.take i ++ B) [] [] = grp (toks.take i) [] [] ++ grp B (toks.take i).reverse [] := by
  rcases h with rfl | ⟨h0, h⟩
  · simp [grp]
  · obtain ⟨A, t, ht, hA, -⟩ := take_succ_of_sig h0 h
    rw [hA, List.append_assoc]
    simp only [List.singleton_append]
    rw [grp_append A t B [] [] ht]
    simp

theorem grp_take_end {toks : List Token} {i : Nat} (h : i = 0 ∨ i = toks.length ∨ (0 < i ∧ SigAt toks (i - 1)))
    (n : Nat) (hn : i + n ≤ toks.length) :
    grp (toks.take (i + n)) [] [] =
      grp (toks.take i) [] [] ++ grp ((toks.drop i).take n) (toks.take i).reverse [] := by
  rw [List.take_add]
  rcases h with h | h | h
  · exact grp_split (.inl h) _
  · have : n = 0 := by omega
    subst this
    simp [grp]
  · exact grp_split (.inr h) _

theorem next_inv {s : PState} {hi : Nat} (hs : Sorted s.toks) (h : CInv s hi) :
    ∃ hi', hi ≤ hi' ∧ CInv (s.next true).2 hi' := by
  have hc := next_cursor true s
  have ht := next_toks true s
  have hcom : (s.next true).2.comments = record s.comments
      (commentLoop s.comments (s.toks.drop s.idx) (s.toks.take s.idx).reverse s.idx false [] []).2.2 := rfl
  have hidx : (s.next true).2.idx = (nextLoop (s.toks.drop s.idx) s.idx).2 := by rw [← hc]
  have hle := h.le
  have hhile := h.hile
  -- the position reached
  have hreach : s.idx ≤ (s.next true).2.idx ∧ (s.next true).2.idx ≤ s.toks.length ∧
      ((s.next true).2.idx = s.toks.length ∨ (0 < (s.next true).2.idx ∧ SigAt s.toks ((s.next true).2.idx - 1))) ∧
      ∀ j, s.idx ≤ j → SigAt s.toks j → (s.next true).2.idx ≤ j + 1 := by
    rw [hidx]
    rcases nextLoop_spec (s.toks.drop s.idx) s.idx with ⟨h1, h2⟩ | ⟨pre, t, post, h1, h2, h3, h4⟩
    · rw [h1]
      have e : s.idx + (s.toks.drop s.idx).length = s.toks.length := by simp; omega
      refine ⟨by simp, by rw [e]; exact Nat.le_refl _, .inl e, ?_⟩
      rintro j hj ⟨t, ht1, ht2⟩
      have hm : t ∈ s.toks.drop s.idx := by
        rw [List.mem_iff_getElem?]
        exact ⟨j - s.idx, by rw [List.getElem?_drop]; rw [show s.idx + (j - s.idx) = j by omega]; exact ht1⟩
      rw [h2 t hm] at ht2
      exact absurd ht2 (by simp)
    · rw [h4]
      have hl := congrArg List.length h1
      simp at hl
      have hsig : SigAt s.toks (s.idx + pre.length) := by
        refine ⟨t, ?_, h3⟩
        rw [← List.getElem?_drop, h1, List.getElem?_append_right (Nat.le_refl _)]
        simp
      refine ⟨by simp; omega, by simp; omega, .inr ⟨by simp, by simpa using hsig⟩, ?_⟩
      rintro j hj ⟨t', ht1, ht2⟩
      rcases Nat.lt_or_ge (j - s.idx) pre.length with hlt | hge
      · have hm : t' ∈ pre := by
          rw [List.mem_iff_getElem?]
          refine ⟨j - s.idx, ?_⟩
          have : (s.toks.drop s.idx)[j - s.idx]? = some t' := by
            rw [List.getElem?_drop, show s.idx + (j - s.idx) = j by omega]; exact ht1
          rw [h1, List.getElem?_append_left hlt] at this
          exact this
        rw [h2 t' hm] at ht2
        exact absurd ht2 (by simp)
      · simp; omega
  obtain ⟨hr1, hr2, hr3, hr4⟩ := hreach
  have hpos' : (s.next true).2.idx = 0 ∨ (s.next true).2.idx = (s.next true).2.toks.length ∨
      (0 < (s.next true).2.idx ∧ SigAt (s.next true).2.toks ((s.next true).2.idx - 1)) ∨
      SigAt (s.next true).2.toks (s.next true).2.idx := by
    rw [ht]
    rcases hr3 with hr3 | hr3
    · exact .inr (.inl hr3)
    · exact .inr (.inr (.inl hr3))
  by_cases hnew : s.idx = hi
  · -- new territory
    refine ⟨(s.next true).2.idx, by omega, ⟨Nat.le_refl _, by rw [ht]; exact hr2, ?_, hpos', ?_⟩⟩
    · rw [ht]; exact .inr hr3
    · have hk : ∀ t ∈ s.toks.drop s.idx, mapHas s.comments t.from_ = false := by
        intro t htm
        rw [h.table, ← Bool.not_eq_true, mapHas_keyed]
        rintro ⟨g, hg, he⟩
        obtain ⟨t', ht', he'⟩ := grp_pos_mem hg
        have hp : (s.toks.take hi ++ s.toks.drop hi).Pairwise
            (fun a b => comparePos a.from_ b.from_ = -1) := by
          rw [List.take_append_drop]; exact hs
        have := (List.pairwise_append.1 hp).2.2 t' ht' t (by rw [← hnew]; exact htm)
        rw [← he', he, comparePos_self] at this
        exact absurd this (by decide)
      rw [hcom, commentLoop_new _ _ _ _ _ _ hk, List.nil_append, h.table, ht, hidx]
      have hn : s.idx ≤ (nextLoop (s.toks.drop s.idx) s.idx).2 := by rw [← hidx]; exact hr1
      have hsplit := grp_take_end (toks := s.toks) (i := hi) h.hiOK
        ((nextLoop (s.toks.drop s.idx) s.idx).2 - hi) (by rw [← hidx]; omega)
      rw [show hi + ((nextLoop (s.toks.drop s.idx) s.idx).2 - hi) = (nextLoop (s.toks.drop s.idx) s.idx).2 by omega]
        at hsplit
      rw [hsplit, ← hnew]
      apply record_new
      · exact grp_ne_nil _ _ _
      · apply groups_distinct
        apply groups_sorted
        · intro g hg
          rcases List.mem_append.1 hg with hg | hg <;> exact grp_ne_nil _ _ _ g hg
        · rw [List.flatMap_append, grp_flat, grp_flat, List.nil_append, List.nil_append,
            ← List.filterMap_append, ← List.take_add]
          apply Sorted.comments
          exact List.Pairwise.sublist (List.take_sublist _ _) hs
  · -- old territory
    have hlt : s.idx < hi := by omega
    have hle' : (s.next true).2.idx ≤ hi := by
      rcases h.hiOK with h0 | h0 | ⟨h0, h0'⟩
      · omega
      · rw [h0]; exact hr2
      · have := hr4 (hi - 1) (by omega) h0'
        omega
    refine ⟨hi, Nat.le_refl _, ⟨hle', by rw [ht]; exact hhile, by rw [ht]; exact h.hiOK, hpos', ?_⟩⟩
    have hgroups : (commentLoop s.comments (s.toks.drop s.idx) (s.toks.take s.idx).reverse s.idx false [] []).2.2 = [] := by
      apply commentLoop_old
      refine .inr ?_
      intro pre t post he hp hcm
      obtain ⟨str, hstr⟩ := hcm
      have hpos : s.idx = 0 ∨ (0 < s.idx ∧ SigAt s.toks (s.idx - 1)) := by
        rcases h.pos with h0 | h0 | h0 | ⟨t0, h0, h0'⟩
        · exact .inl h0
        · omega
        · exact .inr h0
        · exfalso
          have e0 : (s.toks.drop s.idx)[0]? = some t0 := by rw [List.getElem?_drop]; exact h0
          rw [he] at e0
          cases pre with
          | nil =>
            simp at e0; subst e0
            simp [Token.sig, hstr, Tok.insignificant] at h0'
          | cons x xs =>
            simp at e0; subst e0
            rw [(hp x List.mem_cons_self).1] at h0'
            exact absurd h0' (by simp)
      -- the comment lies before `hi`
      have hl := congrArg List.length he
      simp at hl
      have hin : s.idx + pre.length < hi := by
        rcases h.hiOK with h0 | h0 | ⟨h0, h0'⟩
        · omega
        · omega
        · rcases Nat.lt_or_ge (s.idx + pre.length) hi with hlt' | hge
          · exact hlt'
          · exfalso
            obtain ⟨t0, h1, h2⟩ := h0'
            have e1 : (s.toks.drop s.idx)[hi - 1 - s.idx]? = some t0 := by
              rw [List.getElem?_drop, show s.idx + (hi - 1 - s.idx) = hi - 1 by omega]; exact h1
            rw [he, List.getElem?_append_left (by omega)] at e1
            have := (hp t0 (List.mem_of_getElem? e1)).1
            rw [this] at h2
            exact absurd h2 (by simp)
      have hsplit := grp_take_end (toks := s.toks) (i := s.idx)
        (by rcases hpos with h0 | h0
            · exact .inl h0
            · exact .inr (.inr h0)) (hi - s.idx) (by omega)
      rw [show s.idx + (hi - s.idx) = hi by omega] at hsplit
      rw [h.table, mapHas_keyed, hsplit]
      have htake : (s.toks.drop s.idx).take (hi - s.idx) = pre ++ t :: post.take (hi - s.idx - pre.length - 1) := by
        rw [he, show hi - s.idx = pre.length + ((hi - s.idx - pre.length - 1) + 1) by omega,
          List.take_length_add_append, List.take_succ_cons]
        congr 3
        omega
      have hpre : ∀ (pre rest before : List Token), (∀ x ∈ pre, x.sig = false ∧ commentOf x = none) →
          grp (pre ++ rest) before [] = grp rest (pre.reverse ++ before) [] := by
        intro pre
        induction pre with
        | nil => simp
        | cons x xs ih =>
          intro rest before hx
          have hx0 := hx x List.mem_cons_self
          rcases tok_cases x with ⟨s, h1, -, h2⟩ | ⟨s, h1, -, h2⟩ | ⟨h1, h2, -⟩
          · simp only [List.cons_append]
            rw [grp_ws h1, if_pos (.inr rfl), ih _ _ (fun y hy => hx y (List.mem_cons_of_mem _ hy))]
            simp
          · rw [h2] at hx0; exact absurd hx0.2 (by simp)
          · rw [h1] at hx0; exact absurd hx0.1 (by simp)
      rw [htake, hpre _ _ _ hp, grp_comment hstr]
      obtain ⟨m', gs, hgs⟩ := grp_head (post.take (hi - s.idx - pre.length - 1))
        (t :: (pre.reverse ++ (s.toks.take s.idx).reverse)) ⟨str, t.from_, t.to_⟩ []
      refine ⟨⟨⟨str, t.from_, t.to_⟩ :: m'⟩, List.mem_append.2 (.inr ?_), rfl⟩
      rw [List.nil_append, hgs]
      exact List.mem_cons_self
    rw [hcom, hgroups, ht, ← h.table]
    rfl

theorem keywords_inv : ∀ (ks : List Str) (s : PState) (acc : List Token) (hi : Nat), Sorted s.toks → CInv s hi →
    ∃ hi', hi ≤ hi' ∧ CInv (PState.keywords true ks s acc).2 hi' ∧
      (PState.keywords true ks s acc).2.toks = s.toks
  | [], s, acc, hi, _, h => ⟨hi, Nat.le_refl _, h, rfl⟩
  | k :: ks, s, acc, hi, hs, h => by
    unfold PState.keywords
    cases hp : s.peek with
    | none => exact ⟨hi, Nat.le_refl _, h, rfl⟩
    | some t =>
      by_cases hm : t.matchesKw k = true
      · obtain ⟨hi1, hle1, h1⟩ := next_inv hs h
        have hs1 : Sorted (s.next true).2.toks := by rw [next_toks]; exact hs
        obtain ⟨hi2, hle2, h2, h3⟩ := keywords_inv ks (s.next true).2 (t :: acc) hi1 hs1 h1
        simp only [hm, if_true]
        exact ⟨hi2, by omega, h2, by rw [h3, next_toks]⟩
      · simp only [hm]
        exact ⟨hi, Nat.le_refl _, h, rfl⟩

theorem kws_inv {s : PState} {hi : Nat} (ks : List Str) (hs : Sorted s.toks) (h : CInv s hi) :
    ∃ hi', hi ≤ hi' ∧ CInv (s.kws true ks).2 hi' ∧ (s.kws true ks).2.toks = s.toks := by
  obtain ⟨hi', hle, h1, h2⟩ := keywords_inv ks s [] hi hs h
  unfold PState.kws
  rcases hk : PState.keywords true ks s [] with ⟨r, s'⟩
  rw [hk] at h1 h2
  cases r with
  | some toks => exact ⟨hi', hle, h1, h2⟩
  | none =>
    refine ⟨hi', hle, ⟨Nat.le_trans h.le hle, h1.hile, h1.hiOK, ?_, h1.table⟩, h2⟩
    have := h.pos
    rw [← h2] at this
    exact this

theorem prev_inv {s s' : PState} {hi : Nat} (h : CInv s hi) (he : s.prev = some s') :
    CInv s' hi ∧ s'.toks = s.toks := by
  have hl : s.idx ≤ s.toks.length := Nat.le_trans h.le h.hile
  rcases prev_view s hl with ⟨-, h2⟩ | ⟨t, rest, s'', -, h2, -, -, h5, h6, h7, h8⟩
  · rw [h2] at he; exact absurd he (by simp)
  · rw [h2] at he; cases he
    refine ⟨⟨by have := h.le; omega, by rw [h6]; exact h.hile, by rw [h6]; exact h.hiOK, ?_, by rw [h7, h6]; exact h.table⟩, h6⟩
    refine .inr (.inr (.inr ?_))
    rw [h6]
    cases hg : s.toks[s'.idx]? with
    | none => rw [hg] at h8; simp at h8
    | some t' => rw [hg] at h8; exact ⟨t', hg, by simpa using h8⟩

/-- The invariant holds after every program. -/
theorem run_inv : ∀ (p : P α) (s : PState) (hi : Nat), Sorted s.toks → CInv s hi →
    ∀ a s', p.run true s = .ok a s' → ∃ hi', hi ≤ hi' ∧ CInv s' hi' ∧ s'.toks = s.toks
  | .ret a, s, hi, hs, h, a', s', he => by
    simp only [P.run, Res.ok.injEq] at he
    obtain ⟨-, rfl⟩ := he
    exact ⟨hi, Nat.le_refl _, h, rfl⟩
  | .err, _, _, _, _, _, _, he => by simp [P.run] at he
  | .panic, _, _, _, _, _, _, he => by simp [P.run] at he
  | .oof, _, _, _, _, _, _, he => by simp [P.run] at he
  | .next k, s, hi, hs, h, a, s', he => by
    rw [P.run] at he
    obtain ⟨hi1, hle1, h1⟩ := next_inv hs h
    obtain ⟨hi2, hle2, h2, h3⟩ := run_inv (k (s.next true).1) _ hi1 (by rw [next_toks]; exact hs) h1 a s' he
    exact ⟨hi2, by omega, h2, by rw [h3, next_toks]⟩
  | .peek k, s, hi, hs, h, a, s', he => by
    rw [P.run] at he
    exact run_inv (k s.peek) s hi hs h a s' he
  | .prev k, s, hi, hs, h, a, s', he => by
    rw [P.run] at he
    cases hp : s.prev with
    | none => rw [hp] at he; simp at he
    | some s1 =>
      rw [hp] at he
      obtain ⟨h1, h2⟩ := prev_inv h hp
      obtain ⟨hi2, hle2, h3, h4⟩ := run_inv k s1 hi (by rw [h2]; exact hs) h1 a s' he
      exact ⟨hi2, hle2, h3, by rw [h4, h2]⟩
  | .kws ks k, s, hi, hs, h, a, s', he => by
    rw [P.run] at he
    obtain ⟨hi1, hle1, h1, h2⟩ := kws_inv ks hs h
    obtain ⟨hi2, hle2, h3, h4⟩ := run_inv (k (s.kws true ks).1) _ hi1 (by rw [h2]; exact hs) h1 a s' he
    exact ⟨hi2, by omega, h3, by rw [h4, h2]⟩

theorem inv_init (toks : List Token) : CInv (newParser toks) 0 :=
  ⟨Nat.le_refl _, Nat.zero_le _, .inl rfl, .inl rfl, by simp [newParser, grp, keyed]⟩

/-! ### Shape of the groups -/

/-- Every group is the comments of a stretch without code. -/
theorem grp_stretch : ∀ (ts before : List Token) (mid0 : List Token), (∀ t ∈ mid0, t.sig = false) →
    ∀ g ∈ grp ts before (mid0.filterMap commentOf), ∃ pre mid post, mid0 ++ ts = pre ++ mid ++ post ∧
      (∀ t ∈ mid, t.sig = false) ∧ g.list = mid.filterMap commentOf
  | [], before, mid0, h0, g, hg => by
    by_cases h : mid0.filterMap commentOf = []
    · simp [grp, h] at hg
    · simp only [grp, h, if_false, List.mem_singleton] at hg
      exact ⟨[], mid0, [], by simp, h0, by rw [hg]⟩
  | t :: ts, before, mid0, h0, g, hg => by
    have ih := grp_stretch ts (t :: before)
    have hfirst : g = ⟨mid0.filterMap commentOf⟩ → ∃ pre mid post, mid0 ++ t :: ts = pre ++ mid ++ post ∧
        (∀ t ∈ mid, t.sig = false) ∧ g.list = mid.filterMap commentOf :=
      fun he => ⟨[], mid0, t :: ts, by simp, h0, by rw [he]⟩
    have hrest : g ∈ grp ts (t :: before) [] → ∃ pre mid post, mid0 ++ t :: ts = pre ++ mid ++ post ∧
        (∀ t ∈ mid, t.sig = false) ∧ g.list = mid.filterMap commentOf := fun h => by
      obtain ⟨pre, mid, post, h1, h2, h3⟩ := ih [] (by simp) g h
      refine ⟨mid0 ++ t :: pre, mid, post, ?_, h2, h3⟩
      simp only [List.nil_append] at h1
      simp [h1]
    have hgo : t.sig = false → g ∈ grp ts (t :: before) ((mid0 ++ [t]).filterMap commentOf) →
        ∃ pre mid post, mid0 ++ t :: ts = pre ++ mid ++ post ∧
        (∀ t ∈ mid, t.sig = false) ∧ g.list = mid.filterMap commentOf := fun hs h => by
      obtain ⟨pre, mid, post, h1, h2, h3⟩ := ih (mid0 ++ [t]) (by
        intro x hx
        rcases List.mem_append.1 hx with hx | hx
        · exact h0 x hx
        · rw [List.mem_singleton.1 hx]; exact hs) g h
      exact ⟨pre, mid, post, by simpa using h1, h2, h3⟩
    rcases tok_cases t with ⟨s, h1, hs, h2⟩ | ⟨s, h1, hs, h2⟩ | ⟨h1, h2, -⟩
    · have e : (mid0 ++ [t]).filterMap commentOf = mid0.filterMap commentOf := by
        simp [List.filterMap_append, h2]
      rw [e] at hgo
      rw [grp_ws h1] at hg
      split at hg
      · exact hgo hs hg
      · split at hg
        · rcases List.mem_cons.1 hg with hg | hg
          · exact hfirst hg
          · exact hrest hg
        · exact hgo hs hg
    · rw [grp_comment h1] at hg
      apply hgo hs
      simpa [List.filterMap_append, h2] using hg
    · rw [grp_sig h1] at hg
      rcases List.mem_append.1 hg with hg | hg
      · split at hg
        · simp at hg
        · exact hfirst (by simpa using hg)
      · exact hrest hg

/-- A line break behind code ends the open group. -/
theorem grp_break : ∀ (A : List Token) (nl : Token) (B before : List Token) (m : List Comment),
    nl.tok = .whitespace ['\n'] → splitGroup nl.from_.line (nl :: (A.reverse ++ before)) = true →
    grp (A ++ nl :: B) before m = grp A before m ++ grp B (nl :: (A.reverse ++ before)) []
  | [], nl, B, before, m, h, hs => by
    simp only [List.nil_append, List.reverse_nil] at hs ⊢
    rw [grp_ws h]
    by_cases hm : m = []
    · simp [hm, grp]
    · rw [if_neg (by simp [hm]), if_pos hs]
      simp [grp, hm]
  | a :: A, nl, B, before, m, h, hs => by
    have ih := fun m => grp_break A nl B (a :: before) m h (by simpa using hs)
    rcases tok_cases a with ⟨s, h1, -, h2⟩ | ⟨s, h1, -, h2⟩ | ⟨h1, h2, -⟩
    · simp only [List.cons_append]
      rw [grp_ws h1, grp_ws h1]
      split
      · rw [ih]; simp
      · split
        · rw [ih]; simp
        · rw [ih]; simp
    · simp only [List.cons_append]
      rw [grp_comment h1, grp_comment h1, ih]; simp
    · simp only [List.cons_append]
      rw [grp_sig h1, grp_sig h1, ih]; simp

theorem splitGroup_true {line : Nat} : ∀ (gap : List Token) (code : Token) (before : List Token),
    (∀ t ∈ gap, line ≤ t.to_.line) → line ≤ code.to_.line → code.sig = true →
    splitGroup line (gap ++ code :: before) = true
  | [], code, before, _, h2, h3 => by
    simp only [List.nil_append, splitGroup]
    rw [if_neg (by omega), if_pos h3]
  | t :: gap, code, before, h1, h2, h3 => by
    have := h1 t List.mem_cons_self
    simp only [List.cons_append, splitGroup]
    rw [if_neg (by omega)]
    split
    · rfl
    · exact splitGroup_true gap code before (fun x hx => h1 x (List.mem_cons_of_mem _ hx)) h2 h3

theorem splitGroup_false {line : Nat} : ∀ (before : List Token),
    (∀ t ∈ before, t.sig = true → t.to_.line < line) → splitGroup line before = false
  | [], _ => rfl
  | t :: before, h => by
    rw [splitGroup]
    split
    · rfl
    · split
      · exact absurd (h t List.mem_cons_self ‹_›) ‹_›
      · exact splitGroup_false before fun x hx => h x (List.mem_cons_of_mem _ hx)

theorem grp_prefix : ∀ (ts before : List Token) (m : List Comment), m ≠ [] →
    ∃ m' gs, grp ts before m = ⟨m ++ m'⟩ :: gs
  | [], before, m, hm => ⟨[], [], by simp [grp, hm]⟩
  | t :: ts, before, m, hm => by
    have ih := grp_prefix ts (t :: before)
    rcases tok_cases t with ⟨s, h1, -, h2⟩ | ⟨s, h1, -, h2⟩ | ⟨h1, h2, -⟩
    · rw [grp_ws h1]
      split
      · exact ih m hm
      · split
        · exact ⟨[], _, by simp; rfl⟩
        · exact ih m hm
    · rw [grp_comment h1]
      obtain ⟨m', gs, h⟩ := ih (m ++ [⟨s, t.from_, t.to_⟩]) (by simp)
      exact ⟨⟨s, t.from_, t.to_⟩ :: m', gs, by rw [h]; simp⟩
    · rw [grp_sig h1]
      exact ⟨[], _, by simp [hm]; rfl⟩

/-- Comments with no line break on a code line between them stay together. -/
theorem grp_join : ∀ (A : List Token) (c1 : Token) (gap : List Token) (c2 : Token) (B before : List Token)
    (m : List Comment) (x1 x2 : Comment), commentOf c1 = some x1 → commentOf c2 = some x2 →
    (∀ t ∈ gap, t.sig = false ∧ commentOf t = none) →
    (∀ nl ∈ gap, ∀ t ∈ A ++ before, t.sig = true → t.to_.line < nl.from_.line) →
    ∃ l1 l2, ⟨l1 ++ x1 :: x2 :: l2⟩ ∈ grp (A ++ c1 :: (gap ++ c2 :: B)) before m
  | [], c1, gap, c2, B, before, m, x1, x2, h1, h2, hgap, hnl => by
    rcases tok_cases c1 with ⟨s, h1', hs1, h2'⟩ | ⟨s, h1', hs1, h2'⟩ | ⟨h1', h2', -⟩
    · simp [h2'] at h1
    · rw [h2'] at h1; cases h1
      simp only [List.nil_append]
      rw [grp_comment h1']
      have key : ∀ (gap' before' : List Token) (m' : List Comment),
          (∀ t ∈ gap', t.sig = false ∧ commentOf t = none) →
          (∀ nl ∈ gap', ∀ t ∈ before', t.sig = true → t.to_.line < nl.from_.line) →
          ∃ before'', grp (gap' ++ c2 :: B) before' m' = grp (c2 :: B) before'' m' := by
        intro gap'
        induction gap' with
        | nil => intro before' m' _ _; exact ⟨before', rfl⟩
        | cons g gap' ih =>
          intro before' m' hg hn
          have hg0 := hg g List.mem_cons_self
          rcases tok_cases g with ⟨s', h1, -, h2⟩ | ⟨s', h1, -, h2⟩ | ⟨h1, h2, -⟩
          · simp only [List.cons_append]
            have hih := ih (g :: before') m' (fun t ht => hg t (List.mem_cons_of_mem _ ht)) (by
              intro nl hnl t ht hsig
              rcases List.mem_cons.1 ht with rfl | ht
              · rw [hg0.1] at hsig; exact absurd hsig (by simp)
              · exact hn nl (List.mem_cons_of_mem _ hnl) t ht hsig)
            rw [grp_ws h1]
            split
            · exact hih
            · rw [splitGroup_false]
              · exact hih
              · intro t ht hsig
                rcases List.mem_cons.1 ht with rfl | ht
                · rw [hg0.1] at hsig; exact absurd hsig (by simp)
                · exact hn g List.mem_cons_self t ht hsig
          · rw [h2] at hg0; exact absurd hg0.2 (by simp)
          · rw [h1] at hg0; exact absurd hg0.1 (by simp)
      obtain ⟨before'', he⟩ := key gap (c1 :: before) (m ++ [⟨s, c1.from_, c1.to_⟩]) hgap (by
        intro nl hn t ht hsig
        rcases List.mem_cons.1 ht with rfl | ht
        · rw [hs1] at hsig; exact absurd hsig (by simp)
        · exact hnl nl hn t (by simpa using ht) hsig)
      rw [he]
      rcases tok_cases c2 with ⟨s2, h1'', -, h2''⟩ | ⟨s2, h1'', -, h2''⟩ | ⟨h1'', h2'', -⟩
      · simp [h2''] at h2
      · rw [h2''] at h2; cases h2
        rw [grp_comment h1'']
        obtain ⟨m', gs, h⟩ := grp_prefix B (c2 :: before'')
          (m ++ [⟨s, c1.from_, c1.to_⟩] ++ [⟨s2, c2.from_, c2.to_⟩]) (by simp)
        exact ⟨m, m', by rw [h]; simp⟩
      · simp [h2''] at h2
    · simp [h2'] at h1
  | a :: A, c1, gap, c2, B, before, m, x1, x2, h1, h2, hgap, hnl => by
    have ih := fun m => grp_join A c1 gap c2 B (a :: before) m x1 x2 h1 h2 hgap (by
      intro nl hn t ht hsig
      refine hnl nl hn t ?_ hsig
      simp at ht ⊢
      rcases ht with h | h | h <;> simp [h])
    simp only [List.cons_append]
    rcases tok_cases a with ⟨s, h1, -, h2⟩ | ⟨s, h1, -, h2⟩ | ⟨h1, h2, -⟩
    · rw [grp_ws h1]
      split
      · exact ih m
      · split
        · obtain ⟨l1, l2, h⟩ := ih []
          exact ⟨l1, l2, List.mem_cons_of_mem _ h⟩
        · exact ih m
    · rw [grp_comment h1]; exact ih _
    · rw [grp_sig h1]
      obtain ⟨l1, l2, h⟩ := ih []
      exact ⟨l1, l2, List.mem_append_right _ h⟩

/-! ### ParseSQL reads to the end -/

theorem run_bind (mode : Bool) : ∀ (p : P α) (f : α → P β) (s : PState),
    (p.bind f).run mode s =
      match p.run mode s with
      | .ok a s' => (f a).run mode s'
      | .err => .err
      | .panic => .panic
      | .oof => .oof
  | .ret a, f, s => by simp [P.bind, P.run]
  | .err, _, _ => by simp [P.bind, P.run]
  | .panic, _, _ => by simp [P.bind, P.run]
  | .oof, _, _ => by simp [P.bind, P.run]
  | .next k, f, s => by simp only [P.bind, P.run]; exact run_bind mode _ f _
  | .peek k, f, s => by simp only [P.bind, P.run]; exact run_bind mode _ f _
  | .prev k, f, s => by
    simp only [P.bind, P.run]
    cases s.prev with
    | none => rfl
    | some s' => exact run_bind mode k f s'
  | .kws ks k, f, s => by simp only [P.bind, P.run]; exact run_bind mode _ f _

theorem run_bind_ok {mode : Bool} {p : P α} {f : α → P β} {s s' : PState} {b : β}
    (h : (p >>= f).run mode s = .ok b s') :
    ∃ a s1, p.run mode s = .ok a s1 ∧ (f a).run mode s1 = .ok b s' := by
  rw [P.bind_eq, run_bind] at h
  cases hp : p.run mode s with
  | ok a s1 => rw [hp] at h; exact ⟨a, s1, rfl, h⟩
  | err => rw [hp] at h; simp at h
  | panic => rw [hp] at h; simp at h
  | oof => rw [hp] at h; simp at h

/-- In comment mode `ParseSQL` returns only after reading the last token. -/
theorem parseSQLLoop_end (r : Parsers) : ∀ (n : Nat) (e : Bool) (s s' : PState) (ss : List Stmt),
    (parseSQLLoop true r n e).run true s = .ok ss s' → s.idx ≤ s.toks.length →
    s'.idx = s'.toks.length
  | 0, e, s, s', ss, h, _ => by simp [parseSQLLoop, P.run] at h
  | n + 1, e, s, s', ss, h, hl => by
    have hidx : ∀ {α : Type} (p : P α) (s s1 : PState) (a : α), p.run true s = .ok a s1 →
        s.idx ≤ s.toks.length → s1.idx ≤ s1.toks.length := by
      intro α p
      induction p with
      | ret a => intro s s1 a' h; simp [P.run] at h; obtain ⟨-, rfl⟩ := h; exact id
      | err => intro s s1 a' h; simp [P.run] at h
      | panic => intro s s1 a' h; simp [P.run] at h
      | oof => intro s s1 a' h; simp [P.run] at h
      | next k ih =>
        intro s s1 a' h hl; rw [P.run] at h
        exact ih _ _ _ _ h (next_idx_le true s hl)
      | peek k ih => intro s s1 a' h; rw [P.run] at h; exact ih _ _ _ _ h
      | prev k ih =>
        intro s s1 a' h hl; rw [P.run] at h
        rcases prev_view s hl with ⟨-, h2⟩ | ⟨t, rest, s'', -, h2, -, -, h5, h6, -⟩
        · rw [h2] at h; simp at h
        · rw [h2] at h
          exact ih _ _ _ h (by rw [h6]; omega)
      | kws ks k ih =>
        intro s s1 a' h hl; rw [P.run] at h
        have hv := kws_view true ks s hl
        exact ih _ _ _ _ h (by rw [hv.1]; exact hv.2.1)
    rw [parseSQLLoop] at h
    obtain ⟨ok, s1, h1, h⟩ := run_bind_ok h
    have hl1 := hidx _ _ _ _ h1 hl
    split at h
    · simp [P.run] at h
    · obtain ⟨t, s2, h2, h⟩ := run_bind_ok h
      simp only [if_true, nextToken, P.run, Res.ok.injEq] at h2
      obtain ⟨h2, h2'⟩ := h2
      subst h2'
      subst h2
      cases ht : (s1.next true).1 with
      | none =>
        rw [ht] at h
        simp only [P.pure_eq, P.run, Res.ok.injEq] at h
        obtain ⟨-, rfl⟩ := h
        have hc := next_cursor true s1
        rcases nextLoop_spec (s1.toks.drop s1.idx) s1.idx with ⟨e1, -⟩ | ⟨pre, t, post, e1, e2, e3, e4⟩
        · rw [next_toks]
          have : (s1.next true).2.idx = (nextLoop (s1.toks.drop s1.idx) s1.idx).2 := by rw [← hc]
          rw [this, e1]; simp; omega
        · have : (s1.next true).1 = (nextLoop (s1.toks.drop s1.idx) s1.idx).1 := by rw [← hc]
          rw [this, e4] at ht; simp at ht
      | some t =>
        rw [ht] at h
        simp only at h
        obtain ⟨_, s3, h3, h⟩ := run_bind_ok h
        obtain ⟨st, s4, h4, h⟩ := run_bind_ok h
        obtain ⟨ss', s5, h5, h⟩ := run_bind_ok h
        simp only [P.pure_eq, P.run, Res.ok.injEq] at h
        obtain ⟨-, rfl⟩ := h
        have hl2 := next_idx_le true s1 hl1
        exact parseSQLLoop_end r n true s4 _ ss' h5 (hidx _ _ _ _ h4 (hidx _ _ _ _ h3 hl2))

/-- The comment table after a successful `ParseSQL`. -/
theorem parseSQL_comments {r : Parsers} {n : Nat} {toks : List Token} {ss : List Stmt} {s' : PState}
    (hs : Sorted toks) (h : (parseSQL true r n).run true (newParser toks) = .ok ss s') :
    s'.comments.map Prod.snd = grp toks [] [] := by
  obtain ⟨hi, -, h1, h2⟩ := run_inv _ _ _ (by exact hs) (inv_init toks) _ _ h
  have h3 := parseSQLLoop_end r n false _ _ _ h (Nat.zero_le _)
  have h4 : hi = toks.length := by
    have a1 := h1.le
    have a2 := h1.hile
    rw [h2] at a2
    simp only [newParser] at a2
    rw [h3, h2] at a1
    simp only [newParser] at a1
    omega
  have ht : s'.toks = toks := h2
  rw [h1.table, keyed, List.map_map, ht, h4]
  simp [Function.comp_def]

theorem insertGroup_lt {g : CommentGroup} {gs : List CommentGroup}
    (h : ∀ x ∈ gs, comparePos g.pos x.pos = -1) : insertGroup g gs = g :: gs := by
  cases gs with
  | nil => rfl
  | cons x gs =>
    rw [insertGroup, if_pos (by rw [h x List.mem_cons_self]; decide)]

theorem sortGroups_sorted : ∀ {gs : List CommentGroup},
    gs.Pairwise (fun a b => comparePos a.pos b.pos = -1) → sortGroups gs = gs
  | [], _ => rfl
  | g :: gs, h => by
    have h' := List.pairwise_cons.1 h
    have ih := sortGroups_sorted h'.2
    simp only [sortGroups, List.foldr_cons] at ih ⊢
    rw [ih, insertGroup_lt h'.1]

theorem grp_sorted {toks : List Token} (h : Sorted toks) :
    (grp toks [] []).Pairwise fun a b => comparePos a.pos b.pos = -1 := by
  apply groups_sorted _ (grp_ne_nil _ _ _)
  rw [grp_flat, List.nil_append]
  exact h.comments

theorem parseFile_comments {fns : FloatFns} {n : Nat} {toks : List Token} {f : File} {s' : PState}
    (hs : Sorted toks) (h : parseFile fns n true (newParser toks) = .ok f s') :
    f.comments = grp toks [] [] := by
  unfold parseFile at h
  cases hr : (parseSQL true (Parsers.at fns n) n).run true (newParser toks) with
  | ok ss s1 =>
    rw [hr] at h
    simp only [Res.ok.injEq] at h
    obtain ⟨rfl, rfl⟩ := h
    rw [parseSQL_comments hs hr]
    exact sortGroups_sorted (grp_sorted hs)
  | err => rw [hr] at h; simp at h
  | panic => rw [hr] at h; simp at h
  | oof => rw [hr] at h; simp at h

end Verif
