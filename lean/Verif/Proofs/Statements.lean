import Verif.Spec.Statements
import Verif.Proofs.Exec
import Verif.Proofs.Term
import Verif.Props.Stream
/-
`ParseSQL` and splitting at semicolons.
-/
namespace Verif

/-- What the loop of `ParseSQL` does after the semicolon. -/
def loopBody (r : Parsers) (n : Nat) (b : List Token) : List Token → Res (List Token × List Token) (List Stmt)
  | [] => .ok [] (b, [])
  | t :: a => (r.statement.runZ b (t :: a)).bind fun s st =>
      ((parseSQLLoop false r n true).runZ st.1 st.2).bind fun ss st' => .ok (s :: ss) st'

theorem loopBody_ne {r : Parsers} {n : Nat} {b a : List Token} (h : a ≠ []) :
    loopBody r n b a = (r.statement.runZ b a).bind fun s st =>
      ((parseSQLLoop false r n true).runZ st.1 st.2).bind fun ss st' => .ok (s :: ss) st' := by
  cases a with
  | nil => exact absurd rfl h
  | cons t a => rfl

theorem loop_body {r : Parsers} {n : Nat} {b a : List Token} :
    (do
      let t ← peekToken
      match t with
      | none => pure []
      | some _ => do
        let s ← r.statement
        let ss ← parseSQLLoop false r n true
        pure (s :: ss) : P (List Stmt)).runZ b a = loopBody r n b a := by
  cases a with
  | nil => rfl
  | cons t a =>
    simp only [runZ_bindM, runZ_peekToken, Res.bind_ok, List.head?_cons, runZ_pure, loopBody]

theorem loop_semi {r : Parsers} {n : Nat} {e : Bool} {t : Token} {b a : List Token} (h : t.isSym .Semicolon = true) :
    (parseSQLLoop false r (n + 1) e).runZ b (t :: a) = loopBody r n (t :: b) a := by
  rw [← loop_body]
  simp only [parseSQLLoop, runZ_bindM, runZ_consumeToken_yes h, Res.bind_ok, Bool.not_true, Bool.false_and,
    Bool.false_eq_true, if_false]
  rfl

theorem loop_nosemi {r : Parsers} {n : Nat} {e : Bool} {b a : List Token} (h : NotSym .Semicolon a) :
    (parseSQLLoop false r (n + 1) e).runZ b a = if e then .err else loopBody r n b a := by
  rw [← loop_body]
  simp only [parseSQLLoop, runZ_bindM, runZ_consumeToken_no h, Res.bind_ok, Bool.not_false, Bool.true_and]
  cases e <;> rfl

theorem Splits.length {p : P Stmt} {b a : List Token} {ss : List Stmt} (h : Splits p b a ss) :
    2 * ss.length ≤ a.length := by
  induction h with
  | nil => simp
  | @cons b seg rest _ _ _ h1 _ _ _ ih =>
    have : 0 < seg.length := List.length_pos_iff.2 h1
    simp only [List.length_cons, List.length_append]; omega

theorem Splits.body {r : Parsers} {b a : List Token} {ss : List Stmt} (h : Splits r.statement b a ss) :
    ∀ (n : Nat), ss.length ≤ n → ∃ st, loopBody r n b a = .ok ss st := by
  induction h with
  | nil b => exact fun n _ => ⟨_, rfl⟩
  | @cons b seg rest sem s ss h1 h2 h3 h4 ih =>
    intro n hn
    obtain ⟨n, rfl⟩ : ∃ m, n = m + 1 := ⟨n - 1, by simp at hn; omega⟩
    obtain ⟨st, hst⟩ := ih n (by simpa using hn)
    refine ⟨st, ?_⟩
    rw [loopBody_ne (by simp), h3]
    simp only [Res.bind_ok, loop_semi h2, hst]

theorem Splits.sql {r : Parsers} {lead a : List Token} {ss : List Stmt} (h : Splits r.statement lead a ss)
    (hl : LeadSemi lead) (hne : lead = [] → NotSym .Semicolon a) (n : Nat) (hn : ss.length < n) :
    ∃ st, (parseSQLLoop false r n false).runZ [] (lead ++ a) = .ok ss st := by
  obtain ⟨n, rfl⟩ : ∃ m, n = m + 1 := ⟨n - 1, by omega⟩
  obtain ⟨st, hst⟩ := h.body n (by omega)
  refine ⟨st, ?_⟩
  rcases hl with rfl | ⟨t, rfl, ht⟩
  · rw [List.nil_append, loop_nosemi (hne rfl), if_neg (by simp), hst]
  · rw [List.singleton_append, loop_semi ht, hst]

theorem bind_ok_inv {r : Res σ α} {f : α → σ → Res τ β} {y : β} {st : τ} (h : r.bind f = .ok y st) :
    ∃ x s, r = .ok x s ∧ f x s = .ok y st := by
  cases r with
  | ok x s => exact ⟨x, s, rfl, h⟩
  | err => cases h
  | panic => cases h
  | oof => cases h

theorem splits_of_body {T : List Token} {r : Parsers} {n : Nat} (H : Term T r n) : ∀ (m i : Nat) (ss : List Stmt)
    (st : List Token × List Token), i ≤ T.length → 3 * (T.length - i) + 3 ≤ n →
    loopBody r m (T.take i).reverse (T.drop i) = .ok ss st →
    Splits r.statement (T.take i).reverse (T.drop i) ss
  | m, i, ss, st, hi, hn, h => by
    by_cases ha : T.drop i = []
    · rw [ha] at h ⊢
      cases h
      exact .nil _
    · rw [loopBody_ne ha] at h
      obtain ⟨s, ⟨b1, a1⟩, h1, h2⟩ := bind_ok_inv h
      obtain ⟨ss', st', h3, h4⟩ := bind_ok_inv h2
      cases h4
      obtain ⟨j, hj, rfl, rfl⟩ := (runZ_runI T r.statement i hi).2 _ _ _ h1
      have hij : i + 1 ≤ j := by
        have hw := H.statement i hi hn
        unfold wp at hw
        rw [← (runZ_runI T r.statement i hi).1, h1] at hw
        simp only [Res.mapState, List.length_reverse, List.length_take] at hw
        omega
      cases m with
      | zero => cases h3
      | succ m =>
        cases hdj : T.drop j with
        | nil =>
          rw [hdj] at h3
          simp only [] at h3
          rw [loop_nosemi (by intro t ht; cases ht), if_pos rfl] at h3
          cases h3
        | cons sem rest =>
          rw [hdj] at h3
          simp only [] at h3
          by_cases hs : sem.isSym .Semicolon = true
          · rw [loop_semi hs] at h3
            have hlt : j < T.length := by
              rcases Nat.lt_or_ge j T.length with h | h
              · exact h
              · rw [List.drop_eq_nil_of_le h] at hdj; cases hdj
            have hd : sem = T[j] ∧ rest = T.drop (j + 1) := by
              rw [List.drop_eq_getElem_cons hlt] at hdj
              cases hdj; exact ⟨rfl, rfl⟩
            have htk : (T.take (j + 1)).reverse = sem :: (T.take j).reverse := by
              rw [List.take_add_one]; simp [hlt, hd.1]
            have hseg : T.drop i = (T.drop i).take (j - i) ++ sem :: rest := by
              have h := (List.take_append_drop (j - i) (T.drop i)).symm
              rwa [List.drop_drop, show i + (j - i) = j by omega, hdj] at h
            have htake : (T.take j).reverse = ((T.drop i).take (j - i)).reverse ++ (T.take i).reverse := by
              have : T.take j = T.take i ++ (T.drop i).take (j - i) := by
                have h := List.take_add (l := T) (i := i) (j := j - i)
                rwa [show i + (j - i) = j by omega] at h
              rw [this, List.reverse_append]
            have ih := splits_of_body H m (j + 1) ss' _ (by omega) (by omega) (by rw [htk, ← hd.2]; exact h3)
            rw [htk, htake, ← hd.2] at ih
            rw [htake, hdj] at h1
            have hne : (T.drop i).take (j - i) ≠ [] := by
              intro h0
              have := congrArg List.length h0
              simp at this
              omega
            generalize (T.drop i).take (j - i) = seg at *
            rw [hseg] at h1 ⊢
            exact .cons hne hs h1 ih
          · rw [loop_nosemi (by intro t ht; cases ht; simpa using hs), if_pos rfl] at h3
            cases h3

end Verif
