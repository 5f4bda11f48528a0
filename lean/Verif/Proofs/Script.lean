import Verif.Proofs.Barrier
import Verif.Proofs.Statements
import Verif.Props.Termination
import Verif.Spec.Script
/-
`ParseSQL` on a script, part by part.
-/
set_option linter.unusedVariables false
namespace Verif

/-- A program that never goes back before its start does the same whatever came before. -/
theorem runZ_history {p : P α} {a : List Token} (hw : p.within a 0 a.length false 0) (b : List Token) :
    p.runZ b a = (p.runZ [] a).mapState fun st => (st.1 ++ b, st.2) := by
  have hag : Agree a 0 a.length false (b.reverse ++ a) b.length :=
    ⟨⟨Nat.le_refl _, fun _ => rfl, fun h => by cases h⟩, Nat.zero_le _, fun k _ => by
      rw [List.getElem?_append_right (by simp)]; simp⟩
  have h := within_runI hag p 0 hw
  have e1 := runZ_runI a p 0 (Nat.zero_le _)
  have e2 := runZ_runI (b.reverse ++ a) p b.length (by simp)
  have hb : (List.take b.length (b.reverse ++ a)).reverse = b := by
    rw [List.take_append_of_le_length (by simp)]; simp [List.take_of_length_le]
  have ha : List.drop b.length (b.reverse ++ a) = a := List.drop_left' (by simp)
  rw [hb, ha] at e2
  simp only [List.take_zero, List.reverse_nil, List.drop_zero] at e1
  rw [← e1.1] at h
  simp only [Nat.add_zero] at h
  rw [← e2.1] at h
  cases h1 : p.runZ [] a with
  | ok x st =>
    obtain ⟨b1, a1⟩ := st
    obtain ⟨j, hj, rfl, rfl⟩ := e1.2 _ _ _ h1
    rw [h1] at h
    simp only [Res.mapState, List.length_reverse, List.length_take] at h
    obtain ⟨m, hm, h⟩ := h
    cases h2 : p.runZ b a with
    | ok x' st' =>
      obtain ⟨b2, a2⟩ := st'
      obtain ⟨j', hj', rfl, rfl⟩ := e2.2 _ _ _ h2
      rw [h2] at h
      simp only [List.length_reverse, List.length_take, Res.ok.injEq] at h
      obtain ⟨rfl, h⟩ := h
      simp only [List.length_append, List.length_reverse] at hj' h
      have hj2 : j' = b.reverse.length + j := by simp; omega
      subst hj2
      simp only [Res.mapState, List.drop_append, List.take_append]
      simp [List.take_of_length_le]
    | err => rw [h2] at h; cases h
    | panic => rw [h2] at h; cases h
    | oof => rw [h2] at h; cases h
  | err => rw [h1] at h; simp only [Res.mapState] at h ⊢; revert h; cases p.runZ b a <;> simp
  | panic => rw [h1] at h; simp only [Res.mapState] at h ⊢; revert h; cases p.runZ b a <;> simp
  | oof => rw [h1] at h; simp only [Res.mapState] at h ⊢; revert h; cases p.runZ b a <;> simp

/-- A program that stays before a semicolon does the same whatever comes after it. -/
theorem runZ_future {p : P α} {a : List Token} {sem : Token}
    (hb : bw (a ++ [sem]) 0 a.length true p 0 fun _ j => 1 ≤ j ∧ j ≤ a.length)
    (hs : ∃ s f g, sem = ⟨.sym .Semicolon s, f, g⟩) (rest : List Token) :
    p.runZ [] (a ++ sem :: rest) = (p.runZ [] (a ++ [sem])).mapState (fun st => (st.1, st.2 ++ rest)) ∧
    ∀ x b1 a1, p.runZ [] (a ++ [sem]) = .ok x (b1, a1) →
      ∃ used left, used ≠ [] ∧ a = used ++ left ∧ b1 = used.reverse ∧ a1 = left ++ [sem] := by
  have hE : Rim (a ++ [sem]) a.length true := ⟨by simp, (fun h => by cases h), fun _ => by
    obtain ⟨s, f, g, rfl⟩ := hs; exact ⟨s, f, g, by simp⟩⟩
  have hag : Agree (a ++ [sem]) 0 a.length true (a ++ sem :: rest) 0 := ⟨hE, Nat.zero_le _, fun k hk => by
    have hk := hk rfl
    rw [Nat.zero_add] at hk ⊢
    rw [show a ++ sem :: rest = (a ++ [sem]) ++ rest by simp, List.getElem?_append_left (by simp; omega)]⟩
  have h := within_runI hag p 0 hb.1
  have hq := hb.2
  have e1 := runZ_runI (a ++ [sem]) p 0 (Nat.zero_le _)
  have e2 := runZ_runI (a ++ sem :: rest) p 0 (Nat.zero_le _)
  simp only [List.take_zero, List.reverse_nil, List.drop_zero] at e1 e2
  simp only [Nat.add_zero] at h
  rw [← e1.1, ← e2.1] at h
  rw [← e1.1] at hq
  cases h1 : p.runZ [] (a ++ [sem]) with
  | ok x st =>
    obtain ⟨b1, a1⟩ := st
    obtain ⟨j, hj, rfl, rfl⟩ := e1.2 _ _ _ h1
    rw [h1] at h hq
    simp only [Res.mapState, List.length_reverse, List.length_take, Nat.zero_add] at h hq
    obtain ⟨m, hm, h⟩ := h
    have hjm : min j (a ++ [sem]).length = j := by omega
    rw [hjm] at hq hm
    subst hm
    constructor
    · cases h2 : p.runZ [] (a ++ sem :: rest) with
      | ok x' st' =>
        obtain ⟨b2, a2⟩ := st'
        obtain ⟨j', hj', rfl, rfl⟩ := e2.2 _ _ _ h2
        rw [h2] at h
        simp only [List.length_reverse, List.length_take, Res.ok.injEq] at h
        obtain ⟨rfl, h⟩ := h
        have hj2 : j' = j := by omega
        subst hj2
        simp only [Res.mapState]
        rw [show a ++ sem :: rest = (a ++ [sem]) ++ rest by simp, List.take_append_of_le_length hj,
          List.drop_append_of_le_length hj]
      | err => rw [h2] at h; cases h
      | panic => rw [h2] at h; cases h
      | oof => rw [h2] at h; cases h
    · intro x' b1 a1 he
      simp only [Res.ok.injEq, Prod.mk.injEq] at he
      obtain ⟨-, rfl, rfl⟩ := he
      refine ⟨a.take j, a.drop j, ?_, (List.take_append_drop _ _).symm, ?_, ?_⟩
      · intro h0
        have := congrArg List.length h0
        rw [List.length_take, List.length_nil] at this
        omega
      · rw [List.take_append_of_le_length hq.2]
      · rw [List.drop_append_of_le_length hq.2]
  | err => rw [h1] at h; simp only [Res.mapState] at h ⊢; revert h; cases p.runZ [] (a ++ sem :: rest) <;> simp
  | panic => rw [h1] at h; simp only [Res.mapState] at h ⊢; revert h; cases p.runZ [] (a ++ sem :: rest) <;> simp
  | oof => rw [h1] at h; simp only [Res.mapState] at h ⊢; revert h; cases p.runZ [] (a ++ sem :: rest) <;> simp

theorem isSemi_eq {t : Token} (h : t.isSym .Semicolon = true) : ∃ s f g, t = ⟨.sym .Semicolon s, f, g⟩ := by
  obtain ⟨tok, f, g⟩ := t
  unfold Token.isSym at h
  split at h
  · rename_i k s hk
    simp only at hk
    subst hk
    simp only [beq_iff_eq] at h
    subst h
    exact ⟨s, f, g, rfl⟩
  · cases h

section
variable (fns : FloatFns) (n : Nat)

theorem statement_history (b a : List Token) :
    (Parsers.at fns n).statement.runZ b a =
      ((Parsers.at fns n).statement.runZ [] a).mapState fun st => (st.1 ++ b, st.2) :=
  runZ_history ((bar_at fns ⟨Nat.le_refl _, fun _ => rfl, fun h => by cases h⟩ n).statement 0
    (Nat.zero_le _) (Nat.le_refl _)).1 b

theorem statement_future {a : List Token} {sem : Token} (hs : sem.isSym .Semicolon = true) (rest : List Token) :
    (Parsers.at fns n).statement.runZ [] (a ++ sem :: rest) =
      ((Parsers.at fns n).statement.runZ [] (a ++ [sem])).mapState (fun st => (st.1, st.2 ++ rest)) ∧
    ∀ x b1 a1, (Parsers.at fns n).statement.runZ [] (a ++ [sem]) = .ok x (b1, a1) →
      ∃ used left, used ≠ [] ∧ a = used ++ left ∧ b1 = used.reverse ∧ a1 = left ++ [sem] := by
  have hs := isSemi_eq hs
  refine runZ_future (bw_mono ((bar_at fns ⟨by simp, (fun h => by cases h), fun _ => ?_⟩ n).statement 0
    (Nat.zero_le _) (Nat.le_refl _)) fun x j h => h) hs rest
  obtain ⟨s, f, g, rfl⟩ := hs
  exact ⟨s, f, g, by simp⟩

/-- The loop of `ParseSQL`, and its part after the semicolon, started at the front of `x`. -/
def loopOut (m : Nat) (e : Bool) (x : List Token) : Res Unit (List Stmt) :=
  ((parseSQLLoop false (Parsers.at fns n) m e).runZ [] x).outcome
def bodyOut (m : Nat) (x : List Token) : Res Unit (List Stmt) := (loopBody (Parsers.at fns n) m [] x).outcome

def consOut (s : Stmt) : Res Unit (List Stmt) → Res Unit (List Stmt)
  | .ok ss _ => .ok (s :: ss) ()
  | e => e

theorem outcome_cons (s : Stmt) (r : Res σ (List Stmt)) :
    (r.bind fun ss st => .ok (s :: ss) st).outcome = consOut s r.outcome := by cases r <;> rfl

theorem loop_history : ∀ (m : Nat) (e : Bool) (b x : List Token),
    ((parseSQLLoop false (Parsers.at fns n) m e).runZ b x).outcome = loopOut fns n m e x ∧
    (loopBody (Parsers.at fns n) m b x).outcome = bodyOut fns n m x
  | m, e, b, x => by
    have hbody : ∀ b, (loopBody (Parsers.at fns n) m b x).outcome = bodyOut fns n m x := by
      intro b
      unfold bodyOut
      by_cases hx : x = []
      · subst hx; rfl
      · rw [loopBody_ne hx, loopBody_ne hx, statement_history fns n b]
        cases h1 : (Parsers.at fns n).statement.runZ [] x with
        | ok s st =>
          simp only [Res.mapState, Res.bind_ok]
          rw [outcome_cons, outcome_cons]
          cases m with
          | zero => rfl
          | succ m =>
            have key : ∀ b y, ((parseSQLLoop false (Parsers.at fns n) (m + 1) true).runZ b y).outcome =
                loopOut fns n (m + 1) true y := by
              intro b y
              unfold loopOut
              cases y with
              | nil => rw [loop_nosemi (by intro t ht; cases ht), loop_nosemi (by intro t ht; cases ht)]; rfl
              | cons t y =>
                by_cases hs : t.isSym .Semicolon = true
                · rw [loop_semi hs, loop_semi hs, (loop_history m true _ _).2, (loop_history m true _ _).2]
                · have hno : NotSym .Semicolon (t :: y) := by intro x hx; cases hx; simpa using hs
                  rw [loop_nosemi hno, loop_nosemi hno]; rfl
            rw [key, key]
        | err => rfl
        | panic => rfl
        | oof => rfl
    refine ⟨?_, hbody b⟩
    cases m with
    | zero => rfl
    | succ m =>
      unfold loopOut
      have hb : ∀ b y, (loopBody (Parsers.at fns n) m b y).outcome = bodyOut fns n m y :=
        fun b y => (loop_history m e b y).2
      cases x with
      | nil =>
        rw [loop_nosemi (by intro t ht; cases ht), loop_nosemi (by intro t ht; cases ht)]
        cases e
        · simp only [Bool.false_eq_true, if_false]; rw [hb, hb]
        · rfl
      | cons t y =>
        by_cases hs : t.isSym .Semicolon = true
        · rw [loop_semi hs, loop_semi hs, hb, hb]
        · have hno : NotSym .Semicolon (t :: y) := by intro x hx; cases hx; simpa using hs
          rw [loop_nosemi hno, loop_nosemi hno]
          cases e
          · simp only [Bool.false_eq_true, if_false]; rw [hb, hb]
          · rfl
termination_by m => m

theorem loopOut_nil (m e) : loopOut fns n (m + 1) e [] = if e then .err else .ok [] () := by
  unfold loopOut
  rw [loop_nosemi (by intro t ht; cases ht)]
  cases e <;> rfl

theorem loopOut_semi {t : Token} (hs : t.isSym .Semicolon = true) (m e x) :
    loopOut fns n (m + 1) e (t :: x) = bodyOut fns n m x := by
  unfold loopOut
  rw [loop_semi hs, (loop_history fns n m true _ _).2]

theorem loopOut_nosemi {t : Token} (hs : ¬ t.isSym .Semicolon = true) (m e x) :
    loopOut fns n (m + 1) e (t :: x) = if e then .err else bodyOut fns n m (t :: x) := by
  unfold loopOut bodyOut
  rw [loop_nosemi (by intro x hx; cases hx; simpa using hs)]
  cases e <;> rfl

theorem bodyOut_ne {x : List Token} (hx : x ≠ []) (m : Nat) : bodyOut fns n m x =
    ((Parsers.at fns n).statement.runZ [] x).bind fun s st => consOut s (loopOut fns n m true st.2) := by
  unfold bodyOut
  rw [loopBody_ne hx]
  cases h : (Parsers.at fns n).statement.runZ [] x with
  | ok s st =>
    simp only [Res.bind_ok]
    rw [outcome_cons, (loop_history fns n m true _ _).1]
  | err => rfl
  | panic => rfl
  | oof => rfl

theorem loopOut_fuel {x : List Token} (hk : KwOK x) (hn : 3 * x.length + 3 ≤ n) {m m' : Nat} (hm : x.length + 1 ≤ m)
    (hm' : x.length + 1 ≤ m') (e : Bool) : loopOut fns n m e x = loopOut fns n m' e x := by
  have H := term_at fns hk n
  have key : ∀ {m m' : Nat}, x.length + 1 ≤ m → m ≤ m' → loopOut fns n m e x = loopOut fns n m' e x := by
    intro m m' hm hle
    have ht := term_parseSQLLoop H false m e 0 (Nat.zero_le _) hn hm
    have hne : (parseSQLLoop false (Parsers.at fns n) m e).runZ [] x ≠ .oof := by
      intro h0
      unfold wp at ht
      rw [← runZ_zero, h0] at ht
      exact ht
    unfold loopOut
    rw [runZ_le (parseSQLLoop_le (Parsers.Le.refl _) false hle e) [] x hne]
  rcases Nat.le_total m m' with h | h
  · exact key hm h
  · exact (key hm' h).symm

theorem bodyOut_fuel {sem : Token} {x : List Token} (hs : sem.isSym .Semicolon = true) (hk : KwOK (sem :: x))
    (hn : 3 * (x.length + 1) + 3 ≤ n) {m m' : Nat} (hm : x.length + 1 ≤ m) (hm' : x.length + 1 ≤ m') :
    bodyOut fns n m x = bodyOut fns n m' x := by
  rw [← loopOut_semi fns n hs m false, ← loopOut_semi fns n hs m' false]
  exact loopOut_fuel fns n hk (by simpa using hn) (by simp; omega) (by simp; omega) false

theorem consOut_andThen (s : Stmt) (r r' : Res Unit (List Stmt)) :
    consOut s (andThen r r') = andThen (consOut s r) r' := by
  cases r <;> cases r' <;> rfl

theorem body_law {sem : Token} (hs : sem.isSym .Semicolon = true) {rest : List Token} (hk : KwOK (sem :: rest))
    (hn : 3 * (rest.length + 1) + 3 ≤ n) {a : List Token} {m : Nat} (hm : a.length + rest.length + 2 ≤ m)
    (ih : ∀ left : List Token, left.length < a.length →
      loopOut fns n m true (left ++ sem :: rest) =
        andThen (loopOut fns n m true (left ++ [sem])) (loopOut fns n m false (sem :: rest))) :
    bodyOut fns n m (a ++ sem :: rest) = andThen (bodyOut fns n m (a ++ [sem])) (bodyOut fns n m rest) := by
  obtain ⟨h1, h2⟩ := statement_future fns n (a := a) hs rest
  rw [bodyOut_ne fns n (by simp), bodyOut_ne fns n (x := a ++ [sem]) (by simp), h1]
  cases h : (Parsers.at fns n).statement.runZ [] (a ++ [sem]) with
  | ok s st =>
    obtain ⟨b1, a1⟩ := st
    obtain ⟨used, left, hu, rfl, rfl, rfl⟩ := h2 _ _ _ h
    simp only [Res.mapState, Res.bind_ok]
    have hul : 0 < used.length := List.length_pos_iff.2 hu
    simp only [List.length_append] at hm
    rw [← consOut_andThen, show left ++ [sem] ++ rest = left ++ sem :: rest by simp, ih left (by simp; omega)]
    obtain ⟨m, rfl⟩ : ∃ k, m = k + 1 := ⟨m - 1, by omega⟩
    rw [loopOut_semi fns n hs m false rest, bodyOut_fuel fns n hs hk hn (m := m) (m' := m + 1) (by omega) (by omega)]
  | err => rfl
  | panic => rfl
  | oof => rfl

theorem loop_law {sem : Token} (hs : sem.isSym .Semicolon = true) {rest : List Token} (hk : KwOK (sem :: rest))
    (hn : 3 * (rest.length + 1) + 3 ≤ n) : ∀ (m : Nat) (a : List Token) (e : Bool), a.length + rest.length + 3 ≤ m →
    loopOut fns n m e (a ++ sem :: rest) =
      andThen (loopOut fns n m e (a ++ [sem])) (loopOut fns n m false (sem :: rest))
  | 0, _, _, hm => by omega
  | m + 1, a, e, hm => by
    rw [loopOut_semi fns n hs m false rest]
    have hbody : ∀ a : List Token, a.length + rest.length + 2 ≤ m →
        bodyOut fns n m (a ++ sem :: rest) = andThen (bodyOut fns n m (a ++ [sem])) (bodyOut fns n m rest) := by
      intro a ha
      exact body_law fns n hs hk hn ha fun left hl => loop_law hs hk hn m left true (by omega)
    cases a with
    | nil =>
      rw [List.nil_append, List.nil_append, loopOut_semi fns n hs, loopOut_semi fns n hs]
      show _ = andThen (.ok [] ()) _
      cases bodyOut fns n m rest <;> rfl
    | cons t a =>
      simp only [List.length_cons] at hm
      by_cases ht : t.isSym .Semicolon = true
      · rw [List.cons_append, List.cons_append, loopOut_semi fns n ht, loopOut_semi fns n ht]
        exact hbody a (by omega)
      · rw [List.cons_append, List.cons_append, loopOut_nosemi fns n ht, loopOut_nosemi fns n ht]
        cases e
        · exact hbody (t :: a) (by simp; omega)
        · rfl

end

theorem runSQL_loopOut (fns : FloatFns) (n : Nat) (mode : Bool) (toks : List Token) :
    runSQL fns n mode toks = loopOut fns n n false (toks.filter Token.sig) := by
  cases mode
  · unfold runSQL; rw [outcome_runZ]; rfl
  · rw [(C17_entry_points fns n toks).2.2.2.1]; unfold runSQL; rw [outcome_runZ]; rfl

end Verif
