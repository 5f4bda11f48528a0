import Verif.Proofs.Exec
import Verif.Props.Stream
/-
Postconditions of parser functions, used for C30.
-/
set_option linter.unusedSimpArgs false
namespace Verif

/-- Every result of `p` satisfies `Q`. -/
def Post (p : P α) (Q : α → Prop) : Prop := ∀ b a x s, p.runZ b a = .ok x s → Q x

theorem Post.bind {p : P α} {f : α → P β} {Q : β → Prop} (h : ∀ x, Post (f x) Q) : Post (p >>= f) Q := by
  intro b a y s hy
  rw [runZ_bindM] at hy
  cases hp : p.runZ b a with
  | ok x s' => rw [hp] at hy; exact h x _ _ _ _ hy
  | err => rw [hp] at hy; cases hy
  | panic => rw [hp] at hy; cases hy
  | oof => rw [hp] at hy; cases hy

theorem Post.pure {x : α} {Q : α → Prop} (h : Q x) : Post (pure x) Q := by
  intro b a y s hy; cases hy; exact h
theorem Post.err {Q : α → Prop} : Post (.err : P α) Q := by intro b a y s hy; cases hy
theorem Post.panic {Q : α → Prop} : Post (.panic : P α) Q := by intro b a y s hy; cases hy

theorem outcome_ok {r : Res σ α} {x : α} (h : r.outcome = .ok x ()) : ∃ s, r = .ok x s := by
  cases r with
  | ok y s => cases h; exact ⟨s, rfl⟩
  | err => cases h
  | panic => cases h
  | oof => cases h

/-- Not a materialized view. -/
def NotMat : Stmt → Prop
  | .createView _ _ _ m => m = false
  | _ => True

macro "post" : tactic => `(tactic| repeat' first
  | exact Post.err | exact Post.panic | (exact Post.pure trivial) | (refine Post.bind fun _ => ?_) | split)

/-- The run of `parseCreateView` after `parseCreate` has seen MATERIALIZED or VIEW and stepped back. -/
theorem createView_post {r : Parsers} {t : Token} {b a : List Token} {x : Stmt} {s : List Token × List Token}
    (h : (parseCreateView r t).runZ b a = .ok x s) (ha : ∀ u, a.head? = some u →
      u.matchesKw KW.MATERIALIZED.str = true → NotKw .VIEW a.tail) :
    ∃ name q, x = .createView t.from_ name q false := by
  unfold parseCreateView at h
  rw [runZ_bindM] at h
  have hpost : ∀ (m : Bool), Post (do
      let name ← parseObjectName r
      let _ ← expectKeyword .AS
      let q ← r.query
      pure (Stmt.createView t.from_ name q m)) (fun x => ∃ name q, x = .createView t.from_ name q m) := by
    intro m
    refine Post.bind fun name => Post.bind fun _ => Post.bind fun q => Post.pure ⟨name, q, rfl⟩
  cases a with
  | nil =>
    rw [runZ_kw_no (by intro x hx; cases hx)] at h
    simp only [Res.bind_ok] at h
    rw [runZ_bindM, runZ_expectKeyword_no (by intro x hx; cases hx)] at h
    cases h
  | cons u a =>
    by_cases hu : u.matchesKw KW.MATERIALIZED.str = true
    · rw [runZ_kw_yes hu] at h
      simp only [Res.bind_ok] at h
      rw [runZ_bindM, runZ_expectKeyword_no (a := a) (ha u rfl hu)] at h
      cases h
    · rw [runZ_kw_no (by intro x hx; cases hx; simpa using hu)] at h
      simp only [Res.bind_ok] at h
      exact Post.bind (fun _ => hpost false) _ _ _ _ h

theorem notKw_or {a : List Token} (k : KW) : NotKw k a ∨ ∃ t a', a = t :: a' ∧ t.matchesKw k.str = true := by
  cases a with
  | nil => exact .inl (by intro x hx; cases hx)
  | cons t a =>
    cases h : t.matchesKw k.str with
    | true => exact .inr ⟨t, a, rfl, h⟩
    | false => exact .inl (by intro x hx; cases hx; exact h)

/-- `parseCreate` on CREATE followed by MATERIALIZED or VIEW. -/
theorem create_post {r : Parsers} {t : Token} {b a : List Token} {x : Stmt} {s : List Token × List Token}
    (h1 : t.matchesKw KW.CREATE.str = true)
    (h : (parseCreate r).runZ b (t :: a) = .ok x s) :
    NotMat x ∧ (∀ u a', a = u :: a' → u.matchesKw KW.MATERIALIZED.str = true →
      ∃ name q, x = .createView t.from_ name q false) := by
  have hct : ∀ r t, Post (parseCreateTable r t) NotMat := by intro r t; unfold parseCreateTable; post
  have hci : ∀ r u, Post (parseCreateIndex r u) NotMat := by intro r u; unfold parseCreateIndex; post
  unfold parseCreate at h
  rw [runZ_bindM, runZ_kwOrErr_yes h1] at h
  simp only [Res.bind_ok] at h
  rw [runZ_bindM] at h
  rcases notKw_or (a := a) .TABLE with hT | ⟨u, a', rfl, hu⟩
  · rw [runZ_kw_no hT] at h
    simp only [Res.bind_ok, Bool.false_eq_true, if_false] at h
    rw [runZ_bindM] at h
    rcases notKw_or (a := a) .MATERIALIZED with hM | ⟨u, a', rfl, hu⟩
    · rw [runZ_kw_no hM] at h
      simp only [Res.bind_ok] at h
      rw [runZ_bindM] at h
      refine ⟨?_, fun u a' ha hu => absurd hu (by rw [hM u (by rw [ha]; rfl)]; simp)⟩
      rcases notKw_or (a := a) .VIEW with hV | ⟨u, a', rfl, hu⟩
      · rw [runZ_kw_no hV] at h
        simp only [Res.bind_ok, Bool.or_false, Bool.false_eq_true, if_false] at h
        refine Post.bind (fun _ => ?_) _ _ _ _ h
        refine Post.bind (fun _ => ?_)
        split
        · exact hci _ _
        · exact Post.panic
      · rw [runZ_kw_yes hu] at h
        simp only [Res.bind_ok, Bool.or_true, if_true] at h
        rw [runZ_bindM, runZ_prevToken_cons] at h
        simp only [Res.bind_ok] at h
        obtain ⟨name, q, rfl⟩ := createView_post h (by
          intro v hv hm; cases hv
          exact absurd (matchesKw_unique hu hm) (by decide))
        rfl
    · rw [runZ_kw_yes hu] at h
      simp only [Res.bind_ok] at h
      rw [runZ_bindM] at h
      have key : ∃ name q, x = .createView t.from_ name q false := by
        rcases notKw_or (a := a') .VIEW with hV | ⟨v, a'', rfl, hv⟩
        · rw [runZ_kw_no hV] at h
          simp only [Res.bind_ok, Bool.or_false, if_true] at h
          rw [runZ_bindM, runZ_prevToken_cons] at h
          simp only [Res.bind_ok] at h
          exact createView_post h (by intro v hv hm; exact hV)
        · rw [runZ_kw_yes hv] at h
          simp only [Res.bind_ok, Bool.or_true, if_true] at h
          rw [runZ_bindM, runZ_prevToken_cons] at h
          simp only [Res.bind_ok] at h
          exact createView_post h (by
            intro w hw hm; cases hw
            exact absurd (matchesKw_unique hv hm) (by decide))
      refine ⟨?_, fun _ _ _ _ => key⟩
      obtain ⟨name, q, rfl⟩ := key
      rfl
  · rw [runZ_kw_yes hu] at h
    simp only [Res.bind_ok, if_true] at h
    refine ⟨hct _ _ _ _ _ _ h, fun v a'' hv hm => ?_⟩
    cases hv
    exact absurd (matchesKw_unique hu hm) (by decide)

theorem parseCreate_create {r : Parsers} {t : Token} {b a : List Token} {x : Stmt} {s : List Token × List Token}
    (h : (parseCreate r).runZ b (t :: a) = .ok x s) : t.matchesKw KW.CREATE.str = true := by
  cases hm : t.matchesKw KW.CREATE.str with
  | true => rfl
  | false =>
    unfold parseCreate at h
    rw [runZ_bindM, runZ_kwOrErr_no (by intro x hx; cases hx; exact hm)] at h
    cases h

theorem post_statement {r : Parsers} {b a : List Token} {c : Pos} {name : ObjectName} {q : QueryStmt} {m : Bool}
    {s : List Token × List Token} (h : (statementF r).runZ b a = .ok (.createView c name q m) s) : m = false := by
  have hde : Post (parseDelete r) NotMat := by unfold parseDelete; post
  have hin : Post (parseInsert r) NotMat := by unfold parseInsert; post
  have hal : Post (parseAlter r) NotMat := by unfold parseAlter; post
  have hup : Post (parseUpdate r) NotMat := by unfold parseUpdate; post
  have hdr : Post (parseDrop r) NotMat := by unfold parseDrop; post
  have hq : Post (statementF.parseQueryStmt r) NotMat := by unfold statementF.parseQueryStmt; post
  unfold statementF at h
  rw [runZ_bindM] at h
  cases a with
  | nil => cases h
  | cons t a =>
    rw [runZ_nextOrErr_cons] at h
    simp only [Res.bind_ok] at h
    split at h
    · cases h
    · split at h
      · exact hq _ _ _ _ h
      · exact hq _ _ _ _ h
      · rw [runZ_bindM, runZ_prevToken_cons] at h
        exact (create_post (parseCreate_create h) h).1
      · exact Post.bind (fun _ => hde) _ _ _ _ h
      · exact Post.bind (fun _ => hin) _ _ _ _ h
      · exact Post.bind (fun _ => hal) _ _ _ _ h
      · exact Post.bind (fun _ => hup) _ _ _ _ h
      · exact Post.bind (fun _ => hdr) _ _ _ _ h
      · have he : Post (do let s ← r.statement; pure (Stmt.explain s Pos.zero)) NotMat := by post
        exact he _ _ _ _ h
      · cases h

theorem createMaterialized {r : Parsers} {t1 t2 : Token} {b a : List Token} {x : Stmt}
    {s : List Token × List Token} (h1 : t1.kw? = some .CREATE) (h2 : t2.matchesKw KW.MATERIALIZED.str = true)
    (h : (statementF r).runZ b (t1 :: t2 :: a) = .ok x s) : ∃ name q, x = .createView t1.from_ name q false := by
  unfold statementF at h
  rw [runZ_bindM, runZ_nextOrErr_cons] at h
  simp only [Res.bind_ok] at h
  cases hw : t1.word? with
  | none => simp [Token.kw?, hw] at h1
  | some w =>
    simp only [Token.kw?, hw, Option.bind_some] at h1
    rw [hw] at h
    simp only [h1] at h
    rw [runZ_bindM, runZ_prevToken_cons] at h
    exact (create_post (parseCreate_create h) h).2 _ _ rfl h2

end Verif
