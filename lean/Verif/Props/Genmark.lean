import Verif.Model.Genmark
/-
Property theorem C71: the names that tools/genmark makes (main.go:36-58).
-/
namespace Verif.Genmark

/-! ### Characters -/

theorem upper_iff {c : Char} : isUpperA c = true ↔ 65 ≤ c.toNat ∧ c.toNat ≤ 90 := by
  simp only [isUpperA, Bool.and_eq_true, decide_eq_true_eq]
  exact Iff.rfl

theorem lower_iff {c : Char} : isLowerA c = true ↔ 97 ≤ c.toNat ∧ c.toNat ≤ 122 := by
  simp only [isLowerA, Bool.and_eq_true, decide_eq_true_eq]
  exact Iff.rfl

theorem lower_not_upper {c : Char} (h : isLowerA c = true) : isUpperA c = false := by
  rw [lower_iff] at h
  cases hu : isUpperA c with
  | false => rfl
  | true => rw [upper_iff] at hu; omega

theorem upper_not_lower {c : Char} (h : isUpperA c = true) : isLowerA c = false := by
  cases hl : isLowerA c with
  | false => rfl
  | true => rw [lower_not_upper hl] at h; cases h

theorem lowerC_upper {c : Char} (h : isUpperA c = true) : (lowerC c).toNat = c.toNat + 32 := by
  have h' := upper_iff.mp h
  have : 'A' ≤ c ∧ c ≤ 'Z' := by simpa [isUpperA] using h
  unfold lowerC
  rw [if_pos this]
  have hv : (c.toNat + 32).isValidChar := by left; omega
  show (Char.ofNat (c.toNat + 32)).toNat = _
  unfold Char.ofNat
  rw [dif_pos hv]
  rfl

theorem lowerC_lower {c : Char} (h : isLowerA c = true) : lowerC c = c := by
  have h' := lower_not_upper h
  unfold lowerC
  rw [if_neg]
  intro hc
  have : isUpperA c = true := by simpa [isUpperA] using hc
  rw [h'] at this; cases this

theorem isLower_lowerC {c : Char} (h : isUpperA c = true) : isLowerA (lowerC c) = true := by
  rw [lower_iff, lowerC_upper h]
  have := upper_iff.mp h
  omega

theorem lowerC_inj {a b : Char} (ha : isUpperA a = true) (hb : isUpperA b = true) (h : lowerC a = lowerC b) : a = b := by
  have h1 := lowerC_upper ha
  rw [h, lowerC_upper hb] at h1
  exact Char.toNat_inj.mp (by omega)

/-! ### `toSnake`, letter by letter -/

/-- What becomes of one letter, given the one before it. -/
def snakeAt (prev : Option Char) (c : Char) : Str :=
  if isUpperA c then
    match prev with
    | none => [lowerC c]
    | some p => if isLowerA p then ['_', lowerC c] else [c]
  else [c]

def snakeSpec : Option Char → Str → Str
  | _, [] => []
  | p, c :: r => snakeAt p c ++ snakeSpec (some c) r

theorem snakeGo_eq : ∀ (n : Nat) (s : Str) (p : Char), s.length ≤ n →
    (∀ c r, s = c :: r → isLowerA p = true → isUpperA c = false) → snakeGo s = snakeSpec (some p) s
  | _, [], _, _, _ => rfl
  | _, [a], p, _, h => by
    simp only [snakeGo, snakeSpec, snakeAt, List.append_nil]
    split
    · rename_i ha
      split
      · rename_i hp
        rw [h a [] rfl hp] at ha; cases ha
      · rfl
    · rfl
  | 0, _ :: _ :: _, _, hl, _ => by simp at hl
  | n + 1, a :: b :: r, p, hl, h => by
    have ha : snakeAt (some p) a = [a] := by
      unfold snakeAt
      split
      · rename_i ha
        dsimp only
        rw [if_neg]
        intro hp
        rw [h a _ rfl hp] at ha; cases ha
      · rfl
    simp only [List.length_cons] at hl
    rw [snakeGo, snakeSpec, ha]
    split
    · rename_i hab
      simp only [Bool.and_eq_true] at hab
      have hb : snakeAt (some a) b = ['_', lowerC b] := by
        simp [snakeAt, hab.1, hab.2]
      rw [snakeSpec, hb, snakeGo_eq n r b (by omega)
        (fun c _ _ hlb => by rw [upper_not_lower hab.2] at hlb; cases hlb)]
      rfl
    · rename_i hab
      rw [snakeGo_eq n (b :: r) a (by simp; omega)
        (fun c r' he hla => by
          cases he
          cases hub : isUpperA b with
          | false => rfl
          | true => rw [hla, hub] at hab; simp at hab)]
      rfl

/-- `toSnake` makes a capital small at the beginning and after a small letter, with an underscore between, and
leaves all other characters alone (after "SQL" has been made "Sql" everywhere). -/
theorem C71_snake (s : Str) : toSnake s = snakeSpec none (sqlToSql s) := by
  unfold toSnake
  cases hs : sqlToSql s with
  | nil => rfl
  | cons c r =>
    dsimp only
    split
    · rename_i hc
      rw [snakeSpec, show snakeAt none c = [lowerC c] by simp [snakeAt, hc],
        snakeGo_eq r.length r c (Nat.le_refl _) (fun _ _ _ h => by rw [upper_not_lower hc] at h; cases h)]
      rfl
    · rename_i hc
      have hc : isUpperA c = false := by simpa using hc
      have : snakeSpec none (c :: r) = snakeSpec (some 'A') (c :: r) := by
        simp [snakeSpec, snakeAt, hc]
      rw [this]
      exact snakeGo_eq _ _ _ (Nat.le_refl _) (fun d _ he _ => by cases he; exact hc)

example : toSnake (str% "SQLWindowFrameBound") = str% "sql_window_frame_bound" ∧
    toSnake (str% "BarSQL") = str% "bar_sql" ∧ toSnake (str% "FooBAr2X") = str% "foo_bAr2X" := by decide

/-! ### Names made of words -/

/-- A word of a name: `SQL`, or a capital and small letters. -/
inductive Word where
  | sql
  | cap (c : Char) (rest : Str)
  deriving DecidableEq

def Word.text : Word → Str
  | .sql => str% "SQL"
  | .cap c r => c :: r

def Word.ok : Word → Bool
  | .sql => true
  | .cap c r => isUpperA c && !r.isEmpty && r.all isLowerA

/-- The word in small letters. -/
def Word.small : Word → Str
  | .sql => str% "sql"
  | .cap c r => lowerC c :: r

def nameOf (ws : List Word) : Str := ws.flatMap Word.text

/-- The words with underscores between them. -/
def joined : List Str → Str
  | [] => []
  | [w] => w
  | w :: v :: ws => w ++ '_' :: joined (v :: ws)

/-- `SQL` after its replacement. -/
def Word.text' : Word → Str
  | .sql => str% "Sql"
  | .cap c r => c :: r

theorem sqlToSql_lower {c : Char} {s : Str} (h : isLowerA c = true) : sqlToSql (c :: s) = c :: sqlToSql s := by
  conv => lhs; unfold sqlToSql
  split
  · rename_i heq
    cases heq
    simp [isLowerA] at h
  · rename_i heq
    cases heq; rfl
  · rename_i heq; cases heq

theorem sqlToSql_lowers {r s : Str} (h : ∀ c ∈ r, isLowerA c = true) : sqlToSql (r ++ s) = r ++ sqlToSql s := by
  induction r with
  | nil => rfl
  | cons c r ih =>
    rw [List.cons_append, sqlToSql_lower (h c (by simp)), ih fun d hd => h d (by simp [hd])]
    rfl

theorem sqlToSql_cap {c d : Char} {s : Str} (h : isLowerA d = true) :
    sqlToSql (c :: d :: s) = c :: sqlToSql (d :: s) := by
  conv => lhs; unfold sqlToSql
  split
  · rename_i heq
    cases heq
    simp [isLowerA] at h
  · rename_i heq
    cases heq; rfl
  · rename_i heq; cases heq

theorem Word.ok_cap {c : Char} {r : Str} (h : (Word.cap c r).ok = true) :
    isUpperA c = true ∧ r ≠ [] ∧ ∀ d ∈ r, isLowerA d = true := by
  simp only [Word.ok, Bool.and_eq_true, List.all_eq_true] at h
  refine ⟨h.1.1, ?_, h.2⟩
  intro hr
  rw [hr] at h
  simp at h

theorem sqlToSql_name {ws : List Word} (h : ∀ w ∈ ws, w.ok = true) :
    sqlToSql (nameOf ws) = ws.flatMap Word.text' := by
  induction ws with
  | nil => rfl
  | cons w ws ih =>
    have ih := ih fun v hv => h v (by simp [hv])
    have hw := h w (by simp)
    unfold nameOf at ih ⊢
    rw [List.flatMap_cons, List.flatMap_cons, ← ih]
    cases w with
    | sql => rfl
    | cap c r =>
      obtain ⟨-, hr, hl⟩ := Word.ok_cap hw
      cases r with
      | nil => exact absurd rfl hr
      | cons d r =>
        show sqlToSql (c :: d :: (r ++ _)) = _
        rw [sqlToSql_cap (hl d (by simp))]
        show c :: sqlToSql ((d :: r) ++ _) = _
        rw [sqlToSql_lowers hl]
        rfl

theorem snakeSpec_lowers {r s : Str} {p : Char} (hr : ∀ c ∈ r, isLowerA c = true) :
    snakeSpec (some p) (r ++ s) = r ++ snakeSpec (some ((p :: r).getLast (by simp))) s := by
  induction r generalizing p with
  | nil => rfl
  | cons c r ih =>
    have hc := hr c (by simp)
    rw [List.cons_append, snakeSpec, ih fun d hd => hr d (by simp [hd])]
    simp [snakeAt, lower_not_upper hc]

theorem Word.text'_eq {w : Word} (h : w.ok = true) : ∃ c r, w.text' = c :: r ∧ w.small = lowerC c :: r ∧
    isUpperA c = true ∧ r ≠ [] ∧ ∀ d ∈ r, isLowerA d = true := by
  cases w with
  | sql => exact ⟨'S', str% "ql", rfl, by decide, by decide, by decide, by decide⟩
  | cap c r => exact ⟨c, r, rfl, rfl, Word.ok_cap h⟩

theorem snakeSpec_words {ws : List Word} (h : ∀ w ∈ ws, w.ok = true) {p : Char} (hp : isLowerA p = true) :
    snakeSpec (some p) (ws.flatMap Word.text') = ws.flatMap fun w => '_' :: w.small := by
  induction ws generalizing p with
  | nil => rfl
  | cons w ws ih =>
    obtain ⟨c, r, e1, e2, hc, hr, hl⟩ := Word.text'_eq (h w (by simp))
    rw [List.flatMap_cons, List.flatMap_cons, e1, e2, List.cons_append, snakeSpec, snakeSpec_lowers hl, ih
      (fun v hv => h v (by simp [hv]))]
    · simp [snakeAt, hc, hp]
    · rw [List.getLast_cons hr]
      exact hl _ (List.getLast_mem hr)

theorem joined_eq (w : Str) (ws : List Str) : joined (w :: ws) = w ++ ws.flatMap fun v => '_' :: v := by
  induction ws generalizing w with
  | nil => simp [joined]
  | cons v ws ih => rw [joined, ih, List.flatMap_cons]; rfl

/-- A name made of words in capitals (`SQL` counts as one) becomes the words in small letters, with underscores
between them. -/
theorem C71_snake_words {ws : List Word} (h : ∀ w ∈ ws, w.ok = true) :
    toSnake (nameOf ws) = joined (ws.map Word.small) := by
  rw [C71_snake, sqlToSql_name h]
  cases ws with
  | nil => rfl
  | cons w ws =>
    obtain ⟨c, r, e1, e2, hc, hr, hl⟩ := Word.text'_eq (h w (by simp))
    rw [List.map_cons, joined_eq, List.flatMap_cons, e1, e2, List.cons_append, snakeSpec, snakeSpec_lowers hl,
      snakeSpec_words (fun v hv => h v (by simp [hv]))]
    · simp [snakeAt, hc, List.flatMap_map]
    · rw [List.getLast_cons hr]
      exact hl _ (List.getLast_mem hr)

example : (∀ w ∈ [Word.cap 'M' (str% "y"), .sql, .cap 'T' (str% "ype")], w.ok = true) ∧
    nameOf [.cap 'M' (str% "y"), .sql, .cap 'T' (str% "ype")] = str% "MySQLType" ∧
    toSnake (str% "MySQLType") = str% "my_sql_type" := by decide

theorem small_no_underscore {w : Word} (h : w.ok = true) : '_' ∉ w.small := by
  obtain ⟨c, r, -, e2, hc, -, hl⟩ := Word.text'_eq h
  rw [e2]
  intro hm
  rcases List.mem_cons.mp hm with he | hm
  · have := isLower_lowerC hc
    rw [← he] at this
    revert this; decide
  · have := hl _ hm
    revert this; decide

theorem small_ne_nil (w : Word) : w.small ≠ [] := by cases w <;> simp [Word.small]

theorem joined_inj {ws vs : List Str} (hw : ∀ w ∈ ws, '_' ∉ w ∧ w ≠ []) (hv : ∀ v ∈ vs, '_' ∉ v ∧ v ≠ [])
    (h : joined ws = joined vs) : ws = vs := by
  have key : ∀ {a b x y : Str}, '_' ∉ a → '_' ∉ b → (x = [] ∨ ∃ x', x = '_' :: x') → (y = [] ∨ ∃ y', y = '_' :: y') →
      a ++ x = b ++ y → a = b ∧ x = y := by
    intro a
    induction a with
    | nil =>
      intro b x y _ hb hx hy he
      cases b with
      | nil => exact ⟨rfl, he⟩
      | cons d b =>
        exfalso
        rcases hx with rfl | ⟨x', rfl⟩
        · cases he
        · exact hb (by rw [(List.cons.inj he).1]; simp)
    | cons c a ih =>
      intro b x y ha hb hx hy he
      cases b with
      | nil =>
        exfalso
        rcases hy with rfl | ⟨y', rfl⟩
        · cases he
        · exact ha (by rw [← (List.cons.inj he).1]; simp)
      | cons d b =>
        obtain ⟨h1, h2⟩ := List.cons.inj he
        obtain ⟨h3, h4⟩ := ih (fun m => ha (by simp [m])) (fun m => hb (by simp [m])) hx hy h2
        exact ⟨by rw [h1, h3], h4⟩
  have tail : ∀ (us : List Str), (us.flatMap fun v => '_' :: v) = [] ∨ ∃ x', (us.flatMap fun v => '_' :: v) = '_' :: x' := by
    intro us
    cases us with
    | nil => exact .inl rfl
    | cons u us => exact .inr ⟨_, by rw [List.flatMap_cons, List.cons_append]⟩
  have all : ∀ (ws vs : List Str), (∀ w ∈ ws, '_' ∉ w) → (∀ v ∈ vs, '_' ∉ v) →
      (ws.flatMap fun v => '_' :: v) = (vs.flatMap fun v => '_' :: v) → ws = vs := by
    intro ws
    induction ws with
    | nil =>
      intro vs _ _ he
      cases vs with
      | nil => rfl
      | cons v vs => simp at he
    | cons w ws ih =>
      intro vs hw hv he
      cases vs with
      | nil => simp at he
      | cons v vs =>
        rw [List.flatMap_cons, List.flatMap_cons, List.cons_append, List.cons_append] at he
        obtain ⟨h1, h2⟩ := key (hw w (by simp)) (hv v (by simp)) (tail ws) (tail vs) (List.cons.inj he).2
        rw [h1, ih vs (fun u hu => hw u (by simp [hu])) (fun u hu => hv u (by simp [hu])) h2]
  cases ws with
  | nil =>
    cases vs with
    | nil => rfl
    | cons v vs =>
      exfalso
      rw [joined_eq] at h
      exact (hv v (by simp)).2 (List.append_eq_nil_iff.mp h.symm).1
  | cons w ws =>
    cases vs with
    | nil =>
      exfalso
      rw [joined_eq] at h
      exact (hw w (by simp)).2 (List.append_eq_nil_iff.mp h).1
    | cons v vs =>
      rw [joined_eq, joined_eq] at h
      obtain ⟨h1, h2⟩ := key (hw w (by simp)).1 (hv v (by simp)).1 (tail ws) (tail vs) h
      rw [h1, all ws vs (fun u hu => (hw u (by simp [hu])).1) (fun u hu => (hv u (by simp [hu])).1) h2]

/-- The same word, or `SQL` and `Sql`. -/
def Word.alike (w v : Word) : Prop :=
  w = v ∨ (w = .sql ∧ v = .cap 'S' (str% "ql")) ∨ (w = .cap 'S' (str% "ql") ∧ v = .sql)

theorem small_eq_iff {w v : Word} (hw : w.ok = true) (hv : v.ok = true) : w.small = v.small ↔ w.alike v := by
  constructor
  · intro h
    cases w with
    | sql =>
      cases v with
      | sql => exact .inl rfl
      | cap c r =>
        obtain ⟨h1, h2⟩ := List.cons.inj (show 's' :: str% "ql" = lowerC c :: r from h)
        refine .inr (.inl ⟨rfl, ?_⟩)
        rw [← h2, lowerC_inj (a := 'S') (by decide) (Word.ok_cap hv).1 ((by decide : lowerC 'S' = 's').trans h1)]
    | cap c r =>
      cases v with
      | sql =>
        obtain ⟨h1, h2⟩ := List.cons.inj (show lowerC c :: r = 's' :: str% "ql" from h)
        refine .inr (.inr ⟨?_, rfl⟩)
        rw [h2, lowerC_inj (b := 'S') (Word.ok_cap hw).1 (by decide) (h1.trans (by decide))]
      | cap d r' =>
        obtain ⟨h1, h2⟩ := List.cons.inj (show lowerC c :: r = lowerC d :: r' from h)
        refine .inl ?_
        rw [h2, lowerC_inj (Word.ok_cap hw).1 (Word.ok_cap hv).1 h1]
  · rintro (rfl | ⟨rfl, rfl⟩ | ⟨rfl, rfl⟩) <;> first | rfl | decide

/-- Word by word. -/
inductive Alike : List Word → List Word → Prop where
  | nil : Alike [] []
  | cons {w v : Word} {ws vs : List Word} : w.alike v → Alike ws vs → Alike (w :: ws) (v :: vs)

/-- Two names of words get the same file name exactly if they differ at most by writing `SQL` as `Sql`. -/
theorem C71_file_names {ws vs : List Word} (hw : ∀ w ∈ ws, w.ok = true) (hv : ∀ v ∈ vs, v.ok = true) :
    toSnake (nameOf ws) = toSnake (nameOf vs) ↔ Alike ws vs := by
  have f2 : ∀ {ws vs : List Word}, (∀ w ∈ ws, w.ok = true) → (∀ v ∈ vs, v.ok = true) →
      (ws.map Word.small = vs.map Word.small ↔ Alike ws vs) := by
    intro ws
    induction ws with
    | nil =>
      intro vs _ _
      cases vs with
      | nil => exact ⟨fun _ => .nil, fun _ => rfl⟩
      | cons v vs => exact ⟨fun h => (by cases h), fun h => (by cases h)⟩
    | cons w ws ih =>
      intro vs hw hv
      cases vs with
      | nil => exact ⟨fun h => (by cases h), fun h => (by cases h)⟩
      | cons v vs =>
        have i := ih (vs := vs) (fun u hu => hw u (by simp [hu])) (fun u hu => hv u (by simp [hu]))
        have e := small_eq_iff (hw w (by simp)) (hv v (by simp))
        constructor
        · intro h
          obtain ⟨h1, h2⟩ := List.cons.inj h
          exact .cons (e.mp h1) (i.mp h2)
        · rintro (_ | ⟨h1, h2⟩)
          rw [List.map_cons, List.map_cons, e.mpr h1, i.mpr h2]
  rw [C71_snake_words hw, C71_snake_words hv, ← f2 hw hv]
  constructor
  · apply joined_inj
    · intro u hu
      obtain ⟨w, hm, rfl⟩ := List.mem_map.mp hu
      exact ⟨small_no_underscore (hw w hm), small_ne_nil w⟩
    · intro u hu
      obtain ⟨w, hm, rfl⟩ := List.mem_map.mp hu
      exact ⟨small_no_underscore (hv w hm), small_ne_nil w⟩
  · intro h; rw [h]

example : toSnake (str% "SQLStmt") = toSnake (str% "SqlStmt") ∧ toSnake (str% "TableFactor") ≠ toSnake (str% "TableFact") := by
  decide

/-! ### `toPrivate` -/

theorem lowerSQL_cases (s : Str) : (∃ r, s = str% "SQL" ++ r ∧ lowerSQL s = str% "sql" ++ r) ∨
    ((∀ r, s ≠ str% "SQL" ++ r) ∧ lowerSQL s = s) := by
  unfold lowerSQL
  split
  · exact .inl ⟨_, rfl, rfl⟩
  · rename_i h
    exact .inr ⟨fun r hr => h r hr, rfl⟩

/-- Two public names get the same marker method exactly if they are equal or differ by `SQL` and `Sql` at the
beginning; `toPrivate` does not panic on them. -/
theorem C71_private {a b : Char} {r r' : Str} (ha : isUpperA a = true) (hb : isUpperA b = true) :
    (∃ p, toPrivate (a :: r) = some p) ∧
    (toPrivate (a :: r) = toPrivate (b :: r') ↔
      a :: r = b :: r' ∨
      (∃ t, a :: r = str% "SQL" ++ t ∧ b :: r' = str% "Sql" ++ t) ∨
      (∃ t, a :: r = str% "Sql" ++ t ∧ b :: r' = str% "SQL" ++ t)) := by
  have val : ∀ (c : Char) (s : Str), toPrivate (c :: s) =
      match lowerSQL (c :: s) with | [] => none | d :: t => some (lowerC d :: t) := fun _ _ => rfl
  have sq : lowerC 's' = 's' := by decide
  have sS : lowerC 'S' = 's' := by decide
  constructor
  · rw [val]
    rcases lowerSQL_cases (a :: r) with ⟨t, -, h⟩ | ⟨-, h⟩
    · rw [h]; exact ⟨_, rfl⟩
    · rw [h]; exact ⟨_, rfl⟩
  · constructor
    · intro h
      rw [val, val] at h
      rcases lowerSQL_cases (a :: r) with ⟨t, e1, h1⟩ | ⟨n1, h1⟩ <;>
        rcases lowerSQL_cases (b :: r') with ⟨u, e2, h2⟩ | ⟨n2, h2⟩
      · rw [h1, h2] at h
        simp only [List.cons_append, List.nil_append, Option.some.injEq, List.cons.injEq, true_and] at h
        left
        rw [e1, e2, h]
      · rw [h1, h2] at h
        simp only [List.cons_append, List.nil_append, Option.some.injEq, List.cons.injEq] at h
        right; left
        refine ⟨t, e1, ?_⟩
        rw [sq] at h
        have := lowerC_inj (a := 'S') (b := b) (by decide) hb (sS.trans h.1)
        rw [← this, ← h.2]
        rfl
      · rw [h1, h2] at h
        simp only [List.cons_append, List.nil_append, Option.some.injEq, List.cons.injEq] at h
        right; right
        refine ⟨u, ?_, e2⟩
        rw [sq] at h
        have := lowerC_inj (a := a) (b := 'S') ha (by decide) (h.1.trans sS.symm)
        rw [this, h.2]
        rfl
      · rw [h1, h2] at h
        simp only [Option.some.injEq, List.cons.injEq] at h
        left
        rw [lowerC_inj ha hb h.1, h.2]
    · rintro (h | ⟨t, h1, h2⟩ | ⟨t, h1, h2⟩)
      · rw [h]
      · rw [h1, h2]
        exact congrArg (fun c => some (c :: (str% "ql" ++ t))) (sq.trans sS.symm)
      · rw [h1, h2]
        exact congrArg (fun c => some (c :: (str% "ql" ++ t))) (sS.trans sq.symm)

example : toPrivate (str% "SQLSetExpr") = some (str% "sqlSetExpr") ∧ toPrivate (str% "SqlSetExpr") = some (str% "sqlSetExpr") ∧
    toPrivate (str% "MySQLDialect") = some (str% "mySQLDialect") := by decide

/-- genmark never panics; it generates a file exactly if the type name begins with a capital. -/
theorem C71_run (f : Flags) : run f ≠ .panic ∧
    ((∃ name text, run f = .file name text) ↔ ∃ c r, f.markerTypeName = c :: r ∧ isUpperA c = true) := by
  unfold run
  cases hn : f.markerTypeName with
  | nil => simp
  | cons c r =>
    by_cases hc : isUpperA c = true
    · obtain ⟨p, hp⟩ := (C71_private (r := r) (r' := r) hc hc).1
      simp [hc, hp]
    · simp [hc]

/-- Names with commas between them. -/
def withCommas : List Str → Str
  | [] => []
  | [n] => n
  | n :: ns => n ++ ',' :: withCommas ns

theorem splitComma_ne_nil (s : Str) : splitComma s ≠ [] := by
  cases s with
  | nil => simp [splitComma]
  | cons c r =>
    simp only [splitComma]
    split
    · simp
    · split <;> simp

theorem splitComma_name : ∀ {n : Str}, ',' ∉ n → ∀ r, splitComma (n ++ ',' :: r) = n :: splitComma r
  | [], _, r => by
    simp only [List.nil_append, splitComma]
    cases h : splitComma r with
    | nil => exact absurd h (splitComma_ne_nil r)
    | cons w ws => rfl
  | c :: n, h, r => by
    simp only [List.mem_cons, not_or] at h
    have ih := splitComma_name h.2 r
    have hc : c ≠ ',' := fun e => h.1 e.symm
    simp only [List.cons_append, splitComma, ih, if_neg hc]

theorem splitComma_last : ∀ {n : Str}, ',' ∉ n → splitComma n = [n]
  | [], _ => rfl
  | c :: n, h => by
    simp only [List.mem_cons, not_or] at h
    have hc : c ≠ ',' := fun e => h.1 e.symm
    simp only [splitComma, splitComma_last h.2, if_neg hc]

theorem splitComma_withCommas : ∀ {ns : List Str}, ns ≠ [] → (∀ n ∈ ns, ',' ∉ n) → splitComma (withCommas ns) = ns
  | [], h, _ => absurd rfl h
  | [n], _, h => splitComma_last (h n (by simp))
  | n :: m :: ns, _, h => by
    rw [withCommas, splitComma_name (h n (by simp)), splitComma_withCommas (by simp) fun k hk => h k (by simp [hk])]
    exact fun h => nomatch h

theorem embedded_withCommas {f : Flags} {ns : List Str} (hn : ∀ n ∈ ns, n ≠ [] ∧ ',' ∉ n) (hf : f.embedded = withCommas ns) :
    embedded f = ns := by
  unfold embedded
  cases ns with
  | nil => rw [if_pos (by rw [hf]; rfl)]
  | cons n ns =>
    have : f.embedded ≠ [] := by
      rw [hf]
      have := (hn n (by simp)).1
      cases ns <;> simp [withCommas, this]
    rw [if_neg this, hf, splitComma_withCommas (by simp) fun k hk => (hn k hk).2]

/-- What genmark generates.  The file has the name given with `-o`, or that of the type in snake case; the embedded
interfaces are given with `-e` as a list with commas, and each is a line of the interface, in order. -/
theorem C71_output {f : Flags} {c : Char} {r : Str} (hf : f.markerTypeName = c :: r) (hc : isUpperA c = true)
    {ns : List Str} (hn : ∀ n ∈ ns, n ≠ [] ∧ ',' ∉ n) (he : f.embedded = withCommas ns) :
    ∃ p text, toPrivate f.markerTypeName = some p ∧
      text = str% "package " ++ f.package ++ str% "\n// Code generated by genmark. DO NOT EDIT.\n\ntype " ++ f.markerTypeName ++
        str% " interface {\n" ++ p ++ str% "Marker()\n" ++ (ns.map (· ++ str% "\n")).flatten ++ str% "}\ntype " ++ p ++
        str% " struct {}\nfunc (" ++ p ++ str% ") " ++ p ++ str% "Marker() {}\n" ∧
      (f.outputName = [] → run f = .file (toSnake f.markerTypeName ++ str% "_gen.go") text) ∧
      (f.outputName ≠ [] → run f = .file (f.outputName ++ str% "_gen.go") text) := by
  obtain ⟨p, hp⟩ := (C71_private (r := r) (r' := r) hc hc).1
  have hs : source f p = str% "package " ++ f.package ++ str% "\n// Code generated by genmark. DO NOT EDIT.\n\ntype " ++ f.markerTypeName ++
        str% " interface {\n" ++ p ++ str% "Marker()\n" ++ (ns.map (· ++ str% "\n")).flatten ++ str% "}\ntype " ++ p ++
        str% " struct {}\nfunc (" ++ p ++ str% ") " ++ p ++ str% "Marker() {}\n" := by
    simp only [source, embedded_withCommas hn he, List.flatMap_def, List.append_assoc, List.cons_append, List.nil_append]
  refine ⟨p, source f p, by rw [hf, hp], hs, fun ho => ?_, fun ho => ?_⟩
  · rw [run, hf]; simp only [hc, if_true, hp, if_pos ho]
  · rw [run, hf]; simp only [hc, if_true, hp, if_neg ho]

example : run ⟨str% "Stmt", str% "x", withCommas [str% "Node", str% "Other"], str% "sqlast"⟩ = .file (str% "x_gen.go")
    (str% "package sqlast\n// Code generated by genmark. DO NOT EDIT.\n\ntype Stmt interface {\nstmtMarker()\nNode\nOther\n}\ntype stmt struct {}\nfunc (stmt) stmtMarker() {}\n") := by
  decide +kernel

/-- The marker interfaces of package sqlast (the `go:generate` lines) and the files in the directory. -/
example : (["SQLWindowFrameBound", "SQLSetExpr", "SQLSetOperator", "TableReference", "TableFactor", "SQLSelectItem",
      "JoinElement", "JoinSpec", "TableOption", "Stmt", "InsertSource", "TableElement", "TableConstraintSpec",
      "MyDataTypeDecoration", "AlterTableAction", "AlterColumnAction"].map fun t => String.ofList (toSnake t.toList)) =
    ["sql_window_frame_bound", "sql_set_expr", "sql_set_operator", "table_reference", "table_factor", "sql_select_item",
      "join_element", "join_spec", "table_option", "stmt", "insert_source", "table_element", "table_constraint_spec",
      "my_data_type_decoration", "alter_table_action", "alter_column_action"] := by decide +kernel

example : run ⟨str% "Stmt", [], str% "Node", str% "sqlast"⟩ = .file (str% "stmt_gen.go")
    (str% "package sqlast\n// Code generated by genmark. DO NOT EDIT.\n\ntype Stmt interface {\nstmtMarker()\nNode\n}\ntype stmt struct {}\nfunc (stmt) stmtMarker() {}\n") := by
  decide +kernel

end Verif.Genmark
