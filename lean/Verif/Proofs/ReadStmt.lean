import Verif.Proofs.ReadTree
import Verif.Proofs.ParseStmt
/-
Completeness of the grammar: the parts of statements.
-/
set_option linter.unusedSimpArgs false
set_option linter.unusedVariables false
namespace Verif
open Spec

variable {fns : FloatFns} {ks : List Tok}

theorem Expr.readsE {e : Expr} (h : e.shape freeWord = true) : AllE fns e := (Expr.reads e h).expr h

theorem read_default {e : Expr} (hs : e.shape freeWord = true) (hd' : e.defaultOK = true) (h : K (e.lang fns clean) ks) :
    Ev fun m => ∀ (b : List Token) (rest : List Tok), fE (hd rest) = true →
    prec (hd rest) ≤ e.rp → (prec (hd rest) = 0 ∨ hd rest = .kw .NOT) →
    (parseDefaultExpr (Parsers.at fns m)).runZ b (Z (ks ++ rest)) = .ok e.erase (R ks b, Z rest) := by
  obtain ⟨c, n, hn⟩ := (Expr.reads e hs ks h).dflt hd'
  refine ⟨n + 1 + c, fun m hm => ?_⟩
  obtain ⟨k, rfl⟩ : ∃ k, m = (k + 1) + c := ⟨m - 1 - c, by omega⟩
  intro b rest hf hr hq
  have ho := (folE_facts (fE_facts hf).2).1
  rw [hn (k + 1) (by omega) b rest hf hr, at_defaultLoop]
  simp only [defaultLoopF, zx]
  split
  · simp [zx]
  · simp [zx]
  · next h1 h2 =>
    rcases hq with hq | hq
    · simp [zx, ho, hq]
    · cases rest with
      | nil => cases hq
      | cons t rest =>
        simp only [hd] at hq
        exact absurd (by simp [Z_cons, kw?_of_fk hq]) h1

/-- Names in parentheses. -/
theorem read_parensIds {is : List Ident} (hs : identsShape freeWord is = true) (h : K (sym .LParen ⬝ idents .Comma is ⬝ sym .RParen) ks) :
    ∃ s s' vs, ks = .sym .LParen s :: (vs ++ [.sym .RParen s']) ∧ Ev fun m => ∀ (b : List Token) (rest : List Tok),
      (parseColumnNames (Parsers.at fns m)).runZ b (Z (vs ++ .sym .RParen s' :: rest)) =
        .ok (is.map Ident.erase) (R vs b, zt (.sym .RParen s') :: Z rest) := by
  eatS h s
  split_ h h1 k1 k2
  eatS h s'
  refine ⟨s, s', k1, rfl, (read_columnNames (fns := fns) hs h1).mono fun m hm => ?_⟩
  intro b rest
  exact hm b (.sym .RParen s' :: rest) (by simp [zx, notSym, fk])

theorem parensTo_K {p : Pos} {L : Lang} (h : K (parensTo p L) ks) : K (sym .LParen ⬝ L ⬝ sym .RParen) ks := by
  replace h : K (sym .LParen ⬝ L ⬝ (sym .RParen ◃ p)) ks := h
  refine h.mono fun ts h => ?_
  obtain ⟨u, v, rfl, hu, x, y, rfl, hx, hy⟩ := h
  exact ⟨u, x ++ y, rfl, hu, x, y, rfl, hx, hy.1⟩

/-- A condition in parentheses. -/
theorem read_parensExpr {e : Expr} (hs : e.shape freeWord = true) (h : K (sym .LParen ⬝ e.lang fns clean ⬝ sym .RParen) ks) :
    ∃ s s' vs, ks = .sym .LParen s :: (vs ++ [.sym .RParen s']) ∧ Ev fun m => ∀ (b : List Token) (rest : List Tok),
      ((Parsers.at fns m).subexpr 0).runZ b (Z (vs ++ .sym .RParen s' :: rest)) =
        .ok e.erase (R vs b, zt (.sym .RParen s') :: Z rest) := by
  eatS h s
  split_ h h1 k1 k2
  eatS h s'
  refine ⟨s, s', k1, rfl, (Expr.readsE hs _ h1).mono fun m hm => ?_⟩
  intro b rest
  exact hm b (.sym .RParen s' :: rest) (by nxt)

/-! ### Column definitions -/

theorem read_columnSpec {s : ColumnSpec} (hw : s.shape freeWord = true) (h : K (s.lang fns clean) ks) :
    ∃ w tl, ks = .word w :: tl ∧ fk (.word w) = .kw (specHead s) ∧ kwOf w.keyword = some (specHead s) ∧
    Ev fun m => ∀ (b : List Token) (rest : List Tok), (parseColumnSpec (Parsers.at fns m) (zt (.word w))).runZ b (Z (ks ++ rest)) =
      .ok (some s.erase) (R ks b, Z rest) := by
  match s with
  | .notNull p q =>
    simp only [ColumnSpec.lang] at h
    eatK h w hf hk
    eatK h w' hf' hk'
    exact ⟨w, _, rfl, hf, hk, Ev.of fun m b rest => by simp [ColumnSpec.erase, zx, parseColumnSpec, hf', hk]⟩
  | .unique true p q r =>
    simp only [ColumnSpec.lang] at h
    eatK h w hf hk
    eatK h w' hf' hk'
    drop_ h with -
    exact ⟨w, _, rfl, hf, hk, Ev.of fun m b rest => by simp [ColumnSpec.erase, zx, parseColumnSpec, hf', hk]⟩
  | .unique false p q r =>
    simp only [ColumnSpec.lang] at h
    eatK h w hf hk
    drop_ h with -
    exact ⟨w, _, rfl, hf, hk, Ev.of fun m b rest => by simp [ColumnSpec.erase, zx, parseColumnSpec, hk]⟩
  | .references p q name cols =>
    simp only [ColumnSpec.shape, Bool.and_eq_true] at hw
    simp only [ColumnSpec.lang] at h
    eatK h w hf hk
    split_ h h1 k1 k2
    replace h := read_parensIds (fns := fns) hw.2 (parensTo_K h)
    obtain ⟨s, s', vs, rfl, h⟩ := h
    refine ⟨w, _, rfl, hf, hk, ((read_objectName (fns := fns) hw.1 h1).and h).mono fun m hm => ?_⟩
    intro b rest
    have h1 := fun b rest => hm.1 b (.sym .LParen s :: rest) (by simp [zx, notSym, fk])
    have h2 := hm.2
    simp only [zx] at h1 h2
    simp [ColumnSpec.erase, zx, parseColumnSpec, h1, h2, hk]
  | .check e p q =>
    simp only [ColumnSpec.shape] at hw
    simp only [ColumnSpec.lang] at h
    eatK h w hf hk
    replace h := read_parensExpr (fns := fns) hw (parensTo_K h)
    obtain ⟨s, s', vs, rfl, h⟩ := h
    refine ⟨w, _, rfl, hf, hk, h.mono fun m hm => ?_⟩
    intro b rest
    simp [ColumnSpec.erase, zx, parseColumnSpec, parseExpr, hm, hk]

theorem specHead_ne (s : ColumnSpec) : specHead s ≠ .CONSTRAINT ∧ specKw (specHead s) = true := by
  cases s with
  | unique b => cases b <;> simp [specHead, specKw]
  | _ => simp [specHead, specKw]

/-- What may follow a group of column constraints. -/
def folCs (f : Fk) : Bool := folC f || f == .kw .DEFAULT || f == .kw .AUTO_INCREMENT

theorem read_columnConstraints {cs : List ColumnConstraint} (hw : ∀ c ∈ cs, c.shape freeWord = true)
    (h : K (concat (cs.map (ColumnConstraint.lang fns clean))) ks) :
    (Ev fun m => Parses (Parsers.at fns m).columnConstraints ks (cs.map ColumnConstraint.erase) folCs) ∧
    (cs = [] ∨ ∃ w tl k, ks = .word w :: tl ∧ fk (.word w) = .kw k ∧ kwOf w.keyword = some k ∧ specKw k = true ∧
      (k = .NOT → startsNot cs = true)) := by
  induction cs generalizing ks with
  | nil =>
    simp only [List.map_nil, concat] at h
    drop_ h with -
    refine ⟨(Ev.of fun m => ?_).succ, .inl rfl⟩
    intro b rest hr
    cases rest with
    | nil => cases hr
    | cons t rest =>
      simp only [folCs, Bool.or_eq_true, beq_iff_eq, hd] at hr
      rcases hr with (hr | hr) | hr
      · obtain ⟨h1, h2⟩ := folC_word (t := t) hr
        simp [zx, columnConstraintsF, h1, h2]
      · have h2 := kw?_of_fk hr
        cases hwd : (zt t).word? with
        | none => simp [zx, columnConstraintsF, h2, hwd]
        | some w => simp [zx, columnConstraintsF, h2, hwd, parseColumnSpec]
      · have h2 := kw?_of_fk hr
        cases hwd : (zt t).word? with
        | none => simp [zx, columnConstraintsF, h2, hwd]
        | some w => simp [zx, columnConstraintsF, h2, hwd, parseColumnSpec]
  | cons c cs ih =>
    obtain ⟨name, p, s⟩ := c
    have w := hw ⟨name, p, s⟩ (by simp)
    simp only [ColumnConstraint.shape, Bool.and_eq_true] at w
    simp only [List.map_cons, concat, ColumnConstraint.lang] at h
    split_ h h1 k1 k2
    split_ h1 hn n1 n2
    drop_ h1 with -
    replace h1 := read_columnSpec w.2 h1
    obtain ⟨hd1, tl, rfl, hf, hk, he⟩ := h1
    obtain ⟨ih, -⟩ := ih (fun c hc => hw c (by simp [hc])) h
    obtain ⟨hne, hsk⟩ := specHead_ne s
    have hnm : (name = none ∧ n1 = []) ∨ ∃ n w1 w2, name = some n ∧ n1 = [.word w1, .word w2] ∧ fk (.word w1) = .kw .CONSTRAINT ∧
        kwOf w1.keyword = some .CONSTRAINT ∧ w2.string = n.value := by
      cases name with
      | none => simp only [columnNameLang] at hn; drop_ hn with -; exact .inl ⟨rfl, rfl⟩
      | some n =>
        have wn : freeWord n.value = true := w.1
        simp only [columnNameLang] at hn
        eatK hn w1 hf1 hk1
        eatI hn wn w2 hf2 hk2 e
        exact .inr ⟨n, w1, w2, rfl, rfl, hf1, hk1, e⟩
    refine ⟨((he.and ih).mono fun m hm => ?_).succ, .inr ?_⟩
    · intro b rest hr
      obtain ⟨h1, h2⟩ := hm
      have h2 := fun b => h2 b rest hr
      simp only [List.cons_append, zx] at h1
      rcases hnm with ⟨rfl, rfl⟩ | ⟨n, w1, w2, rfl, rfl, hf1, hk1, e⟩
      · simp only [List.nil_append, List.cons_append, List.append_assoc, Z_cons, at_columnConstraints,
          columnConstraintsF, runZ_bindM, runZ_peekToken, List.head?_cons, Res.bind_ok, kw?_word, hk]
        split
        · next h => exact absurd (Option.some.inj h) hne
        · simp [zx, h1, h2, ColumnConstraint.erase]
      · simp [zx, columnConstraintsF, h1, h2, hk1, e, ColumnConstraint.erase, Ident.erase]
    · rcases hnm with ⟨rfl, rfl⟩ | ⟨n, w1, w2, rfl, rfl, hf1, hk1, e⟩
      · refine ⟨hd1, _, _, rfl, hf, hk, hsk, ?_⟩
        cases s with
        | unique b => cases b <;> (intro h; cases h)
        | notNull p q => intro _; rfl
        | _ => intro h; cases h
      · exact ⟨w1, _, _, rfl, hf1, hk1, rfl, by intro h; cases h⟩

/-- The parts of a column are in order. -/
def ItemOK : ColumnItem → Prop
  | .default_ x => x.shape freeWord = true ∧ x.defaultOK = true
  | .constraints cs => ∀ c ∈ cs, c.shape freeWord = true
  | .autoIncrement _ => True

/-- The first token of the items of a column. -/
theorem hd_colItems {items : List ColumnItem} (hw : ∀ i ∈ items, ItemOK i) (hs : ColumnItem.separated items = true)
    (h : K (concat (items.map (ColumnItem.lang fns clean))) ks) : (items = [] ∧ ks = []) ∨
    ∃ i is w tl k, items = i :: is ∧ ks = .word w :: tl ∧ fk (.word w) = .kw k ∧ kwOf w.keyword = some k ∧
      ((k = .DEFAULT ∧ ∃ x, i = .default_ x) ∨ (k = .AUTO_INCREMENT ∧ ∃ x, i = .autoIncrement x) ∨
        (specKw k = true ∧ (k = .NOT → i.startsNot = true) ∧ ∃ cs, i = .constraints cs)) := by
  cases items with
  | nil => simp only [List.map_nil, concat] at h; drop_ h with -; exact .inl ⟨rfl, rfl⟩
  | cons i is =>
    simp only [List.map_cons, concat] at h
    refine .inr ⟨i, is, ?_⟩
    cases i with
    | default_ x =>
      simp only [ColumnItem.lang] at h
      replace h := K.assoc h
      eatK h w hf hk
      exact ⟨w, _, _, rfl, rfl, hf, hk, .inl ⟨rfl, _, rfl⟩⟩
    | autoIncrement x =>
      simp only [ColumnItem.lang] at h
      eatK h w hf hk
      exact ⟨w, _, _, rfl, rfl, hf, hk, .inr (.inl ⟨rfl, _, rfl⟩)⟩
    | constraints cs =>
      simp only [ColumnItem.lang] at h
      split_ h h1 k1 k2
      replace h1 : K (_ ⬝ eps) k1 := h1
      drop_ h1 with -
      simp only [ColumnItem.separated, Bool.and_eq_true, Bool.not_eq_true', List.isEmpty_eq_false_iff] at hs
      rcases (read_columnConstraints (hw (.constraints cs) (by simp)) h1).2 with e | ⟨w, tl, k, rfl, hf, hk, hsk, hn⟩
      · exact absurd e hs.1.1
      · refine ⟨w, _, _, rfl, rfl, hf, hk, .inr (.inr ⟨hsk, fun h => ?_, _, rfl⟩)⟩
        have := hn h
        unfold startsNot at this
        split at this
        · rfl
        · cases this

/-- The last of the values, or else the given one. -/
def lastOr {α β : Type} (f : α → β) (xs : List α) (y : β) : β := (xs.getLast?.map f).getD y

theorem lastOr_cons {α β : Type} (f : α → β) (x : α) (xs : List α) (y : β) : lastOr f (x :: xs) y = lastOr f xs (f x) := by
  cases xs with
  | nil => rfl
  | cons x' xs => simp [lastOr, List.getLast?_cons_cons, List.getLast?_cons]

theorem columnLoop_end {m : Nat} {def_ : Option Expr} {specs : List ColumnConstraint} {ds : List AutoIncrement} {rest : List Tok}
    (h : folC (hd rest) = true) (b : List Token) :
    ((Parsers.at fns (m + 1)).columnLoop def_ specs ds).runZ b (Z rest) = .ok (def_, specs, ds) (b, Z rest) :=
  columnLoop_stop h b

theorem read_columnLoop {items : List ColumnItem} (hw : ∀ i ∈ items, ItemOK i) (hs : ColumnItem.separated items = true)
    (h : K (concat (items.map (ColumnItem.lang fns clean))) ks) :
    Ev fun m => ∀ def_ specs ds, Parses ((Parsers.at fns m).columnLoop def_ specs ds) ks
      (lastOr (fun e => some e.erase) (items.filterMap ColumnItem.default?) def_,
        lastOr (fun cs => cs.map ColumnConstraint.erase) (items.filterMap ColumnItem.constraints?) specs,
        ds ++ (items.filterMap ColumnItem.autoIncrement?).map AutoIncrement.erase) folC := by
  induction items generalizing ks with
  | nil =>
    simp only [List.map_nil, concat] at h; drop_ h with -
    refine (Ev.of fun m => ?_).succ
    intro def_ specs ds b rest hr
    simp only [List.nil_append]
    rw [columnLoop_end hr b]
    simp [lastOr, zx]
  | cons i is ih =>
    have hw' : ∀ i ∈ is, ItemOK i := fun i hi => hw i (by simp [hi])
    have hs' : ColumnItem.separated is = true := by
      cases i <;> simp only [ColumnItem.separated, Bool.and_eq_true] at hs
      · exact hs.2
      · exact hs.2
      · exact hs
    simp only [List.map_cons, concat] at h
    split_ h h1 k1 k2
    have hh := hd_colItems hw' hs' h
    replace ih := ih hw' hs' h
    cases i with
    | default_ x =>
      obtain ⟨u1, u2⟩ : x.shape freeWord = true ∧ x.defaultOK = true := hw (.default_ x) (by simp)
      simp only [ColumnItem.lang] at h1
      eatK h1 w hf hk
      refine ((ih.and (read_default u1 u2 h1)).mono fun m hm => ?_).succ
      intro def_ specs ds b rest hr
      have e1 := fun b => hm.1 (some x.erase) specs ds b rest hr
      have e2 := fun b => hm.2 b (k2 ++ rest) (by
        rcases hh with ⟨rfl, rfl⟩ | ⟨i, is', w', tl, k, rfl, rfl, hf', hk', ⟨rfl, -⟩ | ⟨rfl, -⟩ | ⟨hsk, -⟩⟩
        · rcases folC_cases hr with h | h | h <;> (rw [List.nil_append, h]; rfl)
        · simp only [List.cons_append, hd_cons, hf']; rfl
        · simp only [List.cons_append, hd_cons, hf']; rfl
        · simp only [List.cons_append, hd_cons, hf']
          cases k <;> first | (cases hsk; done) | rfl) (by
        rcases hh with ⟨rfl, rfl⟩ | ⟨i, is', w', tl, k, rfl, rfl, hf', hk', ⟨rfl, -⟩ | ⟨rfl, -⟩ | ⟨hsk, hn, -⟩⟩
        · rcases folC_cases hr with h | h | h <;> (rw [List.nil_append, h]; exact Nat.zero_le _)
        · simp only [List.cons_append, hd_cons, hf']; exact Nat.zero_le _
        · simp only [List.cons_append, hd_cons, hf']; exact Nat.zero_le _
        · simp only [List.cons_append, hd_cons, hf']
          by_cases hkn : k = .NOT
          · subst hkn
            simp only [ColumnItem.separated, Bool.and_eq_true, Bool.or_eq_true, Bool.not_eq_true', decide_eq_true_eq, hn rfl] at hs
            rcases hs.1 with h | h
            · cases h
            · exact h
          · cases k <;> first | (cases hsk; done) | (exact absurd rfl hkn) | exact Nat.zero_le _) (by
        rcases hh with ⟨rfl, rfl⟩ | ⟨i, is', w', tl, k, rfl, rfl, hf', hk', ⟨rfl, -⟩ | ⟨rfl, -⟩ | ⟨hsk, -⟩⟩
        · rcases folC_cases hr with h | h | h <;> (rw [List.nil_append, h]; exact .inl rfl)
        · simp only [List.cons_append, hd_cons, hf']; exact .inl rfl
        · simp only [List.cons_append, hd_cons, hf']; exact .inl rfl
        · simp only [List.cons_append, hd_cons, hf']
          cases k <;> first | (cases hsk; done) | exact .inl rfl | exact .inr rfl)
      simp only [ColumnItem.default?, ColumnItem.constraints?, ColumnItem.autoIncrement?, lastOr_cons, List.filterMap_cons]
      simp [zx, columnLoopF, hk, hf, e1, e2]
    | autoIncrement x =>
      simp only [ColumnItem.lang] at h1
      eatK h1 w hf hk
      refine (ih.mono fun m hm => ?_).succ
      intro def_ specs ds b rest hr
      have e1 := fun b => hm def_ specs (ds ++ [⟨Pos.zero, Pos.zero⟩]) b rest hr
      simp only [ColumnItem.default?, ColumnItem.constraints?, ColumnItem.autoIncrement?, lastOr_cons, List.filterMap_cons]
      simp [zx, columnLoopF, hk, hf, e1, AutoIncrement.erase]
    | constraints cs =>
      simp only [ColumnItem.lang] at h1
      replace h1 : K (_ ⬝ eps) k1 := h1
      drop_ h1 with -
      simp only [ColumnItem.separated, Bool.and_eq_true, Bool.not_eq_true', List.isEmpty_eq_false_iff] at hs
      obtain ⟨hc, e | ⟨w, tl, k, rfl, hf, hk, hsk, hn⟩⟩ := read_columnConstraints (hw (.constraints cs) (by simp)) h1
      · exact absurd e hs.1.1
      refine ((ih.and hc).mono fun m hm => ?_).succ
      intro def_ specs ds b rest hr
      have e1 := fun b => hm.1 def_ (cs.map ColumnConstraint.erase) ds b rest hr
      have e2 := hm.2 b (k2 ++ rest) (by
        rcases hh with ⟨rfl, rfl⟩ | ⟨i, is', w', tl, k, rfl, rfl, hf', hk', ⟨rfl, -⟩ | ⟨rfl, -⟩ | ⟨hsk, -, cs', rfl⟩⟩
        · simp only [List.nil_append, folCs, hr, Bool.true_or]
        · simp only [List.cons_append, hd_cons, hf']; rfl
        · simp only [List.cons_append, hd_cons, hf']; rfl
        · exact absurd hs.1.2 (by simp))
      simp only [ColumnItem.default?, ColumnItem.constraints?, ColumnItem.autoIncrement?, lastOr_cons, List.filterMap_cons]
      simp only [List.cons_append, List.append_assoc, Z_cons, R_cons] at e2 ⊢
      rw [at_columnLoop]
      simp only [columnLoopF, runZ_bindM, runZ_peekToken, List.head?_cons, Res.bind_ok, kw?_word, hk]
      cases k <;> first
        | (cases hsk; done)
        | (simp only [columnLoopF.parseSpecs, runZ_bindM, e2, Res.bind_ok, e1, R_cons, R_append])

theorem single_last {α : Type} {xs : List α} (h : xs.length ≤ 1) {x : α} (hx : x ∈ xs) : xs.getLast? = some x := by
  match xs, h with
  | [], _ => cases hx
  | [y], _ => simp at hx; subst hx; rfl
  | _ :: _ :: _, h => simp at h

theorem read_columnDef {c : ColumnDef} (hw : c.shape freeWord = true) (h : K (c.lang fns clean) ks) :
    ∃ w tl, ks = .word w :: tl ∧ Free (fk (.word w)) ∧ freeKw (kwOf w.keyword) = true ∧
    Ev fun m => Parses (parseColumnDef (Parsers.at fns m)) ks c.erase folC := by
  obtain ⟨name, ty, def_, ds, cs⟩ := c
  simp only [ColumnDef.shape, Bool.and_eq_true, List.all_eq_true] at hw
  obtain ⟨⟨⟨w1, w2⟩, w3⟩, w4⟩ := hw
  simp only [ColumnDef.lang] at h
  eatI h w1 w hf hk e
  split_ h h1 k1 k2
  obtain ⟨ts, ⟨items, hi, ⟨i1, i2, i3⟩, hq⟩, hg, rfl⟩ := h
  replace hq := clean_odd hq
  simp only [Bool.and_eq_true, ColumnItem.single, decide_eq_true_eq] at hq
  obtain ⟨q1, q2, q3⟩ := hq
  have hI : ∀ i ∈ items, ItemOK i := by
    intro i hi
    cases i with
    | default_ x =>
      rw [single_last q2 (List.mem_filterMap.2 ⟨_, hi, rfl⟩)] at i1
      rw [i1] at w4
      simpa [ItemOK] using w4
    | autoIncrement x => trivial
    | constraints cs' =>
      rw [single_last q3 (List.mem_filterMap.2 ⟨_, hi, rfl⟩)] at i2
      simp only [Option.getD_some] at i2
      rw [i2] at w3
      exact w3
  have hi' : K (concat (items.map (ColumnItem.lang fns clean))) (ts.map (·.tok)) := ⟨ts, hi, hg, rfl⟩
  have hh := hd_colItems hI q1 hi'
  refine ⟨w, _, rfl, hf, hk, ((read_dataType (fns := fns) w2 h1).and (read_columnLoop hI q1 hi')).mono fun m hm => ?_⟩
  intro b rest hr
  have k2 := fun b => hm.2 none [] [] b rest hr
  have k1 := fun b => hm.1 b (ts.map (·.tok) ++ rest) (by
    rcases hh with ⟨rfl, h⟩ | ⟨i, is', w', tl, k, rfl, h, hf', hk', ⟨rfl, -⟩ | ⟨rfl, -⟩ | ⟨hsk, -⟩⟩
    · rw [h]; rcases folC_cases hr with h | h | h <;> (rw [List.nil_append, h]; rfl)
    · simp only [h, List.cons_append, hd_cons, hf']; rfl
    · simp only [h, List.cons_append, hd_cons, hf']; rfl
    · simp only [h, List.cons_append, hd_cons, hf']
      cases k <;> first | (cases hsk; done) | rfl)
  have r1 : lastOr (fun e => some e.erase) (items.filterMap ColumnItem.default?) none = def_.map Expr.erase := by
    rw [i1, lastOr]
    cases (items.filterMap ColumnItem.default?).getLast? <;> rfl
  have r2 : lastOr (fun cs => cs.map ColumnConstraint.erase) (items.filterMap ColumnItem.constraints?) [] = cs.map ColumnConstraint.erase := by
    rw [i2, lastOr]
    cases (items.filterMap ColumnItem.constraints?).getLast? <;> rfl
  rw [r1, r2, ← i3] at k2
  simp [ColumnDef.erase, Ident.erase, zx, parseColumnDef, k1, k2, e]

end Verif
