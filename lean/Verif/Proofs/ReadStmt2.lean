import Verif.Proofs.ReadStmt
/-
Completeness of the grammar: table elements, options, assignments and rows.
-/
set_option linter.unusedSimpArgs false
set_option linter.unusedVariables false
namespace Verif
open Spec

variable {fns : FloatFns} {ks : List Tok}

/-! ### Table constraints and elements -/

theorem read_tableConstraintSpec {s : TableConstraintSpec} (hw : s.shape freeWord = true) (h : K (s.lang fns clean) ks) :
    ∃ w tl, ks = .word w :: tl ∧ fk (.word w) = .kw (tSpecHead s) ∧ kwOf w.keyword = some (tSpecHead s) ∧
    Ev fun m => ∀ (b : List Token) (rest : List Tok),
    (parseTableConstraintSpec (Parsers.at fns m) (zt (.word w))).runZ b (Z (ks ++ rest)) = .ok s.erase (R ks b, Z rest) := by
  match s with
  | .unique true p q r cols =>
    simp only [TableConstraintSpec.shape] at hw
    simp only [TableConstraintSpec.lang] at h
    eatK h w hf hk
    eatK h w' hf' hk'
    drop_ h with -
    replace h := read_parensIds (fns := fns) hw (parensTo_K h)
    obtain ⟨s, s', vs, rfl, h⟩ := h
    refine ⟨w, _, rfl, hf, hk, h.mono fun m hm => ?_⟩
    intro b rest
    simp [TableConstraintSpec.erase, zx, parseTableConstraintSpec, hm, hk, hf']
  | .unique false p q r cols =>
    simp only [TableConstraintSpec.shape] at hw
    simp only [TableConstraintSpec.lang] at h
    eatK h w hf hk
    split_ h h1 k1 k2
    drop_ h with -
    replace h := read_parensIds (fns := fns) hw (parensTo_K h)
    obtain ⟨s, s', vs, rfl, h⟩ := h
    opt_ h1
    · refine ⟨w, _, rfl, hf, hk, h.mono fun m hm => ?_⟩
      intro b rest
      simp [TableConstraintSpec.erase, zx, parseTableConstraintSpec, hm, hk]
    · eatK h1 w' hf' hk'
      refine ⟨w, _, rfl, hf, hk, h.mono fun m hm => ?_⟩
      intro b rest
      simp [TableConstraintSpec.erase, zx, parseTableConstraintSpec, hm, hk, hf']
  | .referential p cols ⟨tn, kc, kp⟩ =>
    simp only [TableConstraintSpec.shape, Bool.and_eq_true, List.all_eq_true] at hw
    obtain ⟨⟨w1, w2⟩, w3⟩ := hw
    simp only [TableConstraintSpec.lang] at h
    eatK h w hf hk
    eatK h w' hf' hk'
    split_ h h1 k1 k2
    replace h1 := read_parensIds (fns := fns) w1 h1
    obtain ⟨s, s', vs, rfl, h1⟩ := h1
    eatK h w'' hf'' hk''
    eatI h w2 wn hfn hkn en
    replace h := parensTo_K h
    eatS h s2
    split_ h h2 k3 k4
    eatS h s3
    cases kc with
    | nil =>
      simp only [referencedLang] at h2
      drop_ h2 with hodd
      cases hodd
    | cons i is =>
      simp only [referencedLang, idents] at h2
      refine ⟨w, _, rfl, hf, hk, (h1.and (read_ids (fns := fns) is i _ h2 (w3 i (by simp)) fun j hj => w3 j (by simp [hj]))).mono fun m hm => ?_⟩
      intro b rest
      have e1 := hm.1
      have e2 := fun b => hm.2 b (.sym .RParen s3 :: rest) (by simp [zx, notSym, fk])
      simp [TableConstraintSpec.erase, ReferenceKeyExpr.erase, Ident.erase, zx, parseTableConstraintSpec, e1, e2, hk, hf', hf'', en]
  | .check p q e =>
    simp only [TableConstraintSpec.shape] at hw
    simp only [TableConstraintSpec.lang] at h
    eatK h w hf hk
    replace h := read_parensExpr (fns := fns) hw (parensTo_K h)
    obtain ⟨s, s', vs, rfl, h⟩ := h
    refine ⟨w, _, rfl, hf, hk, h.mono fun m hm => ?_⟩
    intro b rest
    simp [TableConstraintSpec.erase, zx, parseTableConstraintSpec, parseExpr, hm, hk]

theorem tSpecHead_ne (s : TableConstraintSpec) : tSpecHead s ≠ .CONSTRAINT ∧ tConKw (tSpecHead s) = true := by
  cases s with
  | unique b => cases b <;> simp [tSpecHead, tConKw]
  | _ => simp [tSpecHead, tConKw]

theorem read_tableConstraint {c : TableConstraint} (hw : c.shape freeWord = true) (h : K (c.lang fns clean) ks) :
    ∃ w tl k, ks = .word w :: tl ∧ fk (.word w) = .kw k ∧ kwOf w.keyword = some k ∧ tConKw k = true ∧
    Ev fun m => ∀ (b : List Token) (rest : List Tok),
    (parseTableConstraints (Parsers.at fns m)).runZ b (Z (ks ++ rest)) = .ok c.erase (R ks b, Z rest) := by
  obtain ⟨p, name, s⟩ := c
  simp only [TableConstraint.shape, Bool.and_eq_true] at hw
  simp only [TableConstraint.lang] at h
  split_ h hn k1 k2
  replace h := read_tableConstraintSpec hw.2 h
  obtain ⟨w, tl, rfl, hf, hk, h⟩ := h
  obtain ⟨hne, hc⟩ := tSpecHead_ne s
  cases name with
  | none =>
    simp only [nameLang] at hn
    drop_ hn with -
    refine ⟨w, tl, _, rfl, hf, hk, hc, h.mono fun m hm => ?_⟩
    intro b rest
    simp only [List.cons_append, Z_cons, R_cons] at hm
    simp [TableConstraint.erase, zx, parseTableConstraints, hk, hne, hm]
  | some n =>
    have wn : freeWord n.value = true := hw.1
    simp only [nameLang] at hn
    eatK hn w1 hf1 hk1
    eatI hn wn w2 hf2 hk2 e
    refine ⟨w1, _, _, rfl, hf1, hk1, rfl, h.mono fun m hm => ?_⟩
    intro b rest
    simp only [List.cons_append, Z_cons, R_cons] at hm
    simp [TableConstraint.erase, Ident.erase, zx, parseTableConstraints, hk1, hm, e]

theorem read_element {e : TableElement} (hw : e.shape freeWord = true) (h : K (e.lang fns clean) ks) :
    ∃ w tl, ks = .word w :: tl ∧ Ev fun m => ∀ (b : List Token) (rest : List Tok), folC (hd rest) = true →
      (parseElement (Parsers.at fns m) w).runZ (zt (.word w) :: b) (Z (tl ++ rest)) = .ok e.erase (R (.word w :: tl) b, Z rest) := by
  cases e with
  | constraint c =>
    replace h := read_tableConstraint (fns := fns) hw h
    obtain ⟨w, tl, k, rfl, hf, hk, hc, h⟩ := h
    refine ⟨w, tl, rfl, h.mono fun m hm => ?_⟩
    intro b rest hr
    have h1 := hm b rest
    simp only [List.cons_append, Z_cons] at h1
    simp only [TableElement.erase, parseElement, runZ_bindM, runZ_prevToken_cons, Res.bind_ok, hk]
    cases k <;> first
      | (cases hc; done)
      | (simp only [parseElement.parseC, runZ_bindM, h1, Res.bind_ok, runZ_pure])
  | column c =>
    replace h := read_columnDef (fns := fns) hw h
    obtain ⟨w, tl, rfl, hf, hk, h⟩ := h
    refine ⟨w, tl, rfl, h.mono fun m hm => ?_⟩
    intro b rest hr
    have h1 := hm b rest hr
    simp only [List.cons_append, Z_cons] at h1
    simp only [TableElement.erase, parseElement, runZ_bindM, runZ_prevToken_cons, Res.bind_ok]
    split <;> first
      | (rename_i hk'; rw [hk'] at hk; cases hk; done)
      | simp only [runZ_bindM, h1, Res.bind_ok, runZ_pure]

theorem read_elements {es : List TableElement} (hw : ∀ e ∈ es, e.shape freeWord = true)
    (h : K (sepBy .Comma (es.map (TableElement.lang fns clean))) ks) (s' : Str) :
    Ev fun m => ∀ (b : List Token) (rest : List Tok),
      (Parsers.at fns m).elements.runZ b (Z (ks ++ .sym .RParen s' :: rest)) =
        .ok (es.map TableElement.erase) (zt (.sym .RParen s') :: R ks b, Z rest) := by
  induction es generalizing ks with
  | nil => exact (K.never h).elim
  | cons e es ih =>
    cases es with
    | nil =>
      simp only [List.map_cons, List.map_nil, sepBy] at h
      replace h := read_element (hw e (by simp)) h
      obtain ⟨w, tl, rfl, he⟩ := h
      refine (he.mono fun m hm => ?_).succ
      intro b rest
      have h1 := fun b => hm b (.sym .RParen s' :: rest) (by simp [zx, fk]; rfl)
      simp [zx, elementsF, h1]
    | cons e' es =>
      simp only [List.map_cons, sepBy] at h
      split_ h h1 k1 k2
      replace h1 := read_element (hw e (by simp)) h1
      obtain ⟨w, tl, rfl, he⟩ := h1
      eatS h s
      refine ((he.and (ih (fun x hx => hw x (by simp [hx])) h)).mono fun m hm => ?_).succ
      intro b rest
      have h1 := fun b rest => hm.1 b (.sym .Comma s :: rest) (by simp [zx, fk]; rfl)
      have h2 := fun b => hm.2 b rest
      simp [zx, elementsF, h1, h2]

/-! ### Table options -/

theorem fk_word_sym (w : SQLWord) (k : Sym) : fk (.word w) ≠ .sym k := by
  intro h
  have := (sym_facts h).1
  cases this

theorem read_optionName {eq : Bool} {name : Ident} (hw : freeWord name.value = true) (h : K (flag eq (sym .Eq) ⬝ word [] name) ks)
    (b : List Token) (rest : List Tok) :
    parseOptionName.runZ b (Z (ks ++ rest)) = .ok (eq, name.erase) (R ks b, Z rest) := by
  cases eq with
  | false =>
    simp only [flag, Bool.false_eq_true, if_false] at h
    drop_ h with -
    eatI h hw w hf hk e
    simp [zx, parseOptionName, hf, e, Ident.erase]
  | true =>
    simp only [flag, if_true] at h
    eatS h s
    eatI h hw w hf hk e
    simp [zx, parseOptionName, e, Ident.erase]

theorem read_tableOption {o : TableOption} (hw : o.shape freeWord = true) (h : K o.lang ks) :
    ∃ w tl, ks = .word w :: tl ∧ ∀ (b : List Token) (rest : List Tok),
    parseTableOption.runZ b (Z (ks ++ rest)) = .ok o.erase (R ks b, Z rest) := by
  cases o with
  | engine p eq name =>
    simp only [TableOption.lang] at h
    eatK h w hf hk
    refine ⟨w, _, rfl, fun b rest => ?_⟩
    have h1 := fun b => read_optionName hw h b rest
    simp [TableOption.erase, zx, parseTableOption, h1, hk]
  | charset df p q eq name =>
    simp only [TableOption.lang] at h
    cases df with
    | true =>
      simp only [flagFrom, if_true] at h
      eatK h w hf hk
      eatK h w' hf' hk'
      refine ⟨w, _, rfl, fun b rest => ?_⟩
      have h1 := fun b => read_optionName hw h b rest
      simp [TableOption.erase, zx, parseTableOption, h1, hk, hf']
    | false =>
      simp only [flagFrom, Bool.false_eq_true, if_false] at h
      drop_ h with -
      eatK h w hf hk
      refine ⟨w, _, rfl, fun b rest => ?_⟩
      have h1 := fun b => read_optionName hw h b rest
      simp [TableOption.erase, zx, parseTableOption, h1, hk]

theorem read_tableOptions {os : List TableOption} (hw : ∀ o ∈ os, o.shape freeWord = true)
    (h : K (concat (os.map TableOption.lang) ⬝ opt (sym .Comma)) ks) :
    Ev fun m => Parses (Parsers.at fns m).tableOptions ks (os.map TableOption.erase) (fun f => f == .sym .Semicolon) := by
  induction os generalizing ks with
  | nil =>
    simp only [List.map_nil, concat] at h
    drop_ h with -
    refine (Ev.of fun m => ?_).succ
    intro b rest hr
    simp only [beq_iff_eq] at hr
    opt_ h
    · cases rest with
      | nil => cases hr
      | cons t rest =>
        simp only [hd] at hr
        simp [zx, tableOptionsF, hr, (sym_facts hr).1]
    · eatS h s
      simp [zx, tableOptionsF]
  | cons o os ih =>
    simp only [List.map_cons, concat] at h
    replace h := K.assoc h
    split_ h h1 k1 k2
    replace h1 := read_tableOption (hw o (by simp)) h1
    obtain ⟨w, tl, rfl, h1⟩ := h1
    refine ((ih (fun o ho => hw o (by simp [ho])) h).mono fun m hm => ?_).succ
    intro b rest hr
    have h2 := fun b => hm b rest hr
    have h1 := fun b => h1 b (k2 ++ rest)
    simp only [List.cons_append, Z_cons, R_cons] at h1
    simp [zx, tableOptionsF, h1, h2, fk_word_sym]

/-- The first token after the name of a table. -/
theorem hd_tableOptions {os : List TableOption} (hw : ∀ o ∈ os, o.shape freeWord = true)
    (h : K (concat (os.map TableOption.lang) ⬝ opt (sym .Comma)) ks) {rest : List Tok} (hr : hd rest = .sym .Semicolon) :
    hd (ks ++ rest) ≠ .sym .LParen ∧ hd (ks ++ rest) ≠ .sym .Period := by
  cases os with
  | nil =>
    simp only [List.map_nil, concat] at h
    drop_ h with -
    opt_ h
    · simp [hr]
    · eatS h s
      simp [zx, fk]
  | cons o os =>
    simp only [List.map_cons, concat] at h
    replace h := K.assoc h
    split_ h h1 k1 k2
    replace h1 := read_tableOption (hw o (by simp)) h1
    obtain ⟨w, tl, rfl, h1⟩ := h1
    exact ⟨fk_word_sym w _, fk_word_sym w _⟩

/-! ### Assignments and rows -/

theorem read_assignments {as : List Assignment} (hw : ∀ a ∈ as, a.shape freeWord = true)
    (h : K (sepBy .Comma (as.map (Assignment.lang fns clean))) ks) :
    Ev fun m => Parses (Parsers.at fns m).assignments ks (as.map Assignment.erase) fL := by
  induction as generalizing ks with
  | nil => exact (K.never h).elim
  | cons a as ih =>
    obtain ⟨i, v⟩ := a
    have w := hw ⟨i, v⟩ (by simp)
    simp only [Assignment.shape, Bool.and_eq_true] at w
    have he : AllE fns v := Expr.readsE w.2
    cases as with
    | nil =>
      simp only [List.map_cons, List.map_nil, sepBy, Assignment.lang] at h
      eatI h w.1 wd hf hk e
      eatS h s
      refine ((he _ h).mono fun m hm => ?_).succ
      intro b rest hr
      obtain ⟨h1, h2⟩ := fL_facts hr
      have h3 := fun b => hm b rest h1
      simp [Assignment.erase, Ident.erase, zx, assignmentsF, parseExpr, h3, h2, e]
    | cons a' as =>
      simp only [List.map_cons, sepBy, Assignment.lang] at h
      replace h := K.assoc h
      eatI h w.1 wd hf hk e
      replace h := K.assoc h
      eatS h s
      split_ h h1 k1 k2
      eatS h s2
      refine (((he _ h1).and (ih (fun x hx => hw x (by simp [hx])) h)).mono fun m hm => ?_).succ
      intro b rest hr
      have h1 := fun b rest => hm.1 b (.sym .Comma s2 :: rest) (by nxt)
      have h2 := fun b => hm.2 b rest hr
      simp [Assignment.erase, Ident.erase, zx, assignmentsF, parseExpr, h1, h2, e]

theorem Expr.readsAll {es : List Expr} (h : Expr.shapes freeWord es = true) : ∀ e ∈ es, AllE fns e := Expr.readsL es h

theorem row_K {r : RowValueExpr} (h : K (r.lang fns clean) ks) : ∃ s vs s', ks = .sym .LParen s :: (vs ++ [.sym .RParen s']) ∧
    K (sepBy .Comma (Expr.langs fns clean r.values)) vs := by
  simp only [RowValueExpr.lang] at h
  eatS h s
  split_ h h1 k1 k2
  eatS h s'
  exact ⟨s, k1, s', rfl, h1⟩

theorem read_rows {rs : List RowValueExpr} (hw : ∀ r ∈ rs, r.shape freeWord = true)
    (h : K (sepBy .Comma (rs.map (RowValueExpr.lang fns clean))) ks) :
    Ev fun m => Parses (Parsers.at fns m).rows ks (rs.map RowValueExpr.erase) (notSym .Comma) := by
  induction rs generalizing ks with
  | nil => exact (K.never h).elim
  | cons r rs ih =>
    obtain ⟨vs, p, q⟩ := r
    have w := hw ⟨vs, p, q⟩ (by simp)
    simp only [RowValueExpr.shape, Bool.and_eq_true, Bool.not_eq_true', List.isEmpty_eq_false_iff] at w
    cases rs with
    | nil =>
      simp only [List.map_cons, List.map_nil, sepBy] at h
      replace h := row_K h
      obtain ⟨s, us, s', rfl, h⟩ := h
      refine ((read_exprList (Expr.readsAll w.2) h).mono fun m hm => ?_).succ
      intro b rest hr
      simp only [notSym, decide_eq_true_eq] at hr
      have h3 := fun b => hm b (.sym .RParen s' :: rest) (by nxt)
      simp [RowValueExpr.erase, zx, rowsF, h3, hr]
    | cons r' rs =>
      simp only [List.map_cons, sepBy] at h
      split_ h h1 k1 k2
      replace h1 := row_K h1
      obtain ⟨s, us, s', rfl, h1⟩ := h1
      eatS h s2
      refine (((read_exprList (Expr.readsAll w.2) h1).and (ih (fun x hx => hw x (by simp [hx])) h)).mono fun m hm => ?_).succ
      intro b rest hr
      have h1 := fun b rest => hm.1 b (.sym .RParen s' :: rest) (by nxt)
      have h2 := fun b => hm.2 b rest hr
      simp [RowValueExpr.erase, zx, rowsF, h1, h2]

end Verif
