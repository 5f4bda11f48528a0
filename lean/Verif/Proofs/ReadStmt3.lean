import Verif.Proofs.ReadStmt2
/-
Completeness of the grammar: statements.
-/
set_option linter.unusedSimpArgs false
set_option linter.unusedVariables false
namespace Verif
open Spec

variable {fns : FloatFns} {ks : List Tok}

/-- `ParseStatement` reads the statement up to a semicolon. -/
def ReadsSt (fns : FloatFns) (s : Stmt) (ks : List Tok) : Prop :=
  Ev fun m => Parses (Parsers.at fns m).statement ks s.erase (fun f => f == .sym .Semicolon)

theorem read_where {o : Option Expr} (hw : Expr.shapeO freeWord o = true) (h : K (whereLang fns clean o) ks) :
    Ev fun m => ∀ (b : List Token) (rest : List Tok), hd rest = .sym .Semicolon →
    (do
      if ← kw .WHERE then do
        let e ← parseExpr (Parsers.at fns m)
        pure (some e)
      else pure none : P (Option Expr)).runZ b (Z (ks ++ rest)) = .ok (o.map Expr.erase) (R ks b, Z rest) := by
  refine (read_optExpr (fun e he => (Expr.readsO o hw e he).1) h).mono fun m hm => ?_
  intro b rest hr
  rw [hm b rest (by rw [hr]; simp) (by rw [hr]; rfl), eraseOpt_eq]

theorem hd_where' {o : Option Expr} (h : K (whereLang fns clean o) ks) {rest : List Tok} (hr : hd rest = .sym .Semicolon) :
    hd (ks ++ rest) = .kw .WHERE ∨ hd (ks ++ rest) = .sym .Semicolon := by
  rw [hd_optional h]; split
  · exact .inl rfl
  · exact .inr hr

theorem read_stQuery {q : QueryStmt} (hw : (Stmt.query q).shape freeWord = true) (h : K ((Stmt.query q).lang fns clean) ks) :
    ReadsSt fns (.query q) ks := by
  simp only [Stmt.shape, Bool.and_eq_true] at hw
  simp only [Stmt.lang] at h
  obtain ⟨w, tl, rfl, hh⟩ := query_select hw.1 hw.2 h
  refine ((QueryStmt.reads q hw.1 _ h).mono fun m hm => ?_).succ
  intro b rest hr
  simp only [beq_iff_eq] at hr
  have h1 := fun b => hm b rest (by rw [hr]; rfl)
  simp only [List.cons_append, Z_cons] at h1
  rcases hh with ⟨-, hf⟩ | ⟨-, hf, -⟩
  · have hk : kwOf w.keyword = some .WITH := kw?_of_fk hf
    simp [Stmt.erase, zx, statementF, statementF.parseQueryStmt, h1, hk]
  · have hk : kwOf w.keyword = some .SELECT := kw?_of_fk hf
    simp [Stmt.erase, zx, statementF, statementF.parseQueryStmt, h1, hk]

theorem read_stDelete {p : Pos} {name : ObjectName} {o : Option Expr} (hw : (Stmt.delete p name o).shape freeWord = true)
    (h : K ((Stmt.delete p name o).lang fns clean) ks) : ReadsSt fns (.delete p name o) ks := by
  simp only [Stmt.shape, Bool.and_eq_true] at hw
  simp only [Stmt.lang] at h
  eatK h w hf hk
  eatK h w' hf' hk'
  split_ h h1 k1 k2
  refine (((read_objectName (fns := fns) hw.1 h1).and (read_where hw.2 h)).mono fun m hm => ?_).succ
  intro b rest hr
  simp only [beq_iff_eq] at hr
  have e1 := fun b => hm.1 b (k2 ++ rest) (by rcases hd_where' h hr with h | h <;> rw [h] <;> rfl)
  have e2 := fun b => hm.2 b rest hr
  simp only [Stmt.erase, zx, List.append_assoc, List.cons_append, statementF, parseDelete, hk] at e1 e2 ⊢
  simp [zx, e1, e2, hf, hf']

theorem read_stUpdate {p : Pos} {name : ObjectName} {as : List Assignment} {o : Option Expr}
    (hw : (Stmt.update p name as o).shape freeWord = true) (h : K ((Stmt.update p name as o).lang fns clean) ks) :
    ReadsSt fns (.update p name as o) ks := by
  simp only [Stmt.shape, Bool.and_eq_true, Bool.not_eq_true', List.isEmpty_eq_false_iff, List.all_eq_true] at hw
  obtain ⟨⟨⟨w1, w2⟩, w3⟩, w4⟩ := hw
  simp only [Stmt.lang] at h
  eatK h w hf hk
  split_ h h1 k1 k2
  eatK h w' hf' hk'
  split_ h h2 k3 k4
  refine (((read_objectName (fns := fns) w1 h1).and ((read_assignments w3 h2).and (read_where w4 h))).mono fun m hm => ?_).succ
  intro b rest hr
  simp only [beq_iff_eq] at hr
  have e1 := fun b rest => hm.1 b (.word w' :: rest) (by simp [zx, notSym, hf'])
  have e3 := fun b => hm.2.1 b (k4 ++ rest) (by rcases hd_where' h hr with h | h <;> rw [h] <;> rfl)
  have e2 := fun b => hm.2.2 b rest hr
  simp only [Stmt.erase, zx, List.append_assoc, List.cons_append, statementF, parseUpdate, hk] at e1 e2 ⊢
  simp [zx, e1, e2, e3, hf, hf']

theorem read_stView {p : Pos} {name : ObjectName} {q : QueryStmt} {mz : Bool} (hw : (Stmt.createView p name q mz).shape freeWord = true)
    (h : K ((Stmt.createView p name q mz).lang fns clean) ks) : ReadsSt fns (.createView p name q mz) ks := by
  simp only [Stmt.shape, Bool.and_eq_true, Bool.not_eq_true'] at hw
  obtain ⟨⟨w1, w2⟩, rfl⟩ := hw
  simp only [Stmt.lang] at h
  eatK h w hf hk
  split_ h hmz k0 k1
  eatK h wv hfv hkv
  split_ h h1 k1 k2
  eatK h wa hfa hka
  refine (((read_objectName (fns := fns) w1 h1).and (QueryStmt.reads q w2 _ h)).mono fun m hm => ?_).succ
  intro b rest hr
  simp only [beq_iff_eq] at hr
  have e1 := fun b rest => hm.1 b (.word wa :: rest) (by simp [zx, notSym, hfa])
  have e2 := fun b => hm.2 b rest (by rw [hr]; rfl)
  simp only [zx] at e1
  opt_ hmz
  · simp [Stmt.erase, zx, statementF, parseCreate, parseCreateView, e1, e2, hk, hf, hfv, hfa]
  · eatK hmz wm hfm hkm
    simp [Stmt.erase, zx, statementF, parseCreate, parseCreateView, e1, e2, hk, hf, hfv, hfa, hfm]

theorem read_stTable {p : Pos} {name : ObjectName} {es : List TableElement} {ne : Bool} {os : List TableOption}
    (hw : (Stmt.createTable p name es ne os).shape freeWord = true) (h : K ((Stmt.createTable p name es ne os).lang fns clean) ks) :
    ReadsSt fns (.createTable p name es ne os) ks := by
  simp only [Stmt.shape, Bool.and_eq_true, Bool.not_eq_true', List.all_eq_true] at hw
  obtain ⟨⟨w1, w3⟩, w5⟩ := hw
  simp only [Stmt.lang] at h
  eatK h w hf hk
  eatK h wt hft hkt
  split_ h hn k0 k1
  split_ h h1 k1 k2
  split_ h h2 k3 k4
  have hh := fun rest => hd_objectName' w1 h1 rest
  have hn' : (ne = false ∧ k0 = []) ∨ ∃ a b c, ne = true ∧ k0 = [.word a, .word b, .word c] ∧ fk (.word a) = .kw .IF ∧
      fk (.word b) = .kw .NOT ∧ fk (.word c) = .kw .EXISTS := by
    cases ne with
    | false => simp only [flag, Bool.false_eq_true, if_false] at hn; drop_ hn with -; exact .inl ⟨rfl, rfl⟩
    | true =>
      simp only [flag, if_true] at hn
      eatK hn a hfa hka
      eatK hn b hfb hkb
      eatK hn c hfc hkc
      exact .inr ⟨a, b, c, rfl, rfl, hfa, hfb, hfc⟩
  have he : (es = [] ∧ k3 = []) ∨ ∃ s vs s', k3 = .sym .LParen s :: (vs ++ [.sym .RParen s']) ∧
      K (sepBy .Comma (es.map (TableElement.lang fns clean))) vs := by
    cases es with
    | nil =>
      simp only [clause, clauseOr, List.map_nil] at h2
      drop_ h2 with -
      exact .inl ⟨rfl, rfl⟩
    | cons e es =>
      replace h2 : K (sym .LParen ⬝ _ ⬝ sym .RParen) k3 := h2
      eatS h2 s
      split_ h2 h3 k5 k6
      eatS h2 s'
      exact .inr ⟨s, k5, s', rfl, h3⟩
  have hE : Ev fun m => ∀ (b : List Token) (rest : List Tok), hd rest = .sym .Semicolon →
      (parseElements (Parsers.at fns m)).runZ b (Z (k3 ++ (k4 ++ rest))) = .ok (es.map TableElement.erase) (R k3 b, Z (k4 ++ rest)) := by
    rcases he with ⟨rfl, rfl⟩ | ⟨s, vs, s', rfl, hs⟩
    · refine Ev.of fun m b rest hr => ?_
      simp [zx, parseElements, (hd_tableOptions w5 h hr).1]
    · refine (read_elements w3 hs s').mono fun m hm => ?_
      intro b rest hr
      simp [zx, parseElements, hm]
  refine (((read_objectName (fns := fns) w1 h1).and (hE.and (read_tableOptions (fns := fns) w5 h))).mono fun m hm => ?_).succ
  intro b rest hr
  have hr' := hr
  simp only [beq_iff_eq] at hr'
  have e1 := fun b => hm.1 b (k3 ++ (k4 ++ rest)) (by
    rcases he with ⟨-, rfl⟩ | ⟨s, vs, s', rfl, -⟩
    · simpa [notSym] using (hd_tableOptions w5 h hr').2
    · simp [zx, notSym, fk])
  have e2 := fun b => hm.2.1 b rest hr'
  have e3 := fun b => hm.2.2 b rest hr
  rcases hn' with ⟨rfl, rfl⟩ | ⟨a, c, d, rfl, rfl, hfa, hfc, hfd⟩
  · simp [Stmt.erase, zx, statementF, parseCreate, parseCreateTable, e1, e2, e3, hh, hk, hf, hft]
  · simp [Stmt.erase, zx, statementF, parseCreate, parseCreateTable, e1, e2, e3, hh, hk, hf, hft, hfa, hfc, hfd]

theorem cascade_K {c : Bool} {p : Pos} (h : K (flagTo c p (kwd .CASCADE)) ks) : (∀ (b : List Token) (rest : List Tok), hd rest = .sym .Semicolon →
    parseCascade.runZ b (Z (ks ++ rest)) = .ok (c, Pos.zero) (R ks b, Z rest)) ∧
    ∀ rest : List Tok, hd rest = .sym .Semicolon → hd (ks ++ rest) ≠ .sym .Period := by
  cases c with
  | false =>
    simp only [flagTo, Bool.false_eq_true, if_false] at h
    drop_ h with -
    exact ⟨fun b rest hr => by simp [zx, parseCascade, hr], fun rest hr => by simp [hr]⟩
  | true =>
    simp only [flagTo, if_true] at h
    eatK h w hf hk
    exact ⟨fun b rest hr => by simp [zx, parseCascade, hf], fun rest hr => by simp [zx, hf]⟩

theorem read_stDropTable {names : List ObjectName} {c : Bool} {p : Pos} {ie : Bool} {q : Pos}
    (hw : (Stmt.dropTable names c p ie q).shape freeWord = true) (h : K ((Stmt.dropTable names c p ie q).lang fns clean) ks) :
    ReadsSt fns (.dropTable names c p ie q) ks := by
  simp only [Stmt.shape, Bool.and_eq_true, beq_iff_eq, List.all_eq_true] at hw
  obtain ⟨w1, w2⟩ := hw
  obtain ⟨name, rfl⟩ := List.length_eq_one_iff.mp w1
  have w0 := w2 name (by simp)
  simp only [Stmt.lang, List.map_cons, List.map_nil, sepBy] at h
  eatK h w hf hk
  eatK h wt hft hkt
  split_ h hn k0 k1
  split_ h h1 k1 k2
  have hh := fun rest => hd_objectName' w0 h1 rest
  have hn' : (ie = false ∧ k0 = []) ∨ ∃ a b, ie = true ∧ k0 = [.word a, .word b] ∧ fk (.word a) = .kw .IF ∧ fk (.word b) = .kw .EXISTS := by
    cases ie with
    | false => simp only [flag, Bool.false_eq_true, if_false] at hn; drop_ hn with -; exact .inl ⟨rfl, rfl⟩
    | true =>
      simp only [flag, if_true] at hn
      eatK hn a hfa hka
      eatK hn b hfb hkb
      exact .inr ⟨a, b, rfl, rfl, hfa, hfb⟩
  obtain ⟨c1, c2⟩ := cascade_K h
  refine ((read_objectName (fns := fns) w0 h1).mono fun m hm => ?_).succ
  intro b rest hr
  simp only [beq_iff_eq] at hr
  have e1 := fun b => hm b (k2 ++ rest) (by simpa [notSym] using c2 rest hr)
  have e2 := fun b => c1 b rest hr
  rcases hn' with ⟨rfl, rfl⟩ | ⟨a, c, rfl, rfl, hfa, hfc⟩
  · simp [Stmt.erase, zx, statementF, parseDrop, e1, e2, hh, hk, hf, hft]
  · simp [Stmt.erase, zx, statementF, parseDrop, e1, e2, hh, hk, hf, hft, hfa, hfc]

theorem read_stDropIndex {p : Pos} {names : List Ident} (hw : (Stmt.dropIndex p names).shape freeWord = true)
    (h : K ((Stmt.dropIndex p names).lang fns clean) ks) : ReadsSt fns (.dropIndex p names) ks := by
  simp only [Stmt.shape] at hw
  simp only [Stmt.lang] at h
  eatK h w hf hk
  eatK h wt hft hkt
  refine ((read_columnNames (fns := fns) hw h).mono fun m hm => ?_).succ
  intro b rest hr
  simp only [beq_iff_eq] at hr
  have h1 := fun b => hm b rest (by rw [hr]; rfl)
  simp [Stmt.erase, zx, statementF, parseDrop, h1, hk, hf, hft]

theorem read_stExplain {s : Stmt} {p : Pos} (ih : ∀ ks, K (s.lang fns clean) ks → ReadsSt fns s ks)
    (h : K ((Stmt.explain s p).lang fns clean) ks) : ReadsSt fns (.explain s p) ks := by
  simp only [Stmt.lang] at h
  eatK h w hf hk
  drop_ h with -
  refine ((ih _ h).mono fun m hm => ?_).succ
  intro b rest hr
  have h1 := fun b => hm b rest hr
  simp [Stmt.erase, zx, statementF, h1, hk]

/-- Columns in parentheses, or nothing. -/
theorem read_columnsLang {cols : List Ident} (hw : ∀ i ∈ cols, freeWord i.value = true) (h : K (columnsLang cols) ks) :
    (cols = [] ∧ ks = []) ∨ (cols ≠ [] ∧ ∃ s s' vs, ks = .sym .LParen s :: (vs ++ [.sym .RParen s']) ∧ Ev fun m => ∀ (b : List Token) (rest : List Tok),
      (parseColumnNames (Parsers.at fns m)).runZ b (Z (vs ++ .sym .RParen s' :: rest)) =
        .ok (cols.map Ident.erase) (R vs b, zt (.sym .RParen s') :: Z rest)) := by
  cases cols with
  | nil =>
    simp only [columnsLang, clause, clauseOr, List.map_nil] at h
    drop_ h with -
    exact .inl ⟨rfl, rfl⟩
  | cons c cols =>
    replace h : K (sym .LParen ⬝ idents .Comma (c :: cols) ⬝ sym .RParen) ks := h
    exact .inr ⟨by simp, read_parensIds (by simpa [identsShape] using hw) h⟩

theorem read_optColumns {cols : List Ident} (hw : ∀ i ∈ cols, freeWord i.value = true) (h : K (columnsLang cols) ks) :
    Ev fun m => ∀ (b : List Token) (rest : List Tok), (cols = [] → hd rest ≠ .sym .LParen) →
    (do
      if ← consumeToken .LParen then do
        let c ← parseColumnNames (Parsers.at fns m)
        expectToken .RParen
        pure c
      else pure [] : P (List Ident)).runZ b (Z (ks ++ rest)) = .ok (cols.map Ident.erase) (R ks b, Z rest) := by
  rcases read_columnsLang (fns := fns) hw h with ⟨rfl, rfl⟩ | ⟨hne, s, s', vs, rfl, he⟩
  · refine Ev.of fun m b rest hr => ?_
    simp [zx, hr]
  · refine he.mono fun m hm => ?_
    intro b rest hr
    simp [zx, hm]

theorem hd_optColumns (fns : FloatFns) {cols : List Ident} (hw : ∀ i ∈ cols, freeWord i.value = true) (h : K (columnsLang cols) ks) (rest : List Tok) :
    hd (ks ++ rest) = if cols.isEmpty then hd rest else .sym .LParen := by
  rcases read_columnsLang (fns := fns) hw h with ⟨rfl, rfl⟩ | ⟨hne, s, s', vs, rfl, -⟩
  · rfl
  · rw [List.isEmpty_eq_false_iff.2 hne]; rfl


theorem read_stIndex {p : Pos} {name : ObjectName} {u : Bool} {indexName methodName : Option Ident} {cols : List Ident} {rp : Pos} {o : Option Expr}
    (hw : (Stmt.createIndex p name u indexName methodName cols rp o).shape freeWord = true)
    (h : K ((Stmt.createIndex p name u indexName methodName cols rp o).lang fns clean) ks) :
    ReadsSt fns (.createIndex p name u indexName methodName cols rp o) ks := by
  simp only [Stmt.shape, Bool.and_eq_true, List.all_eq_true] at hw
  obtain ⟨⟨⟨⟨w1, w2⟩, w3⟩, w4⟩, w5⟩ := hw
  simp only [Stmt.lang] at h
  eatK h w hf hk
  split_ h hu k0 k1
  split_ h hi k2 k3
  eatK h wo hfo hko
  split_ h h1 k4 k5
  split_ h hm k6 k7
  split_ h hc k8 k9
  drop_ h with -
  have hh := fun rest => hd_objectName' w1 h1 rest
  have ec := read_optColumns (fns := fns) w4 hc
  have hc' := fun rest => hd_optColumns fns w4 hc rest
  refine (((read_objectName (fns := fns) w1 h1).and (ec.and (read_where w5 h))).mono fun m hm' => ?_).succ
  intro b rest hr
  simp only [beq_iff_eq] at hr
  obtain ⟨e1, e2, e3⟩ := hm'
  have hwh := hd_where' h hr
  replace e3 := fun b => e3 b rest hr
  replace e2 := fun b => e2 b (k9 ++ rest) (fun _ => by rcases hwh with h | h <;> rw [h] <;> simp)
  have hcc : hd (k8 ++ (k9 ++ rest)) ≠ .sym .Period ∧ hd (k8 ++ (k9 ++ rest)) ≠ .kw .USING ∧ hd (k8 ++ (k9 ++ rest)) ≠ .odd := by
    rw [hc']
    split
    · rcases hwh with h | h <;> rw [h] <;> simp
    · simp
  have eu : ∀ b rest', (∃ w tl, rest' = .word w :: tl ∧ (fk (.word w) = .kw .ON ∨ Free (fk (.word w)))) →
      (parseCreate (Parsers.at fns m)).runZ b (zt (.word w) :: Z (k0 ++ rest')) =
        (parseCreateIndex (Parsers.at fns m) u).runZ (R k0 (zt (.word w) :: b)) (Z rest') := by
    rintro b rest' ⟨w', tl, rfl, hf'⟩
    cases u with
    | false =>
      simp only [Bool.false_eq_true, if_false] at hu
      eatK hu wi hfi hki
      rcases hf' with hf' | hf' <;> simp [zx, parseCreate, hf, hfi, hf']
    | true =>
      simp only [if_true] at hu
      split_ hu hu1 k k'
      eatK hu wu hfu hku
      eatK hu wi hfi hki
      opt_ hu1
      · simp [zx, parseCreate, hf, hfi, hfu]
      · eatK hu1 wi' hfi' hki'
        simp [zx, parseCreate, hf, hfi, hfu, hfi']
  have em : (methodName = none ∧ k6 = []) ∨ ∃ wu wm i, methodName = some i ∧ k6 = [.word wu, .word wm] ∧ fk (.word wu) = .kw .USING ∧ wm.string = i.value := by
    cases methodName with
    | none =>
      simp only [Option.map_none, Spec.optional] at hm
      drop_ hm with -
      exact .inl ⟨rfl, rfl⟩
    | some i =>
      have w3 : freeWord i.value = true := w3
      simp only [Option.map_some, Spec.optional] at hm
      eatK hm wu hfu hku
      eatI hm w3 wm hfm hkm e
      exact .inr ⟨wu, wm, i, rfl, rfl, hfu, e⟩
  have ei : (indexName = none ∧ k2 = []) ∨ ∃ wi i, indexName = some i ∧ k2 = [.word wi] ∧ Free (fk (.word wi)) ∧ wi.string = i.value := by
    cases indexName with
    | none =>
      simp only [Option.map_none, Spec.optional] at hi
      drop_ hi with -
      exact .inl ⟨rfl, rfl⟩
    | some i =>
      have w2 : freeWord i.value = true := w2
      simp only [Option.map_some, Spec.optional, id] at hi
      eatI hi w2 wm hfm hkm e
      exact .inr ⟨wm, i, rfl, rfl, hfm, e⟩
  have e1' := fun b => e1 b (k6 ++ (k8 ++ (k9 ++ rest))) (by
    rcases em with ⟨-, rfl⟩ | ⟨wu, wm, i, -, rfl, hfu, -⟩
    · simpa [notSym] using hcc.1
    · simp [zx, notSym, hfu])
  have eu' := eu b (k2 ++ .word wo :: (k4 ++ (k6 ++ (k8 ++ (k9 ++ rest))))) (by
    rcases ei with ⟨-, rfl⟩ | ⟨wi, i, -, rfl, hfi, -⟩
    · exact ⟨wo, _, rfl, .inl hfo⟩
    · exact ⟨wi, _, rfl, .inr hfi⟩)
  have ki : ∀ b rest', (do
      if ← kw .ON then pure none
      else do
        let n ← parseIdentifier
        let _ ← expectKeyword .ON
        pure (some n) : P (Option Ident)).runZ b (Z (k2 ++ .word wo :: rest')) = .ok (indexName.map Ident.erase) (R (k2 ++ [.word wo]) b, Z rest') := by
    intro b rest'
    rcases ei with ⟨rfl, rfl⟩ | ⟨wi, i, rfl, rfl, hfi, hi⟩
    · simp [zx, hfo]
    · simp [zx, hfo, hfi, hi, Ident.erase]
  have km : ∀ b, (do
      if ← kw .USING then do
        let m ← parseIdentifier
        pure (some m)
      else pure none : P (Option Ident)).runZ b (Z (k6 ++ (k8 ++ (k9 ++ rest)))) = .ok (methodName.map Ident.erase) (R k6 b, Z (k8 ++ (k9 ++ rest))) := by
    intro b
    rcases em with ⟨rfl, rfl⟩ | ⟨wu, wm, i, rfl, rfl, hfu, hi⟩
    · simp [zx, hcc]
    · simp [zx, hfu, hi, Ident.erase]
  have es : (Parsers.at fns (m + 1)).statement.runZ b (zt (.word w) :: Z (k0 ++ (k2 ++ .word wo :: (k4 ++ (k6 ++ (k8 ++ (k9 ++ rest))))))) =
      (parseCreate (Parsers.at fns m)).runZ b (zt (.word w) :: Z (k0 ++ (k2 ++ .word wo :: (k4 ++ (k6 ++ (k8 ++ (k9 ++ rest))))))) := by
    simp [zx, statementF, hk]
  have hl : Z (.word w :: (k0 ++ (k2 ++ .word wo :: (k4 ++ (k6 ++ (k8 ++ k9))))) ++ rest) =
      zt (.word w) :: Z (k0 ++ (k2 ++ .word wo :: (k4 ++ (k6 ++ (k8 ++ (k9 ++ rest)))))) := by
    simp [zx]
  rw [hl, es, eu', parseCreateIndex, runZ_bindM]
  erw [ki]
  rw [Res.bind_ok, runZ_bindM, e1', Res.bind_ok, runZ_bindM]
  erw [km]
  rw [Res.bind_ok, runZ_bindM]
  erw [e2]
  rw [Res.bind_ok, runZ_bindM]
  erw [e3]
  rw [Res.bind_ok, runZ_pure]
  simp [Stmt.erase, zx]

/-- How a query begins. -/
theorem hd_query' {q : QueryStmt} (hw : q.shape freeWord = true) (h : K (q.lang fns clean) ks) (rest : List Tok) :
    hd (ks ++ rest) = .kw .WITH ∨ hd (ks ++ rest) = .kw .SELECT ∨ hd (ks ++ rest) = .sym .LParen := by
  obtain ⟨p, ctes, body, os, lim⟩ := q
  simp only [QueryStmt.shape, Bool.and_eq_true] at hw
  simp only [QueryStmt.lang] at h
  split_ h hc k1 k2
  rcases clause_K hc with ⟨rfl, -⟩ | ⟨w, vs, rfl, hf, -, -⟩
  · split_ h hb k3 k4
    right
    simp only [List.nil_append, List.append_assoc]
    exact hd_body' hw.1.1.2 hb _
  · left; simp [zx, hf]

theorem read_source {src : InsertSource} {cols : List Ident} {as : List Assignment} 
    (w5 : (match src with
      | .subQuery q => (!cols.isEmpty || q.startsSelect) && (as.isEmpty || q.edge != .col)
      | .constructor _ _ => true) = true) (w3 : src.shape freeWord = true) (h : K (src.lang fns clean) ks) :
    (Ev fun m => ∀ (b : List Token) (rest : List Tok), (hd rest = .sym .Semicolon ∨ (hd rest = .kw .ON ∧ as ≠ [])) →
      (do
        if ← kw .VALUES then do
          let rows ← (Parsers.at fns m).rows
          pure (InsertSource.constructor Pos.zero rows)
        else do
          let q ← (Parsers.at fns m).query
          pure (.subQuery q) : P InsertSource).runZ b (Z (ks ++ rest)) = .ok src.erase (R ks b, Z rest)) ∧
    ∀ rest : List Tok, hd (ks ++ rest) ≠ .sym .Period ∧ (cols = [] → hd (ks ++ rest) ≠ .sym .LParen) := by
  cases src with
  | constructor p rows =>
    simp only [InsertSource.shape, Bool.and_eq_true, Bool.not_eq_true', List.isEmpty_eq_false_iff, List.all_eq_true] at w3
    simp only [InsertSource.lang] at h
    eatK h w hf hk
    drop_ h with -
    refine ⟨(read_rows w3.2 h).mono fun m hm => ?_, fun rest => by simp [zx, hf]⟩
    intro b rest hr
    have h1 := fun b => hm b rest (by rcases hr with h | h <;> simp [h, notSym])
    simp [InsertSource.erase, zx, h1, hf]
  | subQuery q =>
    simp only [InsertSource.shape] at w3
    simp only [InsertSource.lang] at h
    refine ⟨(QueryStmt.reads q w3 _ h).mono fun m hm => ?_, fun rest => ⟨?_, fun hc => ?_⟩⟩
    · intro b rest hr
      have h1 := fun b => hm b rest (by
        rcases hr with h | ⟨h, ha⟩
        · rw [h]; rfl
        · rw [h]
          simp only [Bool.and_eq_true, Bool.or_eq_true, List.isEmpty_iff] at w5
          exact w5.2.resolve_left ha)
      have h2 : hd (ks ++ rest) ≠ .kw .VALUES ∧ hd (ks ++ rest) ≠ .odd := by
        rcases hd_query' (fns := fns) w3 h rest with h | h | h <;> rw [h] <;> simp
      simp [InsertSource.erase, zx, h1, h2]
    · rcases hd_query' (fns := fns) w3 h rest with h | h | h <;> rw [h] <;> simp
    · simp [hc] at w5
      obtain ⟨w, tl, rfl, h⟩ := query_select w3 w5.1 h
      exact fk_word_sym _ _

theorem read_stInsert {p : Pos} {name : ObjectName} {cols : List Ident} {src : InsertSource} {as : List Assignment}
    (hw : (Stmt.insert p name cols src as).shape freeWord = true) (h : K ((Stmt.insert p name cols src as).lang fns clean) ks) :
    ReadsSt fns (.insert p name cols src as) ks := by
  simp only [Stmt.shape, Bool.and_eq_true, Bool.or_eq_true, List.isEmpty_iff, List.all_eq_true] at hw
  obtain ⟨⟨⟨⟨w1, w2⟩, w3⟩, w4⟩, w5⟩ := hw
  have w2 : ∀ i ∈ cols, freeWord i.value = true := by
    rcases w2 with rfl | w2
    · simp
    · simp only [identsShape, Bool.and_eq_true, List.all_eq_true] at w2
      exact w2.2
  simp only [Stmt.lang] at h
  eatK h w hf hk
  eatK h wt hft hkt
  split_ h h1 k1 k2
  split_ h h2 k3 k4
  split_ h h3 k5 k6
  have ea : (as = [] ∧ k6 = []) ∨ ∃ a b c d vs, as ≠ [] ∧ k6 = .word a :: .word b :: .word c :: .word d :: vs ∧ fk (.word a) = .kw .ON ∧
      fk (.word b) = .kw .DUPLICATE ∧ fk (.word c) = .kw .KEY ∧ fk (.word d) = .kw .UPDATE ∧
      Ev fun m => Parses (Parsers.at fns m).assignments vs (as.map Assignment.erase) fL := by
    cases as with
    | nil =>
      simp only [clause, clauseOr, List.map_nil] at h
      drop_ h with -
      exact .inl ⟨rfl, rfl⟩
    | cons x as =>
      replace h : K (kwd .ON ⬝ kwd .DUPLICATE ⬝ kwd .KEY ⬝ kwd .UPDATE ⬝ sepBy .Comma ((x :: as).map (Assignment.lang fns clean))) k6 := h
      eatK h a hfa hka
      eatK h b hfb hkb
      eatK h c hfc hkc
      eatK h d hfd hkd
      exact .inr ⟨a, b, c, d, _, by simp, rfl, hfa, hfb, hfc, hfd, read_assignments w4 h⟩
  have e4 : Ev fun m => ∀ (b : List Token) (rest : List Tok), hd rest = .sym .Semicolon →
      (do
        match ← parseKeywords [.ON, .DUPLICATE, .KEY, .UPDATE] with
        | some _ => (Parsers.at fns m).assignments
        | none => pure [] : P (List Assignment)).runZ b (Z (k6 ++ rest)) = .ok (as.map Assignment.erase) (R k6 b, Z rest) := by
    rcases ea with ⟨rfl, rfl⟩ | ⟨a, c, d, e, vs, -, rfl, ha, hc, hd', he, hv⟩
    · refine Ev.of fun m b rest hr => ?_
      simp [zx, hr]
    · refine hv.mono fun m hm => ?_
      intro b rest hr
      have h1 := fun b => hm b rest (by rw [hr]; rfl)
      simp [zx, ha, hc, hd', he, h1]
  have hd6 : ∀ rest, hd rest = .sym .Semicolon → hd (k6 ++ rest) = .sym .Semicolon ∨ (hd (k6 ++ rest) = .kw .ON ∧ as ≠ []) := by
    intro rest hr
    rcases ea with ⟨rfl, rfl⟩ | ⟨a, c, d, e, vs, hne, rfl, ha, hc, hd', he, hv⟩
    · exact .inl hr
    · exact .inr ⟨by simp [zx, ha], hne⟩
  obtain ⟨e3, hs⟩ := read_source w5 w3 h3
  refine (((read_objectName (fns := fns) w1 h1).and ((read_optColumns (fns := fns) w2 h2).and (e3.and e4))).mono fun m hm => ?_).succ
  intro b rest hr
  simp only [beq_iff_eq] at hr
  obtain ⟨g1, g2, g3, g4⟩ := hm
  have g1 := fun b => g1 b (k3 ++ (k5 ++ (k6 ++ rest))) (by
    rw [hd_optColumns fns w2 h2]
    split
    · simpa [notSym] using (hs (k6 ++ rest)).1
    · rfl)
  have g2 := fun b => g2 b (k5 ++ (k6 ++ rest)) (hs (k6 ++ rest)).2
  have g3 := fun b => g3 b (k6 ++ rest) (hd6 rest hr)
  have g4 := fun b => g4 b rest hr
  simp only [List.cons_append, List.append_assoc, Z_cons, at_statement, statementF, runZ_bindM, runZ_nextOrErr_cons, Res.bind_ok, word_word, hk,
    runZ_prevToken_cons]
  rw [parseInsert, runZ_bindM, zt_kwOrErr_yes hf, Res.bind_ok, runZ_bindM, zt_expectKeyword_yes hft, Res.bind_ok, runZ_bindM, g1, Res.bind_ok,
    runZ_bindM, g2, Res.bind_ok, runZ_bindM, g3, Res.bind_ok, runZ_bindM]
  erw [g4]
  rw [Res.bind_ok, runZ_pure]
  simp only [Stmt.erase, zx]

theorem read_alterColumn {a : AlterColumnAction} (hw : a.shape freeWord = true) (h : K (a.lang fns clean) ks) {name : Ident} {w : SQLWord}
    (e : w.string = name.value) :
    Ev fun m => ∀ (t : Tok) (b : List Token) (rest : List Tok), hd rest = .sym .Semicolon →
      (parseAlterColumn (Parsers.at fns m) (zt t)).runZ b (Z (.word w :: (ks ++ rest))) =
        .ok (.alterColumn name.erase Pos.zero a.erase) (R (.word w :: ks) b, Z rest) := by
  cases a with
  | setDefault p x =>
    simp only [AlterColumnAction.shape, Bool.and_eq_true] at hw
    simp only [AlterColumnAction.lang] at h
    eatK h w1 hf1 hk1
    eatK h w2 hf2 hk2
    refine (read_default hw.1 hw.2 h).mono fun m hm => ?_
    intro t b rest hr
    have h1 := fun b => hm b rest (by rw [hr]; rfl) (by rw [hr]; exact Nat.zero_le _) (by rw [hr]; exact .inl rfl)
    simp [AlterColumnAction.erase, Ident.erase, zx, parseAlterColumn, h1, hk1, hf2, e]
  | pgAlterDataType p ty =>
    simp only [AlterColumnAction.shape] at hw
    simp only [AlterColumnAction.lang] at h
    eatK h w1 hf1 hk1
    refine (read_dataType (fns := fns) hw h).mono fun m hm => ?_
    intro t b rest hr
    have h1 := fun b => hm b rest (by rw [hr]; rfl)
    simp [AlterColumnAction.erase, Ident.erase, zx, parseAlterColumn, h1, hk1, e]
  | dropDefault p p' =>
    simp only [AlterColumnAction.lang] at h
    eatK h w1 hf1 hk1
    eatK h w2 hf2 hk2
    refine Ev.of fun m => ?_
    intro t b rest hr
    simp [AlterColumnAction.erase, Ident.erase, zx, parseAlterColumn, nthTok, hk1, hf2, e]
  | pgSetNotNull p p' =>
    simp only [AlterColumnAction.lang] at h
    eatK h w1 hf1 hk1
    eatK h w2 hf2 hk2
    eatK h w3 hf3 hk3
    refine Ev.of fun m => ?_
    intro t b rest hr
    simp [AlterColumnAction.erase, Ident.erase, zx, parseAlterColumn, nthTok, hk1, hf2, hf3, e]
  | pgDropNotNull p p' =>
    simp only [AlterColumnAction.lang] at h
    eatK h w1 hf1 hk1
    eatK h w2 hf2 hk2
    eatK h w3 hf3 hk3
    refine Ev.of fun m => ?_
    intro t b rest hr
    simp [AlterColumnAction.erase, Ident.erase, zx, parseAlterColumn, nthTok, hk1, hf2, hf3, e]

theorem read_alterAction {a : AlterTableAction} (hw : a.shape freeWord = true) (h : K (a.lang fns clean) ks) :
    (∃ w tl, ks = .word w :: tl) ∧ Ev fun m => ∀ (b : List Token) (rest : List Tok), hd rest = .sym .Semicolon →
      (parseAlterAction (Parsers.at fns m)).runZ b (Z (ks ++ rest)) = .ok a.erase (R ks b, Z rest) := by
  cases a with
  | addColumn p c =>
    simp only [AlterTableAction.shape] at hw
    simp only [AlterTableAction.lang] at h
    eatK h w1 hf1 hk1
    eatK h w2 hf2 hk2
    obtain ⟨-, -, -, -, -, h⟩ := read_columnDef hw h
    refine ⟨⟨_, _, rfl⟩, h.mono fun m hm => ?_⟩
    intro b rest hr
    have h1 := fun b => hm b rest (by rw [hr]; rfl)
    simp [AlterTableAction.erase, zx, parseAlterAction, h1, nthTok, hf1, hf2]
  | addConstraint p c =>
    simp only [AlterTableAction.shape] at hw
    simp only [AlterTableAction.lang] at h
    eatK h w1 hf1 hk1
    replace h := read_tableConstraint hw h
    obtain ⟨w, tl, k, rfl, hf, hk, hc, h⟩ := h
    have hk' : k ≠ .COLUMN := by rintro rfl; cases hc
    refine ⟨⟨_, _, rfl⟩, h.mono fun m hm => ?_⟩
    intro b rest hr
    have h1 := fun b => hm b rest
    simp only [List.cons_append, Z_cons, R_cons] at h1
    simp [AlterTableAction.erase, zx, parseAlterAction, hk', h1, hf1, hf]
  | dropConstraint name p c q =>
    have wn : freeWord name.value = true := hw
    simp only [AlterTableAction.lang] at h
    eatK h w1 hf1 hk1
    eatK h w2 hf2 hk2
    eatI h wn w3 hf3 hk3 e
    obtain ⟨hc, -⟩ := cascade_K h
    refine ⟨⟨_, _, rfl⟩, Ev.of fun m => ?_⟩
    intro b rest hr
    have h1 := fun b => hc b rest hr
    simp [AlterTableAction.erase, Ident.erase, zx, parseAlterAction, h1, nthTok, hf1, hf2, e]
  | removeColumn name c p q =>
    have wn : freeWord name.value = true := hw
    simp only [AlterTableAction.lang] at h
    eatK h w1 hf1 hk1
    eatK h w2 hf2 hk2
    eatI h wn w3 hf3 hk3 e
    obtain ⟨hc, -⟩ := cascade_K h
    refine ⟨⟨_, _, rfl⟩, Ev.of fun m => ?_⟩
    intro b rest hr
    have h1 := fun b => hc b rest hr
    simp [AlterTableAction.erase, Ident.erase, zx, parseAlterAction, h1, nthTok, hf1, hf2, e]
  | alterColumn name p a =>
    simp only [AlterTableAction.shape, Bool.and_eq_true] at hw
    simp only [AlterTableAction.lang] at h
    eatK h w1 hf1 hk1
    eatK h w2 hf2 hk2
    eatI h hw.1 w3 hf3 hk3 e
    refine ⟨⟨_, _, rfl⟩, (read_alterColumn hw.2 h e).mono fun m hm => ?_⟩
    intro b rest hr
    have h1 := fun t b => hm t b rest hr
    simp only [Z_cons, R_cons] at h1
    simp [AlterTableAction.erase, zx, parseAlterAction, h1, nthTok, hf1, hf2]

theorem read_stAlter {p : Pos} {name : ObjectName} {a : AlterTableAction} (hw : (Stmt.alterTable p name a).shape freeWord = true)
    (h : K ((Stmt.alterTable p name a).lang fns clean) ks) : ReadsSt fns (.alterTable p name a) ks := by
  simp only [Stmt.shape, Bool.and_eq_true] at hw
  simp only [Stmt.lang] at h
  eatK h w hf hk
  eatK h wt hft hkt
  split_ h h1 k1 k2
  replace h := read_alterAction hw.2 h
  obtain ⟨⟨w', tl, rfl⟩, h⟩ := h
  refine (((read_objectName (fns := fns) hw.1 h1).and h).mono fun m hm => ?_).succ
  intro b rest hr
  simp only [beq_iff_eq] at hr
  have h1 := fun b => hm.1 b (.word w' :: tl ++ rest) (by simp [zx, notSym, fk_word_sym])
  have h2 := fun b => hm.2 b rest hr
  simp only [List.cons_append, Z_cons, R_cons] at h1 h2
  simp [Stmt.erase, zx, statementF, parseAlter, h1, h2, hk, hf, hft]

/-- The parser reads every sentence of the grammar without quirks as the statement it is a sentence of. -/
theorem Stmt.reads : (s : Stmt) → s.shape freeWord = true → ∀ ks, K (s.lang fns clean) ks → ReadsSt fns s ks
  | .query _, hw, _, h => read_stQuery hw h
  | .insert _ _ _ _ _, hw, _, h => read_stInsert hw h
  | .copy _ _ _ _, hw, _, _ => by simp [Stmt.shape] at hw
  | .update _ _ _ _, hw, _, h => read_stUpdate hw h
  | .delete _ _ _, hw, _, h => read_stDelete hw h
  | .createView _ _ _ _, hw, _, h => read_stView hw h
  | .createTable _ _ _ _ _, hw, _, h => read_stTable hw h
  | .alterTable _ _ _, hw, _, h => read_stAlter hw h
  | .dropTable _ _ _ _ _, hw, _, h => read_stDropTable hw h
  | .createIndex _ _ _ _ _ _ _ _, hw, _, h => read_stIndex hw h
  | .dropIndex _ _, hw, _, h => read_stDropIndex hw h
  | .explain s _, hw, _, h => read_stExplain (Stmt.reads s (by simpa only [Stmt.shape] using hw)) h

end Verif
