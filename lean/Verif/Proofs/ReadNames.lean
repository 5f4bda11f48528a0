import Verif.Proofs.ReadBase
/-
Completeness of the grammar: names, lists of names and data types.
-/
set_option linter.unusedSimpArgs false
namespace Verif
open Spec

variable {fns : FloatFns} {ks : List Tok}

theorem identsShape_cons {I : Str → Bool} {is : List Ident} (h : identsShape I is = true) :
    ∃ i js, is = i :: js ∧ I i.value = true ∧ ∀ j ∈ js, I j.value = true := by
  cases is with
  | nil => simp [identsShape] at h
  | cons i js =>
    simp only [identsShape, List.isEmpty_cons, Bool.not_false, Bool.true_and, List.all_eq_true] at h
    exact ⟨i, js, rfl, h i (by simp), fun j hj => h j (by simp [hj])⟩

theorem read_ids {k : Sym} (is : List Ident) : ∀ (i : Ident) (ks : List Tok),
    K (sepBy k ((i :: is).map (word []))) ks → freeWord i.value = true → (∀ j ∈ is, freeWord j.value = true) →
    Ev fun m => Parses ((Parsers.at fns m).listOfIds k) ks (some ((i :: is).map Ident.erase)) (notSym k) := by
  induction is with
  | nil =>
    intro i ks h hi hs
    simp only [List.map_cons, List.map_nil, sepBy] at h
    eatI h hi w hf hk e
    refine (Ev.of fun m => ?_).succ.succ
    intro b rest hr
    simp only [notSym, decide_eq_true_eq] at hr
    cases rest with
    | nil => simp [zx, listOfIdsF, listOfIdsSepF, e, Ident.erase]
    | cons t rest => simp only [hd] at hr; simp [zx, listOfIdsF, listOfIdsSepF, e, Ident.erase, hr]
  | cons j is ih =>
    intro i ks h hi hs
    simp only [List.map_cons, sepBy] at h
    eatI h hi w hf hk e
    eat h with ⟨s, rfl⟩
    refine ((ih j _ h (hs j (by simp)) fun j hj => hs j (by simp [hj])).mono fun m hm => ?_).succ.succ
    intro b rest hr
    have := fun b => hm b rest hr
    simp [zx, listOfIdsF, listOfIdsSepF, e, Ident.erase, this]

theorem read_listOfIds {k : Sym} {is : List Ident} (hs : identsShape freeWord is = true) (h : K (idents k is) ks) :
    Ev fun m => Parses (parseListOfIds (Parsers.at fns m) k) ks (is.map Ident.erase) (notSym k) := by
  obtain ⟨i, js, rfl, hi, hjs⟩ := identsShape_cons hs
  refine (read_ids (fns := fns) js i ks h hi hjs).mono fun m hm => ?_
  intro b rest hr
  simp [parseListOfIds, zx, hm b rest hr]

theorem read_columnNames {is : List Ident} (hs : identsShape freeWord is = true) (h : K (idents .Comma is) ks) :
    Ev fun m => Parses (parseColumnNames (Parsers.at fns m)) ks (is.map Ident.erase) (notSym .Comma) :=
  read_listOfIds hs h

theorem read_objectName {o : ObjectName} (hs : o.shape freeWord = true) (h : K (objectName o) ks) :
    Ev fun m => Parses (parseObjectName (Parsers.at fns m)) ks o.erase (notSym .Period) := by
  refine (read_listOfIds (fns := fns) hs h).mono fun m hm => ?_
  intro b rest hr
  simp [parseObjectName, zx, hm b rest hr, ObjectName.erase]

/-- A name begins with an identifier. -/
theorem idents_cons {k : Sym} {i : Ident} {is : List Ident} (hi : freeWord i.value = true) (h : K (idents k (i :: is)) ks) :
    ∃ w tl, ks = .word w :: tl ∧ Free (fk (.word w)) ∧ freeKw (kwOf w.keyword) = true ∧ w.string = i.value := by
  cases is with
  | nil =>
    simp only [idents, List.map_cons, List.map_nil, sepBy] at h
    eatI h hi w hf hk e
    exact ⟨w, [], rfl, hf, hk, e⟩
  | cons j is =>
    simp only [idents, List.map_cons, sepBy] at h
    eatI h hi w hf hk e
    exact ⟨w, _, rfl, hf, hk, e⟩

theorem hd_objectName' {o : ObjectName} (hs : o.shape freeWord = true) (h : K (objectName o) ks) (rest : List Tok) :
    Free (hd (ks ++ rest)) := by
  obtain ⟨i, js, e, hi, hjs⟩ := identsShape_cons hs
  rw [objectName, e] at h
  obtain ⟨w, tl, rfl, h, -⟩ := idents_cons hi h
  exact h

theorem typeName_idents {is : List Ident} (h : K (typeName is) ks) : K (idents .Period is) ks := by
  have key : ∀ (bad : List KW) (i : Ident) (ts : List Token), word bad i ts → word [] i ts := by
    rintro bad i _ ⟨t, w, rfl, h1, h2, h3, h4, -⟩
    exact ⟨t, w, rfl, h1, h2, h3, h4, by simp⟩
  match is with
  | [] => exact h.never.elim
  | [i] => exact h.mono fun ts h => key _ _ ts h
  | i :: j :: js =>
    refine h.mono fun ts h => ?_
    obtain ⟨u, v, rfl, h1, h2⟩ := h
    exact ⟨u, v, rfl, key _ _ _ h1, h2⟩

/-- The first word of the name of a type is not a built-in type. -/
theorem typeName_first {i : Ident} {is : List Ident} {w : SQLWord} {tl : List Tok} (h : K (typeName (i :: is)) (.word w :: tl))
    {k : KW} (hk : kwOf w.keyword = some k) : k.beginsType = false := by
  have key : ∀ ts tl, word typeKeywords i ts → (∀ t ∈ ts, Regular t.tok) → ts.map (·.tok) ++ tl = .word w :: tl → k.beginsType = false := by
    rintro _ tl ⟨t, w', rfl, h1, -, -, -, h2⟩ hg e
    have h3 := hg t (by simp)
    simp only [List.map_cons, List.map_nil, h1, List.cons_append, List.nil_append, List.cons.injEq, Tok.word.injEq, and_true] at e
    subst e
    rw [h1] at h3
    have h4 := (h3 _ rfl).1
    have h5 : upper w'.value = k.str := by rw [← h4]; exact kwOf_eq_some.1 hk
    cases hb : k.beginsType with
    | false => rfl
    | true =>
      have : k ∈ typeKeywords := by
        cases k <;> first | (cases hb; done) | decide
      exact absurd h5 (h2 k this)
  obtain ⟨ts, hL, hg, e⟩ := h
  match is with
  | [] =>
    have hL : word typeKeywords i ts := hL
    have hl : tl = [] := by
      obtain ⟨t, w', rfl, -⟩ := hL
      simpa using congrArg List.length e
    subst hl
    exact key ts [] hL hg (by simp [e])
  | j :: js =>
    obtain ⟨u, v, rfl, hL, -⟩ := hL
    refine key u tl hL (fun t ht => hg t (by simp [ht])) ?_
    obtain ⟨t, w', rfl, -⟩ := hL
    simp only [List.cons_append, List.map_cons, List.cons.injEq] at e
    simp [e.1]

/-! ### Data types -/

theorem size_K {rp : Pos} {size : Option Nat} (h : K (sizeLang rp size) ks) (hs : sizeOptOK size = true) :
    (ks = [] ∧ size = none) ∨ ∃ s1 s2 s n, ks = [.sym .LParen s1, .number s, .sym .RParen s2] ∧ size = some n ∧
      atoi s = ((n : Int), true) := by
  cases size with
  | none => exact .inl ⟨(K.nil (a := unset rp) h).1, rfl⟩
  | some n =>
    replace h : K (sym .LParen ⬝ _) _ := h
    eat h with ⟨s1, rfl⟩
    eat h with ⟨s, rfl, hn⟩
    eat h with ⟨s2, rfl⟩
    exact .inr ⟨s1, s2, s, n, rfl, rfl, hn hs⟩

theorem read_size {rp : Pos} {size : Option Nat} (h : K (sizeLang rp size) ks) (hs : sizeOptOK size = true) :
    Parses parseOptionalPrecision ks (size, Pos.zero) (notSym .LParen) := by
  intro b rest hr
  simp only [notSym, decide_eq_true_eq] at hr
  rcases size_K h hs with ⟨rfl, rfl⟩ | ⟨s1, s2, s, n, rfl, rfl, hn⟩
  · simp [zx, parseOptionalPrecision, hr]
  · simp [zx, parseOptionalPrecision, literalInt_number hn]

theorem hd_size {rp : Pos} {size : Option Nat} (h : K (sizeLang rp size) ks) (hs : sizeOptOK size = true) (rest : List Tok) :
    hd (ks ++ rest) = .sym .LParen ∨ hd (ks ++ rest) = hd rest := by
  rcases size_K h hs with ⟨rfl, rfl⟩ | ⟨s1, s2, s, n, rfl, rfl, hn⟩
  · exact .inr rfl
  · exact .inl rfl

theorem unsigned_K {p : Pos} {u : Bool} (h : K (unsignedLang u p) ks) :
    (ks = [] ∧ u = false) ∨ ∃ w, ks = [.word w] ∧ u = true ∧ fk (.word w) = .kw .UNSIGNED := by
  cases u with
  | false => exact .inl ⟨(K.nil (a := unset p) h).1, rfl⟩
  | true =>
    replace h : K (kwd .UNSIGNED ◃ p) _ := h
    eat h with ⟨w, rfl, hf, hk⟩
    exact .inr ⟨w, rfl, rfl, hf⟩

theorem read_unsigned {p : Pos} {u : Bool} (h : K (unsignedLang u p) ks) : Parses parseMyUnsigned ks (u, Pos.zero) folT := by
  intro b rest hr
  have f := folT_facts hr
  rcases unsigned_K h with ⟨rfl, rfl⟩ | ⟨w, rfl, rfl, hf⟩
  · simp [zx, parseMyUnsigned, f]
  · simp [zx, parseMyUnsigned, hf]

theorem hd_unsigned {p : Pos} {u : Bool} (h : K (unsignedLang u p) ks) (rest : List Tok) :
    hd (ks ++ rest) = .kw .UNSIGNED ∨ hd (ks ++ rest) = hd rest := by
  rcases unsigned_K h with ⟨rfl, rfl⟩ | ⟨w, rfl, rfl, hf⟩
  · exact .inr rfl
  · exact .inl hf

theorem read_timeZone {tz : Bool} (h : K (timeZoneLang tz) ks) : Parses parseDataType.parseTimeZone ks tz folT := by
  intro b rest hr
  obtain ⟨f1, f2, f3, f4, f5, f6, f7, f8, f9⟩ := folT_facts hr
  cases tz with
  | false =>
    replace h : K (opt (kwd .WITHOUT ⬝ kwd .TIME ⬝ kwd .ZONE)) ks := h
    opt_ h
    · simp [zx, parseDataType.parseTimeZone, f8, f9, f2]
    · eatK h w1 hf1 hk1
      eat h with ⟨w2, rfl, hf2, -⟩
      eat h with ⟨w3, rfl, hf3, -⟩
      simp [zx, parseDataType.parseTimeZone, hf1, hf2, hf3]
  | true =>
    replace h : K (kwd .WITH ⬝ _) _ := h
    eat h with ⟨w1, rfl, hf1, -⟩
    replace h := K.cat h
    obtain ⟨us, vs, rfl, ho, h⟩ := h
    eat h with ⟨w2, rfl, hf2, -⟩
    eat h with ⟨w3, rfl, hf3, -⟩
    rcases ho.opt with rfl | ho
    · simp [zx, parseDataType.parseTimeZone, hf1, hf2, hf3]
    · obtain ⟨_, rfl, ⟨w4, rfl, hf4, -⟩⟩ := ho.eat1
      simp [zx, parseDataType.parseTimeZone, hf1, hf2, hf3, hf4]

theorem read_dataType {ty : DataType} (hs : ty.shape freeWord = true) (h : K ty.lang ks) :
    Ev fun m => Parses (parseDataType (Parsers.at fns m)) ks ty.erase folT := by
  by_cases hc : ∃ o, ty = .custom o
  · obtain ⟨ty, rfl⟩ := hc
    have h0 : K (typeName ty.idents) ks := h
    have h : K (idents .Period ty.idents) ks := typeName_idents h
    refine (read_objectName (fns := fns) hs h).mono fun m hm => ?_
    intro b rest hr
    have hp : notSym .Period (hd rest) = true := by
      simp only [notSym, decide_eq_true_eq]; fol hr
    have e := hm b rest hp
    obtain ⟨i, js, e', hi, hjs⟩ := identsShape_cons hs
    rw [e'] at h h0
    obtain ⟨w, tl, rfl, hf, hk, -⟩ := idents_cons hi h
    have hn := fun k (hk : kwOf w.keyword = some k) => typeName_first h0 hk
    simp only [List.cons_append, Z_cons] at e ⊢
    simp only [parseDataType, zx]
    split <;> first
      | (have := hn _ ‹_›; cases this)
      | simp [zx, e, DataType.erase]
  · refine Ev.of fun m => ?_
    intro b rest hr
    obtain ⟨f1, f2, f3, f4, f5, f6, f7, f8, f9⟩ := folT_facts hr
    have hv : notSym .LParen (hd rest) = true := by simpa [notSym] using f3
    cases ty with
    | custom o => exact absurd ⟨o, rfl⟩ hc
    | clob => exact h.never.elim
    | binary => exact h.never.elim
    | varbinary => exact h.never.elim
    | blob => exact h.never.elim
    | char size f t rp =>
      replace h := K.cat h
      obtain ⟨us, vs, rfl, h1, h⟩ := h
      have e1 := fun b => read_size h hs b rest hv
      have hh := hd_size h hs rest
      have g1 : hd (vs ++ rest) ≠ .kw .VARYING := by rcases hh with e | e <;> rw [e] <;> simp [f7]
      have g2 : hd (vs ++ rest) ≠ .odd := by rcases hh with e | e <;> rw [e] <;> simp [f2]
      rcases h1.spans.alt with h1 | h1 <;> (eatK h1 w hf hk) <;>
        simp [DataType.erase, zx, parseDataType, parseDataType.parseChar, hk, e1, g1, g2]
    | varchar size c v rp =>
      replace h := K.cat h
      obtain ⟨us, vs, rfl, h1, h⟩ := h
      have e1 := fun b => read_size h hs b rest hv
      alt_ h1
      · eatK h1 w hf hk
        drop_ h1 with -
        simp [DataType.erase, zx, parseDataType, hk, e1]
      · split_ h1 h2 u1 u2
        eatK h1 w' hf' hk'
        replace h1 := h2.starts.alt
        rcases h1 with h1 | h1 <;> (eatK h1 w hf hk) <;>
          simp [DataType.erase, zx, parseDataType, parseDataType.parseChar, hk, hf', e1]
    | decimal p s n rp u up =>
      simp only [DataType.shape, Bool.and_eq_true] at hs
      obtain ⟨⟨h1, h2⟩, h3⟩ := hs
      cases p with
      | none => simp at h1
      | some p =>
        replace h : K (n ▹ kwd .NUMERIC ⬝ _) _ := h
        eat h with ⟨w, rfl, hf, hk⟩
        replace h := K.cat h
        obtain ⟨us, vs, rfl, hp, h⟩ := h
        have e1 := fun b => read_unsigned h b rest hr
        cases s with
        | none =>
          replace hp : K (sym .LParen ⬝ _) _ := hp
          eat hp with ⟨s1, rfl⟩
          eat hp with ⟨s2, rfl, hn⟩
          eat hp with ⟨s3, rfl⟩
          simp [DataType.erase, zx, parseDataType, parseOptionalPrecisionScale, hk, literalInt_number (hn h2), e1]
        | some s =>
          replace hp : K (sym .LParen ⬝ _) _ := hp
          eat hp with ⟨s1, rfl⟩
          replace hp := K.assoc hp
          eat hp with ⟨s2, rfl, hn⟩
          replace hp := K.assoc hp
          eat hp with ⟨s4, rfl⟩
          eat hp with ⟨s5, rfl, hn'⟩
          eat hp with ⟨s3, rfl⟩
          simp [DataType.erase, zx, parseDataType, parseOptionalPrecisionScale, hk, literalInt_number (hn h2),
            literalInt_number (hn' h3), e1]
    | float size f t rp u up =>
      replace h : K (spans f t (kwd .FLOAT) ⬝ _) _ := h
      eat h with ⟨w, rfl, hf, hk⟩
      replace h := K.cat h
      obtain ⟨us, vs, rfl, hp, h⟩ := h
      have e1 := fun b => read_unsigned h b rest hr
      have e2 := fun b => read_size hp hs b (vs ++ rest) (by
        rcases hd_unsigned h rest with e | e <;> rw [e]
        · rfl
        · exact hv)
      simp [DataType.erase, zx, parseDataType, hk, e1, e2]
    | smallInt f t u up =>
      replace h : K (spans f t (kwd .SMALLINT) ⬝ _) _ := h
      eat h with ⟨w, rfl, hf, hk⟩
      have e1 := fun b => read_unsigned h b rest hr
      simp [DataType.erase, zx, parseDataType, hk, e1]
    | real f t u up =>
      replace h : K (spans f t (kwd .REAL) ⬝ _) _ := h
      eat h with ⟨w, rfl, hf, hk⟩
      have e1 := fun b => read_unsigned h b rest hr
      simp [DataType.erase, zx, parseDataType, hk, e1]
    | int f t u up =>
      replace h := K.cat h
      obtain ⟨us, vs, rfl, h1, h⟩ := h
      have e1 := fun b => read_unsigned h b rest hr
      rcases h1.spans.alt with h1 | h1 <;> (eatK h1 w hf hk) <;>
        simp [DataType.erase, zx, parseDataType, hk, e1]
    | bigInt f t u up =>
      replace h : K (spans f t (kwd .BIGINT) ⬝ _) _ := h
      eat h with ⟨w, rfl, hf, hk⟩
      cases u with
      | true =>
        replace h : K (kwd .UNSIGNED ◃ up) _ := h
        eat h with ⟨w', rfl, hf', hk'⟩
        simp [DataType.erase, zx, parseDataType, hk, hf']
      | false =>
        obtain ⟨rfl, -⟩ := K.nil (a := eps) h
        cases rest with
        | nil => exact absurd rfl f1
        | cons t rest =>
          simp only [hd] at f2 f6
          simp [DataType.erase, zx, parseDataType, hk, f2, f6]
    | double f t =>
      replace h : K (f ▹ kwd .DOUBLE ⬝ _) _ := h
      eat h with ⟨w, rfl, hf, hk⟩
      eat h with ⟨w', rfl, hf', hk'⟩
      simp [DataType.erase, zx, parseDataType, hk, hf']
    | uuid f t =>
      replace h : K (spans f t (kwd .UUID)) _ := h
      eat h with ⟨w, rfl, hf, hk⟩
      simp [DataType.erase, zx, parseDataType, hk]
    | boolean f t =>
      replace h : K (spans f t (kwd .BOOLEAN)) _ := h
      eat h with ⟨w, rfl, hf, hk⟩
      simp [DataType.erase, zx, parseDataType, hk]
    | date f t =>
      replace h := (K.drop (a := kwd .DATE) h).1
      eat h with ⟨w, rfl, hf, hk⟩
      simp [DataType.erase, zx, parseDataType, hk]
    | regclass f t =>
      replace h := (K.drop (a := kwd .REGCLASS) h).1
      eat h with ⟨w, rfl, hf, hk⟩
      simp [DataType.erase, zx, parseDataType, hk]
    | bytea f t =>
      replace h := (K.drop (a := kwd .BYTEA) h).1
      eat h with ⟨w, rfl, hf, hk⟩
      simp [DataType.erase, zx, parseDataType, hk]
    | text f t =>
      replace h := (K.drop (a := kwd .TEXT) h).1
      eat h with ⟨w, rfl, hf, hk⟩
      simp [DataType.erase, zx, parseDataType, hk, f4]
    | time f t =>
      replace h : K (kwd .TIME ⬝ _) _ := h
      eat h with ⟨w, rfl, hf, hk⟩
      rcases h.drop.1.alt with h | h
      · have e1 := fun b => read_timeZone h b rest hr
        simp [DataType.erase, zx, parseDataType, hk, e1]
      · have e1 := fun b => read_timeZone h b rest hr
        simp [DataType.erase, zx, parseDataType, hk, e1]
    | timestamp tz f z =>
      replace h : K (f ▹ kwd .TIMESTAMP ⬝ _) _ := h
      eat h with ⟨w, rfl, hf, hk⟩
      have e1 := fun b => read_timeZone h.drop.1 b rest hr
      simp [DataType.erase, zx, parseDataType, hk, e1]
    | array ty rb =>
      cases ty <;> simp [DataType.shape] at hs
      replace h : K (kwd .TEXT ⬝ _) _ := h
      eat h with ⟨w, rfl, hf, hk⟩
      eat h with ⟨s1, rfl⟩
      replace h := h.drop.1
      eat h with ⟨s2, rfl⟩
      simp [DataType.erase, zx, parseDataType, hk]

end Verif
