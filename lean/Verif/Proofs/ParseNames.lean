import Verif.Proofs.ParseBase
import Verif.Spec.Erase
/-
Parsing printed names, lists of names and data types.
-/
set_option linter.unusedSimpArgs false
namespace Verif

section
variable (fns : FloatFns) (m : Nat)
@[zx] theorem at_subexpr : (Parsers.at fns (m + 1)).subexpr = subexprF (Parsers.at fns m) := rfl
@[zx] theorem at_subexprLoop : (Parsers.at fns (m + 1)).subexprLoop = subexprLoopF (Parsers.at fns m) := rfl
@[zx] theorem at_prefix : (Parsers.at fns (m + 1)).prefix_ = prefixF fns (Parsers.at fns m) := rfl
@[zx] theorem at_idParts : (Parsers.at fns (m + 1)).idParts = idPartsF (Parsers.at fns m) := rfl
@[zx] theorem at_exprList : (Parsers.at fns (m + 1)).exprList = exprListF (Parsers.at fns m) := rfl
@[zx] theorem at_listOfIds : (Parsers.at fns (m + 1)).listOfIds = listOfIdsF (Parsers.at fns m) := rfl
@[zx] theorem at_listOfIdsSep : (Parsers.at fns (m + 1)).listOfIdsSep = listOfIdsSepF (Parsers.at fns m) := rfl
@[zx] theorem at_orderByList : (Parsers.at fns (m + 1)).orderByList = orderByListF (Parsers.at fns m) := rfl
@[zx] theorem at_caseLoop : (Parsers.at fns (m + 1)).caseLoop = caseLoopF (Parsers.at fns m) := rfl
@[zx] theorem at_query : (Parsers.at fns (m + 1)).query = queryF (Parsers.at fns m) := rfl
@[zx] theorem at_queryBody : (Parsers.at fns (m + 1)).queryBody = queryBodyF (Parsers.at fns m) := rfl
@[zx] theorem at_bodyLoop : (Parsers.at fns (m + 1)).bodyLoop = bodyLoopF (Parsers.at fns m) := rfl
@[zx] theorem at_cteList : (Parsers.at fns (m + 1)).cteList = cteListF (Parsers.at fns m) := rfl
@[zx] theorem at_selectList : (Parsers.at fns (m + 1)).selectList = selectListF (Parsers.at fns m) := rfl
@[zx] theorem at_tableRef : (Parsers.at fns (m + 1)).tableRef = tableRefF (Parsers.at fns m) := rfl
@[zx] theorem at_tableRefLoop : (Parsers.at fns (m + 1)).tableRefLoop = tableRefLoopF (Parsers.at fns m) := rfl
@[zx] theorem at_fromRest : (Parsers.at fns (m + 1)).fromRest = fromRestF (Parsers.at fns m) := rfl
@[zx] theorem at_defaultLoop : (Parsers.at fns (m + 1)).defaultLoop = defaultLoopF (Parsers.at fns m) := rfl
@[zx] theorem at_columnLoop : (Parsers.at fns (m + 1)).columnLoop = columnLoopF (Parsers.at fns m) := rfl
@[zx] theorem at_columnConstraints :
    (Parsers.at fns (m + 1)).columnConstraints = columnConstraintsF (Parsers.at fns m) := rfl
@[zx] theorem at_elements : (Parsers.at fns (m + 1)).elements = elementsF (Parsers.at fns m) := rfl
@[zx] theorem at_tableOptions : (Parsers.at fns (m + 1)).tableOptions = tableOptionsF (Parsers.at fns m) := rfl
@[zx] theorem at_assignments : (Parsers.at fns (m + 1)).assignments = assignmentsF (Parsers.at fns m) := rfl
@[zx] theorem at_rows : (Parsers.at fns (m + 1)).rows = rowsF (Parsers.at fns m) := rfl
@[zx] theorem at_statement : (Parsers.at fns (m + 1)).statement = statementF (Parsers.at fns m) := rfl
end

@[zx] theorem zt_from (t : Tok) : (zt t).from_ = Pos.zero := rfl
@[zx] theorem zt_to (t : Tok) : (zt t).to_ = Pos.zero := rfl
theorem softKw_ident {d : Dialect} {v : Str} (h : identOK d v = true) : softKw (kwOf (identWord v).keyword) = true :=
  (identWord_facts h).1
theorem identWord_keyword {v : Str} : kwOf (identWord v).keyword = identKW v := by
  cases v with
  | nil => rfl
  | cons q rest =>
    unfold identWord identKW
    simp only
    split <;> rfl
@[zx] theorem string_ident {d : Dialect} {v : Str} (h : identOK d v = true) : (identWord v).string = v :=
  (identWord_facts h).2.2
@[zx] theorem tok_ident (v : Str) : (zt (identTok v)).tok = .word (identWord v) := by rw [identTok_eq]; rfl
@[zx] theorem tok_kT (k : KW) : (zt (kT k)).tok = .word ⟨k.str, none, k.str⟩ := rfl
@[zx] theorem tok_klT (k : KW) : (zt (klT k)).tok = .word ⟨lower k.str, none, k.str⟩ := rfl
@[zx] theorem tok_sym (k : Sym) (s : Str) : (zt (.sym k s)).tok = .sym k s := rfl
@[zx] theorem tok_lpar : (zt lpar).tok = .sym .LParen ['('] := rfl
@[zx] theorem tok_star : (zt star).tok = .sym .Mult ['*'] := rfl
@[zx] theorem tok_eqT : (zt eqT).tok = .sym .Eq ['='] := rfl
@[zx] theorem tok_num (n : Nat) : (zt (numTok n)).tok = .number (natStr n) := rfl
@[zx] theorem word_lpar : (zt lpar).word? = none := rfl
@[zx] theorem word_rpar : (zt rpar).word? = none := rfl
@[zx] theorem word_star : (zt star).word? = none := rfl
@[zx] theorem word_comma : (zt comma).word? = none := rfl
@[zx] theorem word_semi : (zt semi).word? = none := rfl
@[zx] theorem word_eqT : (zt eqT).word? = none := rfl
@[zx] theorem kw?_kT (k : KW) : (zt (kT k)).kw? = some k := kw?_of_fk (fk_kT k)
@[zx] theorem kw?_klT (k : KW) : (zt (klT k)).kw? = some k := kw?_of_fk (fk_klT k)

@[zx] theorem takeKws_nil (a : List Token) : takeKws [] a = some ([], a) := rfl
@[zx] theorem nil_kw (k : KW) (b : List Token) : (kw k).runZ b [] = .ok false (b, []) := rfl
@[zx] theorem nil_kwTok (k : KW) (b : List Token) : (kwTok k).runZ b [] = .ok none (b, []) := rfl
@[zx] theorem nil_consume (k : Sym) (b : List Token) : (consumeToken k).runZ b [] = .ok false (b, []) := rfl
@[zx] theorem nil_prec (b : List Token) : getNextPrecedence.runZ b [] = .ok 0 (b, []) := rfl

/-- Shows that the next token is not a given one, from a follow condition. -/
macro "fol" h:term : tactic => `(tactic| (intro hfol_; have hfol2_ := $h; simp only [hfol_] at hfol2_; revert hfol2_; decide))

@[zx] theorem parseIdentifier_ident {d : Dialect} {v : Str} (h : identOK d v = true) (b a : List Token) :
    parseIdentifier.runZ b (zt (identTok v) :: a) = .ok ⟨v, Pos.zero, Pos.zero⟩ (zt (identTok v) :: b, a) := by
  simp [parseIdentifier, zx, string_ident h]

/-- A separator and a name, repeated. -/
def idTail (s : Tok) : List Ident → List Tok
  | [] => []
  | i :: is => s :: identTok i.value :: idTail s is

theorem sg_identsT (i : Ident) (is : List Ident) : sg (identsT (i :: is)) = identTok i.value :: idTail comma is := by
  induction is generalizing i with
  | nil => simp [identsT, sepT, zx, idTail]
  | cons j is ih =>
    rw [identsT, sg_ident, sg_append, ih]
    simp [sepT, zx, idTail]
theorem sg_dotTail (is : List Ident) : sg (dotTail is) = idTail dot is := by
  induction is with
  | nil => rfl
  | cons i is ih => simp [dotTail, idTail, zx, ih]
theorem sg_dottedT (i : Ident) (is : List Ident) : sg (dottedT (i :: is)) = identTok i.value :: idTail dot is := by
  simp [dottedT, zx, sg_dotTail]

theorem identsOK_cons {d : Dialect} {is : List Ident} (h : identsOK d is = true) :
    ∃ i js, is = i :: js ∧ identOK d i.value = true ∧ ∀ j ∈ js, identOK d j.value = true := by
  cases is with
  | nil => simp [identsOK] at h
  | cons i js =>
    simp only [identsOK, List.isEmpty_cons, Bool.not_false, Bool.true_and, List.all_eq_true] at h
    exact ⟨i, js, rfl, h i (by simp), fun j hj => h j (by simp [hj])⟩

/-- The next token is not the symbol. -/
def notSym (k : Sym) (f : Fk) : Bool := decide (f ≠ .sym k)

theorem parse_listOfIdsSep {d : Dialect} (fns : FloatFns) {s : Tok} {k : Sym} (hs : fk s = .sym k) (is : List Ident)
    (h : ∀ j ∈ is, identOK d j.value = true) :
    Ev fun m => Parses ((Parsers.at fns m).listOfIdsSep k) (idTail s is) (some (is.map Ident.erase)) (notSym k) := by
  induction is with
  | nil =>
    refine (Ev.of fun m => ?_).succ
    intro b rest hr
    simp only [notSym, decide_eq_true_eq] at hr
    cases rest with
    | nil => simp [idTail, zx, listOfIdsSepF]
    | cons t rest => simp only [hd] at hr; simp [idTail, zx, listOfIdsSepF, hr]
  | cons i is ih =>
    refine ((ih fun j hj => h j (by simp [hj])).mono fun m hm => ?_).succ.succ
    intro b rest hr
    have hi := h i (by simp)
    have := hm (zt (identTok i.value) :: zt s :: b) rest hr
    simp [idTail, zx, listOfIdsSepF, listOfIdsF, hs, this, hi, string_ident hi, Ident.erase]

theorem parse_listOfIds {d : Dialect} (fns : FloatFns) {s : Tok} {k : Sym} (hs : fk s = .sym k) (i : Ident)
    (is : List Ident) (hi : identOK d i.value = true) (h : ∀ j ∈ is, identOK d j.value = true) :
    Ev fun m => Parses (parseListOfIds (Parsers.at fns m) k) (identTok i.value :: idTail s is)
      (i.erase :: is.map Ident.erase) (notSym k) := by
  refine ((parse_listOfIdsSep fns hs is h).mono fun m hm => ?_).succ
  intro b rest hr
  have := hm (zt (identTok i.value) :: b) rest hr
  simp [parseListOfIds, zx, listOfIdsF, this, string_ident hi, Ident.erase]

theorem parse_columnNames {d : Dialect} (fns : FloatFns) {cols : List Ident} (h : identsOK d cols = true) :
    Ev fun m => Parses (parseColumnNames (Parsers.at fns m)) (sg (identsT cols)) (cols.map Ident.erase)
      (notSym .Comma) := by
  obtain ⟨i, js, rfl, hi, hjs⟩ := identsOK_cons h
  rw [sg_identsT]
  exact parse_listOfIds fns fk_comma i js hi hjs

theorem parse_objectName {d : Dialect} (fns : FloatFns) {o : ObjectName} (h : o.wf d = true) :
    Ev fun m => Parses (parseObjectName (Parsers.at fns m)) (sg o.toks) o.erase (notSym .Period) := by
  obtain ⟨is⟩ := o
  obtain ⟨i, js, e, hi, hjs⟩ := identsOK_cons h
  simp only at e; subst e
  refine (parse_listOfIds fns fk_dot i js hi hjs).mono fun m hm => ?_
  intro b rest hr
  rw [show sg (ObjectName.toks ⟨i :: js⟩) = _ from sg_dottedT i js]
  simp only [parseObjectName, runZ_bindM, hm b rest hr, Res.bind_ok, runZ_pure]
  simp [ObjectName.erase]

/-! ### Data types -/

/-- What may follow a data type. -/
def folT : Fk → Bool
  | .eof => false
  | .odd => false
  | .sym .LParen => false
  | .sym .LBracket => false
  | .sym .Period => false
  | .kw .UNSIGNED => false
  | .kw .VARYING => false
  | .kw .WITH => false
  | .kw .WITHOUT => false
  | _ => true

theorem parse_precision {size : Option Nat} (h : sizeOptOK size = true) (C : Fk → Bool)
    (hC : ∀ f, C f = true → f ≠ .sym .LParen) :
    Parses parseOptionalPrecision (sg (sizeT size)) (size, Pos.zero) C := by
  intro b rest hr
  cases size with
  | none => simp [sizeT, zx, parseOptionalPrecision, hC _ hr]
  | some n =>
    have h' : sizeOK n = true := h
    simp [sizeT, zx, parseOptionalPrecision, h']

theorem parse_unsigned (u : Bool) (C : Fk → Bool)
    (hC : ∀ f, C f = true → f ≠ .kw .UNSIGNED ∧ f ≠ .odd) :
    Parses parseMyUnsigned (sg (unsignedT u)) (u, Pos.zero) C := by
  intro b rest hr
  cases u with
  | false => simp [unsignedT, zx, parseMyUnsigned, hC _ hr]
  | true => simp [unsignedT, zx, parseMyUnsigned]

theorem folT_facts {f : Fk} (h : folT f = true) : f ≠ .eof ∧ f ≠ .odd ∧ f ≠ .sym .LParen ∧ f ≠ .sym .LBracket ∧
    f ≠ .sym .Period ∧ f ≠ .kw .UNSIGNED ∧ f ≠ .kw .VARYING ∧ f ≠ .kw .WITH ∧ f ≠ .kw .WITHOUT := by
  refine ⟨?_, ?_, ?_, ?_, ?_, ?_, ?_, ?_, ?_⟩ <;> fol h

theorem parse_dataType {d : Dialect} (fns : FloatFns) {ty : DataType} (h : ty.wf d = true) :
    Ev fun m => Parses (parseDataType (Parsers.at fns m)) (sg ty.toks) ty.erase folT := by
  by_cases hc : ∃ o, ty = .custom o
  · obtain ⟨ty, rfl⟩ := hc
    simp only [DataType.wf, Bool.and_eq_true] at h
    obtain ⟨h, hn⟩ := h
    refine (parse_objectName fns h).mono fun m hm => ?_
    intro b rest hr
    have hp : notSym .Period (hd rest) = true := by
      simp only [notSym, decide_eq_true_eq]; fol hr
    have e := hm b rest hp
    obtain ⟨is⟩ := ty
    obtain ⟨i, js, e', hi, hjs⟩ := identsOK_cons h
    simp only at e'; subst e'
    simp only [DataType.toks, DataType.erase]
    rw [show sg (ObjectName.toks ⟨i :: js⟩) = _ from sg_dottedT i js] at e ⊢
    simp only [List.cons_append, Z_cons] at e ⊢
    have hn' : ∀ k, kwOf (identWord i.value).keyword = some k → k.beginsType = false := by
      intro k hk
      rw [identWord_keyword] at hk
      simpa [ObjectName.noType, hk] using hn
    simp only [parseDataType, zx]
    split <;> first
      | (have := hn' _ ‹_›; cases this)
      | simp [zx, e]
  · refine Ev.of fun m => ?_
    intro b rest hr
    obtain ⟨f1, f2, f3, f4, f5, f6, f7, f8, f9⟩ := folT_facts hr
    have hu : ∀ u b, parseMyUnsigned.runZ b (Z (sg (unsignedT u) ++ rest)) = .ok (u, Pos.zero) (R (sg (unsignedT u)) b, Z rest) :=
      fun u b => parse_unsigned u folT (fun f hf => ⟨(folT_facts hf).2.2.2.2.2.1, (folT_facts hf).2.1⟩) b rest hr
    have hp : ∀ size : Option Nat, sizeOptOK size = true → ∀ b, parseOptionalPrecision.runZ b (Z (sg (sizeT size) ++ rest)) =
        .ok (size, Pos.zero) (R (sg (sizeT size)) b, Z rest) :=
      fun size h b => parse_precision h folT (fun f hf => (folT_facts hf).2.2.1) b rest hr
    have hpu : ∀ size : Option Nat, sizeOptOK size = true → ∀ u b,
        parseOptionalPrecision.runZ b (Z (sg (sizeT size) ++ (sg (unsignedT u) ++ rest))) =
        .ok (size, Pos.zero) (R (sg (sizeT size)) b, Z (sg (unsignedT u) ++ rest)) := by
      intro size h u b
      apply parse_precision h (fun f => decide (f ≠ .sym .LParen)) (fun f hf => by simpa using hf)
      cases u <;> simp [unsignedT, zx, f3]
    have hv : ∀ size : Option Nat, hd (sg (sizeT size) ++ rest) ≠ .kw .VARYING ∧ hd (sg (sizeT size) ++ rest) ≠ .odd := by
      intro size; cases size <;> simp [sizeT, zx, f7, f2]
    cases ty with
    | custom o => exact absurd ⟨o, rfl⟩ hc
    | clob => simp [DataType.wf] at h
    | binary => simp [DataType.wf] at h
    | varbinary => simp [DataType.wf] at h
    | blob => simp [DataType.wf] at h
    | char size => simp [DataType.toks, DataType.erase, zx, parseDataType, parseDataType.parseChar, hp size h, hv]
    | varchar size => simp [DataType.toks, DataType.erase, zx, parseDataType, parseDataType.parseChar, hp size h, hv]
    | decimal p s f t u =>
      simp only [DataType.wf, Bool.and_eq_true] at h
      obtain ⟨⟨h1, h2⟩, h3⟩ := h
      cases p with
      | none => simp at h1
      | some p =>
        have h2' : sizeOK p = true := h2
        cases s with
        | none => simp [DataType.toks, DataType.erase, zx, parseDataType, parseOptionalPrecisionScale, h2', hu]
        | some s =>
          have h3' : sizeOK s = true := h3
          simp [DataType.toks, DataType.erase, zx, parseDataType, parseOptionalPrecisionScale, h2', h3', hu]
    | float size f t rp u =>
      simp [DataType.toks, DataType.erase, zx, parseDataType, hu, hpu size h]
    | bigInt f t u =>
      cases u with
      | true => simp [DataType.toks, DataType.erase, zx, parseDataType, unsignedT]
      | false =>
        cases rest with
        | nil => exact absurd rfl f1
        | cons t rest =>
          simp only [hd] at f2 f6
          simp [DataType.toks, DataType.erase, zx, parseDataType, unsignedT, f2, f6]
    | timestamp tz =>
      cases tz <;> simp [DataType.toks, DataType.erase, zx, parseDataType, parseDataType.parseTimeZone, f8, f9, f2]
    | array ty =>
      cases ty <;> simp [DataType.wf] at h
      simp [DataType.toks, DataType.erase, zx, parseDataType, f4]
    | _ => simp [DataType.toks, DataType.erase, zx, parseDataType, parseDataType.parseTimeZone, hu, f8, f9, f2, f4]

end Verif
