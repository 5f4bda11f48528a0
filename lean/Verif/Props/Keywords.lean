import Verif.Proofs.RenameWf
import Verif.Props.Survive
/-
Property theorems C64: which keywords may serve as names.  Of the 111 keywords of the parser, 18 (`KW.hard`) are
taken for something else where a name may stand, and 19 more (`KW.beginsType`) may not be the name of a type; giving
any of the others as a new name to something never keeps a statement from being printed and read back.
-/
set_option maxRecDepth 100000
namespace Verif
open Spec

/-- The name `x` becomes the keyword, everything else stays. -/
def Renaming.toKeyword (x : Str) (k : KW) : Renaming := ⟨fun v => if v = x then k.str else v, fun s => s⟩

/-- The text of the statement is not read as a statement with the same text, within the budget that suffices. -/
def kwLost (d : Dialect) (fns : FloatFns) (mode : Bool) (s : Stmt) : Bool :=
  match tokenize d true ((Node.toSQLString fns (.stmt s)).length + 2) (Node.toSQLString fns (.stmt s) ++ str% ";") with
  | .ok toks =>
    match runStatement fns (3 * toks.length + 3) mode toks with
    | .err => true
    | .panic => true
    | .oof => false
    | .ok s' _ => Node.toSQLString fns (.stmt s') != Node.toSQLString fns (.stmt s)
  | _ => false

/-- A statement that is lost within one budget is lost within all. -/
theorem not_canRead_of_lost {d : Dialect} {fns : FloatFns} {mode : Bool} {s : Stmt} (h : kwLost d fns mode s = true) :
    ¬ CanRead d (Node.toSQLString fns (.stmt s) ++ str% ";") (fun n => runStatement fns n mode)
      fun s' => s'.erase = s.erase := by
  rintro ⟨fuel, toks, n, x, ht', hx, he⟩
  simp only at hx
  have hs := (C48_text_ignores_positions fns).2.2.2 _ _ he
  unfold kwLost at h
  split at h
  · rename_i toks' ht
    have := C05_fuel_irrelevant (d := d) (keep := true) (fuel := fuel)
      (fuel' := (Node.toSQLString fns (.stmt s)).length + 2) (src := Node.toSQLString fns (.stmt s) ++ str% ";")
      (by rw [ht']; simp) (by rw [ht]; simp)
    rw [ht', ht] at this
    cases this
    have hk := tokenizeFrom_kwOK ht
    have h1 := (budget_le fns mode toks hk (Nat.le_refl _) (Nat.le_max_left _ n)).1
    have h2 := outcome_le (at_mono fns (Nat.le_max_right (3 * toks.length + 3) n)).statement mode (newParser toks)
      (fun ho => by
        have : runStatement fns n mode toks = .oof := by
          show Res.outcome _ = _
          rw [ho]; rfl
        rw [this] at hx; cases hx)
    have h3 : runStatement fns n mode toks = runStatement fns (max (3 * toks.length + 3) n) mode toks := h2
    rw [← h1] at h3
    rw [h3] at hx
    rw [hx] at h
    simp [hs] at h
  · cases h

namespace Sample

/-- A statement with a name `x` in it, where the parser looks for the keyword. -/
def witness : KW → Stmt
  | .CONSTRAINT | .PRIMARY | .CHECK | .FOREIGN | .UNIQUE =>
    .createTable p (nm (str% "t")) [.column ⟨id (str% "x"), .int p p false p, none, [], []⟩] false []
  | .LATERAL =>
    .query (.mk p [] (.select (.mk false [.unnamed (.wildcard p)]
      [.factor (.table (nm (str% "x")) none [] p [] p)] none [] none p)) [] none)
  | .SELECT | .WITH =>
    .query (.mk p [] (.select (.mk false [.unnamed (.nested (v (str% "x")) p p)] [] none [] none p)) [] none)
  | .ON => .createIndex p (nm (str% "t")) false (some (id (str% "x"))) none [id (str% "a")] p none
  | .WHEN =>
    .query (.mk p [] (.select (.mk false [.unnamed (.caseExpr p p (some (v (str% "x"))) [n 1] [n 2] none)]
      [] none [] none p)) [] none)
  | .TRUE | .FALSE | .NULL | .CASE | .CAST | .EXISTS | .NOT | .DISTINCT =>
    .query (.mk p [] (.select (.mk false [.unnamed (.compoundIdent [id (str% "x"), id (str% "a")])] [] none [] none p)) [] none)
  | _ =>
    .createTable p (nm (str% "t"))
      [.column ⟨id (str% "a"), .custom ⟨[id (str% "x"), id (str% "b")]⟩, none, [], []⟩] false []

end Sample

/-- The witness is well-formed and, with the keyword for `x`, lost. -/
def kwWitnessed (d : Dialect) (fns : FloatFns) (mode : Bool) (k : KW) : Bool :=
  (Sample.witness k).wf d fns && kwLost d fns mode ((Sample.witness k).rename (.toKeyword (str% "x") k))

theorem kwWitnessed_all {d : Dialect} (hd : BuiltIn d) (fns : FloatFns) (mode : Bool) :
    (KW.all.all fun k => !(k.hard || k.beginsType) || kwWitnessed d fns mode k) = true := by
  rcases hd with rfl | rfl | rfl <;> cases mode <;> kernel_rfl

theorem kw_identOK {d : Dialect} (hd : BuiltIn d) :
    (KW.all.all fun k => identOK d k.str == !k.hard && (identKW k.str == some k)) = true := by
  rcases hd with rfl | rfl | rfl <;> decide +kernel

/-- C64: a keyword counts as a name, for the round-trip theorems C23 to C27 and C57, unless it is one of the 18. -/
theorem C64_names {d : Dialect} (hd : BuiltIn d) (k : KW) : identOK d k.str = true ↔ k.hard = false := by
  have := List.all_eq_true.1 (kw_identOK hd) k (KW.mem_all k)
  simp only [Bool.and_eq_true, beq_iff_eq] at this
  rw [this.1]; simp

theorem toKeyword_keeps {d : Dialect} (hd : BuiltIn d) (x : Str) {k : KW} (h : k.hard = false)
    (ht : k.beginsType = false) : (Renaming.toKeyword x k).Keeps d where
  ident v hv := by
    show identOK d (if v = x then k.str else v) = true
    split
    · exact (C64_names hd k).2 h
    · exact hv
  type v _ hv := by
    show ((identKW (if v = x then k.str else v)).all fun k => !k.beginsType) = true
    split
    · have := List.all_eq_true.1 (kw_identOK hd) k (KW.mem_all k)
      simp only [Bool.and_eq_true, beq_iff_eq] at this
      rw [this.2]; simp [ht]
    · exact hv
  text s hs := hs

/-- C64: a keyword may be given as a new name to anything in any well-formed statement, which is then still printed
to a text that is read back as the statement, exactly if it is none of the 18 and is not the beginning of a type. -/
theorem C64_keyword_as_name {d : Dialect} (hd : BuiltIn d) (fns : FloatFns) (mode : Bool) (k : KW) :
    (∀ (x : Str) (s : Stmt), s.wf d fns = true →
      Reads d (Node.toSQLString fns (.stmt (s.rename (.toKeyword x k))) ++ str% ";") (fun n => runStatement fns n mode)
        fun s' => s'.erase = (s.rename (.toKeyword x k)).erase) ↔
      k.hard = false ∧ k.beginsType = false := by
  constructor
  · intro h
    have hw := List.all_eq_true.1 (kwWitnessed_all hd fns mode) k (KW.mem_all k)
    rw [Bool.or_eq_true, Bool.not_eq_true', Bool.or_eq_false_iff] at hw
    rcases hw with hw | hw
    · exact hw
    · simp only [kwWitnessed, Bool.and_eq_true] at hw
      exact absurd (h (str% "x") _ hw.1).can (not_canRead_of_lost hw.2)
  · rintro ⟨h1, h2⟩ x s hs
    exact stmt_reads hd fns mode (Stmt.wf_rename (toKeyword_keeps hd x h1 h2) s hs)

/-- C64 for the others: there is a statement that is read back, but with the keyword for one of its names is not. -/
theorem C64_keyword_not_a_name {d : Dialect} (hd : BuiltIn d) (fns : FloatFns) (mode : Bool) {k : KW}
    (hk : k.hard = true ∨ k.beginsType = true) : ∃ (x : Str) (s : Stmt),
    Reads d (Node.toSQLString fns (.stmt s) ++ str% ";") (fun n => runStatement fns n mode)
      (fun s' => s'.erase = s.erase) ∧
    ¬ CanRead d (Node.toSQLString fns (.stmt (s.rename (.toKeyword x k))) ++ str% ";")
      (fun n => runStatement fns n mode) fun s' => s'.erase = (s.rename (.toKeyword x k)).erase := by
  have hw := List.all_eq_true.1 (kwWitnessed_all hd fns mode) k (KW.mem_all k)
  rw [Bool.or_eq_true, Bool.not_eq_true', Bool.or_eq_false_iff] at hw
  rcases hw with hw | hw
  · rcases hk with h | h <;> simp_all
  · simp only [kwWitnessed, Bool.and_eq_true] at hw
    exact ⟨str% "x", _, stmt_reads hd fns mode hw.1, not_canRead_of_lost hw.2⟩

/-- Hypotheses met: `key` and `from` may be names, `SELECT from.a AS group FROM table` is read back; SELECT is among
the 18 and DATE begins a type; there are 111 keywords, 18 and 19 of which are of the two kinds, and none of both. -/
example (fns : FloatFns) :
    KW.hard .KEY = false ∧ KW.hard .FROM = false ∧ KW.beginsType .FROM = false ∧ KW.hard .SELECT = true ∧
    KW.beginsType .DATE = true ∧
    Stmt.wf genericDialect fns (.query (.mk Pos.zero [] (.select (.mk false
      [.alias (.compoundIdent [Sample.id (str% "from"), Sample.id (str% "a")]) (Sample.id (str% "group"))]
      [.factor (.table (Sample.nm (str% "TABLE")) none [] Pos.zero [] Pos.zero)] none [] none Pos.zero)) [] none)) = true ∧
    KW.all.length = 111 ∧ (KW.all.filter KW.hard).length = 18 ∧ (KW.all.filter KW.beginsType).length = 19 ∧
    (KW.all.filter fun k => k.hard && k.beginsType) = [] := by
  refine ⟨rfl, rfl, rfl, rfl, rfl, ?_, ?_, ?_, ?_, ?_⟩
  · kernel_rfl
  all_goals decide +kernel

end Verif
