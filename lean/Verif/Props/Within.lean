import Verif.Proofs.WithinPos
import Verif.Props.Grammar
import Verif.Props.NodePosStmt
/-
Property theorems C53: every node of the tree, however deep, has its own part of the input; and C45 for all these nodes.
-/
set_option maxRecDepth 100000
namespace Verif
open Spec

theorem has_script {fns : FloatFns} {q : Quirks} {ss : List Stmt} {s : Stmt} (h : s ∈ ss) :
    Has (s.lang fns q) (scriptLang fns q ss) :=
  Has.right ((Has.left (c := sym .Semicolon) Has.refl).trans
    (Has.concat (List.mem_map_of_mem (f := fun s : Stmt => s.lang fns q ⬝ sym .Semicolon) h)))

/-- C53: each node inside a statement that `ParseSQL` returns has a part of the input that is a sentence for it. -/
theorem C53_parts (fns : FloatFns) (n : Nat) (mode : Bool) (toks : List Token) (hk : KwOK toks) (ss : List Stmt)
    (h : runSQL fns n mode toks = .ok ss ()) (s : Stmt) (hs : s ∈ ss) (c : Piece) (hc : Within c (.stmt s)) :
    ∃ before part after, significant toks = before ++ part ++ after ∧ c.lang fns ⟨true, false, true⟩ part :=
  (within_has hc).trans (has_script hs) _ (C50_script_grammar fns n mode toks hk ss h)

/-- C53, the parts are nested as the nodes are: the part of a node below another can be found inside any part for the
other. -/
theorem C53_nested (fns : FloatFns) (q : Quirks) (c n : Piece) (hc : Within c n) (part : List Token)
    (hn : n.lang fns q part) : ∃ before inner after, part = before ++ inner ++ after ∧ c.lang fns q inner :=
  within_has hc part hn

/-- C53 for an identifier: it is a word of the input, with the same text and place. -/
theorem C53_identifier (fns : FloatFns) (n : Nat) (mode : Bool) (toks : List Token) (hk : KwOK toks) (ss : List Stmt)
    (h : runSQL fns n mode toks = .ok ss ()) (s : Stmt) (hs : s ∈ ss) (i : Ident) (hi : Within (.ident i) (.stmt s)) :
    ∃ w, ⟨.word w, i.from_, i.to_⟩ ∈ toks ∧ w.string = i.value := by
  obtain ⟨a, b, c, h1, ⟨tok, f, t⟩, w, rfl, h2, h3, h4, h5, -⟩ := C53_parts fns n mode toks hk ss h s hs _ hi
  simp only at h2 h4 h5
  subst h2 h4 h5
  refine ⟨w, (List.mem_filter.1 (?_ : _ ∈ significant toks)).1, h3⟩
  rw [h1]
  simp

/-- C53 for a string: it is a string of the input, with the same text and place. -/
theorem C53_string (fns : FloatFns) (n : Nat) (mode : Bool) (toks : List Token) (hk : KwOK toks) (ss : List Stmt)
    (h : runSQL fns n mode toks = .ok ss ()) (s : Stmt) (hs : s ∈ ss) (f t : Pos) (v : Str)
    (hi : Within (.expr (.singleQuoted f t v)) (.stmt s)) : ⟨.single v, f, t⟩ ∈ toks := by
  obtain ⟨a, b, c, h1, h2⟩ := C53_parts fns n mode toks hk ss h s hs _ hi
  rw [show Piece.lang fns ⟨true, false, true⟩ (.expr _) = Expr.lang fns ⟨true, false, true⟩ _ from rfl, Expr.lang] at h2
  obtain ⟨⟨⟨⟨tok, f', t'⟩, rfl, h2⟩, us, u, h3, h4⟩, u', us', h5, h6⟩ := h2
  cases h5
  obtain ⟨rfl, h8⟩ : us = [] ∧ u = ⟨tok, f', t'⟩ := by
    cases us with
    | nil => exact ⟨rfl, (List.singleton_inj.1 h3).symm⟩
    | cons x xs => simp at h3
  subst h8
  simp only at h2 h4 h6
  subst h2 h4 h6
  refine (List.mem_filter.1 (?_ : _ ∈ significant toks)).1
  rw [h1]
  simp

/-- C53 for an integer: a number of the input stands at its place and denotes it, unless it is too big or no decimal
number. -/
theorem C53_integer (fns : FloatFns) (n : Nat) (mode : Bool) (toks : List Token) (hk : KwOK toks) (ss : List Stmt)
    (h : runSQL fns n mode toks = .ok ss ()) (s : Stmt) (hs : s ∈ ss) (v : LongValue)
    (hi : Within (.expr (.long v)) (.stmt s)) :
    ∃ w, ⟨.number w, v.from_, v.to_⟩ ∈ toks ∧
      ((∃ n, Denotes w n ∧ v.long = min n (2 ^ 63 - 1)) ∨ ((∀ n, ¬ Denotes w n) ∧ v.long = 0)) := by
  obtain ⟨a, b, c, h1, h2⟩ := C53_parts fns n mode toks hk ss h s hs _ hi
  rw [show Piece.lang fns ⟨true, false, true⟩ (.expr _) = Expr.lang fns ⟨true, false, true⟩ _ from rfl, Expr.lang] at h2
  obtain ⟨⟨⟨⟨tok, f', t'⟩, w, rfl, h2, -, h7⟩, us, u, h3, h4⟩, u', us', h5, h6⟩ := h2
  cases h5
  obtain ⟨rfl, h8⟩ : us = [] ∧ u = ⟨tok, f', t'⟩ := by
    cases us with
    | nil => exact ⟨rfl, (List.singleton_inj.1 h3).symm⟩
    | cons x xs => simp at h3
  subst h8
  simp only at h2 h4 h6
  subst h2 h4 h6
  refine ⟨w, (List.mem_filter.1 (?_ : _ ∈ significant toks)).1, h7⟩
  rw [h1]
  simp

/-- C45, part, for all nodes below a statement: `Pos` is the beginning of the part of the node, `End` its end, with the
exceptions in `Piece.leftOk`, `Piece.rightOk` and after a lost `(` or AS.  Missing: `Pos` and `End` in the exceptional
cases. -/
theorem C45_nodes_partial (fns : FloatFns) (n : Nat) (mode : Bool) (toks : List Token) (hk : KwOK toks)
    (hst : StarsOk toks) (ss : List Stmt) (h : runSQL fns n mode toks = .ok ss ()) (s : Stmt) (hs : s ∈ ss) (c : Piece)
    (hc : Within c (.stmt s)) :
    ∃ before part after, significant toks = before ++ part ++ after ∧ c.lang fns ⟨true, false, true⟩ part ∧
      (c.leftOk = true → ∃ t us, part = t :: us ∧ c.pos = some t.from_) ∧
      (c.rightOk = true → ∃ us t, part = us ++ [t] ∧ (t.dangling = false → c.end_ = some t.to_)) := by
  obtain ⟨x, y, z, h1, h2⟩ := C53_parts fns n mode toks hk ss h s hs c hc
  refine ⟨x, y, z, h1, h2, fun hl => node_starts c hl y h2, fun hr => ?_⟩
  have hy : StarsOk y := fun t ht => hst t (List.mem_filter.1 (by
    have : t ∈ significant toks := by rw [h1]; simp [ht]
    exact this)).1
  obtain ⟨us, t, h3, h4⟩ := node_ends c hr y hy h2
  exact ⟨us, t, h3, fun hd => h4 fun _ => hd⟩

/-- C45 for the key of FOREIGN KEY, which is not a node of its own here: it begins with the name of the table and ends
with the closing parenthesis, at the end of the constraint. -/
theorem C45_reference_key (fns : FloatFns) (n : Nat) (mode : Bool) (toks : List Token) (hk : KwOK toks) (ss : List Stmt)
    (h : runSQL fns n mode toks = .ok ss ()) (s : Stmt) (hs : s ∈ ss) (p : Pos) (is : List Ident) (key : ReferenceKeyExpr)
    (hc : Within (.constraintSpec (.referential p is key)) (.stmt s)) :
    ∃ before xs name ys last after, significant toks = before ++ (xs ++ name :: ys ++ [last]) ++ after ∧
      key.pos = name.from_ ∧ name.to_ = key.tableName.to_ ∧ key.end_ = last.to_ ∧ last.isSym .RParen = true := by
  obtain ⟨x, y, z, h1, h2⟩ := C53_parts fns n mode toks hk ss h s hs _ hc
  obtain ⟨a1, _, rfl, _, a2, _, rfl, _, a3, _, rfl, _, a4, _, rfl, _, _, _, rfl, ⟨name, w, rfl, -, -, h3, h4, -⟩,
    a5, _, rfl, ⟨lp, _, rfl, -⟩, a6, _, rfl, _, ⟨last, t, rfl, h5⟩, us, u, h6, h7⟩ := h2
  have : us = [] ∧ u = last := by
    cases us with
    | nil => exact ⟨rfl, (List.singleton_inj.1 h6).symm⟩
    | cons x xs => simp at h6
  obtain ⟨rfl, rfl⟩ := this
  refine ⟨x, a1 ++ a2 ++ a3 ++ a4, name, lp :: a6, u, z, by rw [h1]; simp, h3.symm, h4, h7.symm, ?_⟩
  simp [Token.isSym, h5]

/-! ### Hypotheses met -/

/-- The tree of a text with one statement. -/
def oneStmt (fns : FloatFns) (src : Str) : Option (List Token × List Stmt) :=
  readAs (fun n => runSQL fns n false) src

/-- The statement is `SELECT` with one item, which is `left op right`; the right side. -/
def rightOf : List Stmt → Option Expr
  | [.query (.mk _ _ (.select (.mk _ [.unnamed (.binary _ _ r)] _ _ _ _ _)) _ _)] => some r
  | _ => none

theorem within_right {ss : List Stmt} {r : Expr} (h : rightOf ss = some r) :
    ∃ s, s ∈ ss ∧ Within (.expr r) (.stmt s) := by
  unfold rightOf at h
  split at h
  · cases h
    exact ⟨_, List.mem_cons_self, .step .binaryRight (.step .itemUnnamed (.step (.projection List.mem_cons_self) (.step .bodySelect
      (.step .queryBody (.step .stmtQuery .refl)))))⟩
  · cases h

/-- An identifier, a string and a number inside a query. -/
theorem rightOf_some {fns : FloatFns} {src : Str} {e : Expr}
    (h : ((oneStmt fns src).bind fun x => rightOf x.2) = some e) :
    ∃ toks ss s, KwOK toks ∧ StarsOk toks ∧ runSQL fns (3 * toks.length + 3) false toks = .ok ss () ∧ s ∈ ss ∧
      Within (.expr e) (.stmt s) := by
  unfold oneStmt readAs at h
  split at h
  · rename_i toks ht
    split at h
    · rename_i x _ hx
      obtain ⟨s, h1, h2⟩ := within_right h
      exact ⟨toks, x, s, (C45_source ht).1, (C45_source ht).2, hx, h1, h2⟩
    · cases h
  · cases h

example (fns : FloatFns) : ∃ toks ss s, KwOK toks ∧ StarsOk toks ∧
    runSQL fns (3 * toks.length + 3) false toks = .ok ss () ∧ s ∈ ss ∧
    Within (.ident ⟨str% "b", ⟨1, 12⟩, ⟨1, 13⟩⟩) (.stmt s) := by
  obtain ⟨toks, ss, s, h1, h2, h3, h4, h5⟩ := rightOf_some (fns := fns) (src := str% "SELECT a + b;")
    (e := .ident ⟨str% "b", ⟨1, 12⟩, ⟨1, 13⟩⟩) (by kernel_rfl)
  exact ⟨toks, ss, s, h1, h2, h3, h4, .step .ident h5⟩

example (fns : FloatFns) : ∃ toks ss s, KwOK toks ∧ StarsOk toks ∧
    runSQL fns (3 * toks.length + 3) false toks = .ok ss () ∧ s ∈ ss ∧
    Within (.expr (.singleQuoted ⟨1, 12⟩ ⟨1, 17⟩ (str% "b c"))) (.stmt s) :=
  rightOf_some (src := str% "SELECT a = 'b c';") (by kernel_rfl)

example (fns : FloatFns) : ∃ toks ss s, KwOK toks ∧ StarsOk toks ∧
    runSQL fns (3 * toks.length + 3) false toks = .ok ss () ∧ s ∈ ss ∧
    Within (.expr (.long ⟨⟨1, 12⟩, ⟨1, 14⟩, 42⟩)) (.stmt s) :=
  rightOf_some (src := str% "SELECT a = 42;") (by kernel_rfl)

/-- A node with a right `Pos` and a right `End`. -/
example : (Piece.expr (.long ⟨⟨1, 12⟩, ⟨1, 14⟩, 42⟩)).leftOk = true ∧ (Piece.expr (.long ⟨⟨1, 12⟩, ⟨1, 14⟩, 42⟩)).rightOk = true :=
  ⟨rfl, rfl⟩

/-- The key of the constraint that an ALTER TABLE adds. -/
def keyOf : List Stmt → Option ReferenceKeyExpr
  | [.alterTable _ _ (.addConstraint _ ⟨_, _, .referential _ _ key⟩)] => some key
  | _ => none

example (fns : FloatFns) : ∃ toks ss s p is key, KwOK toks ∧ runSQL fns (3 * toks.length + 3) false toks = .ok ss () ∧
    s ∈ ss ∧ Within (.constraintSpec (.referential p is key)) (.stmt s) ∧ key.pos = ⟨1, 59⟩ ∧ key.end_ = ⟨1, 64⟩ := by
  have h : ((oneStmt fns (str% "ALTER TABLE t ADD CONSTRAINT c FOREIGN KEY (a) REFERENCES u (b);")).bind fun x => keyOf x.2).map
      (fun k => (k.pos, k.end_)) = some (⟨1, 59⟩, ⟨1, 64⟩) := by kernel_rfl
  obtain ⟨key, h, hk⟩ := Option.map_eq_some_iff.1 h
  obtain ⟨h3, h4⟩ := Prod.mk.inj hk
  unfold oneStmt readAs at h
  split at h
  · rename_i toks ht
    split at h
    · rename_i ss _ hx
      simp only [Option.bind_some] at h
      unfold keyOf at h
      split at h
      · cases h
        exact ⟨toks, _, _, _, _, key, (C45_source ht).1, hx, List.mem_cons_self,
          .step (.constraintSpec (c := ⟨_, _, _⟩)) (.step .addConstraint (.step .alterAction .refl)), h3, h4⟩
      · cases h
    · cases h
  · cases h

end Verif
