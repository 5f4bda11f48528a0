import Verif.Model.Ast
import Verif.Model.Kw
import Verif.Model.Token
/-
The words that statements begin with, for C75.
-/
namespace Verif.Spec
open Verif

/-- The kinds of statements. -/
inductive Form where
  | query | insert | update | delete | createView | createTable | createIndex | alterTable | dropTable | dropIndex
  deriving DecidableEq, Repr

/-- How many EXPLAINs stand before a statement, and of which kind it is (the parser has no syntax for COPY). -/
def _root_.Verif.Stmt.form : Stmt → Option (Nat × Form)
  | .query _ => some (0, .query)
  | .insert .. => some (0, .insert)
  | .update .. => some (0, .update)
  | .delete .. => some (0, .delete)
  | .createView .. => some (0, .createView)
  | .createTable .. => some (0, .createTable)
  | .createIndex .. => some (0, .createIndex)
  | .alterTable .. => some (0, .alterTable)
  | .dropTable .. => some (0, .dropTable)
  | .dropIndex .. => some (0, .dropIndex)
  | .explain s _ => s.form.map fun x => (x.1 + 1, x.2)
  | .copy .. => none

/-- What a statement begins with. -/
def beginnings : List (List KW × Form) := [
  ([.SELECT], .query),
  ([.WITH], .query),
  ([.INSERT, .INTO], .insert),
  ([.UPDATE], .update),
  ([.DELETE, .FROM], .delete),
  ([.CREATE, .VIEW], .createView),
  ([.CREATE, .MATERIALIZED, .VIEW], .createView),
  ([.CREATE, .TABLE], .createTable),
  ([.CREATE, .INDEX], .createIndex),
  ([.CREATE, .UNIQUE, .INDEX], .createIndex),
  ([.ALTER, .TABLE], .alterTable),
  ([.DROP, .TABLE], .dropTable),
  ([.DROP, .INDEX], .dropIndex)]

/-- The capital letter.  The dotless i, the long s and the Kelvin sign count as I, S and K. -/
def capital (c : Char) : Char := upperC (foldC c)

/-- The tokens begin with these keywords, in any case of letters. -/
def beginsWith : List KW → List Token → Bool
  | [], _ => true
  | _ :: _, [] => false
  | k :: ks, t :: ts =>
    match t.tok with
    | .word w => w.value.map capital == k.str && beginsWith ks ts
    | _ => false

/-- The tokens begin like a statement of this kind after this number of EXPLAINs. -/
def beginsAs (x : Nat × Form) (ts : List Token) : Prop :=
  ∃ ks, (ks, x.2) ∈ beginnings ∧ beginsWith (List.replicate x.1 .EXPLAIN ++ ks) ts = true

/-- The tokens are parts without a semicolon, each closed by one, and each part begins like its statement. -/
inductive PartsBegin : List Token → List Stmt → Prop
  | nil : PartsBegin [] []
  | cons {part rest : List Token} {sem : Token} {s : Stmt} {ss : List Stmt} {x : Nat × Form} :
      (∀ t ∈ part, ∀ text, t.tok ≠ .sym .Semicolon text) → (∃ text, sem.tok = .sym .Semicolon text) →
      s.form = some x → beginsAs x part → PartsBegin rest ss → PartsBegin (part ++ sem :: rest) (s :: ss)

end Verif.Spec
