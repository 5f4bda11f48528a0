import Verif.Model.Token
import Verif.Model.Dialect
/-
The words of a dialect, for C68.
-/
namespace Verif.Spec
open Verif

/-- The word can be written in the dialect: without quotes it begins with a character that begins identifiers and
goes on with characters of identifiers; with quotes, the quote is one of the dialect. -/
def WordOf (d : Dialect) (w : SQLWord) : Prop :=
  match w.quote with
  | none => ∃ c cs, w.value = c :: cs ∧ d.isIdentStart c = true ∧ ∀ x ∈ cs, d.isIdentPart x = true
  | some q => d.isDelimStart q = true

/-- All words of a list of tokens can be written in the dialect. -/
def WordsOf (d : Dialect) (toks : List Token) : Prop := ∀ t ∈ toks, ∀ w, t.tok = .word w → WordOf d w

end Verif.Spec
