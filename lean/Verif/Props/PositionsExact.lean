import Verif.Proofs.PositionsExact
import Verif.Props.Tokenizer
/-
Property theorems C04, exact part: what the positions of the tokens are for every text, and when exactly the
line numbers are those of the source.
-/
namespace Verif
open Spec

/-- C04, exactly: the tokens spell the source, and each token starts and ends where `tokenEnd` says, one after the
other from line 1, column 1.  No condition on the text. -/
theorem C04_exact {d : Dialect} {fuel : Nat} {src : Str} {ts : List Token} (h : tokenize d true fuel src = .ok ts) :
    ∃ tps : List (Token × Str), ts = tps.map (·.1) ∧ src = tps.flatMap (·.2) ∧
      (∀ x ∈ tps, Spells d x.1.tok x.2) ∧
      ∀ a x b, tps = a ++ x :: b →
        x.1.from_ = a.foldl (fun p y => tokenEnd y.1.tok y.2 p) ⟨1, 1⟩ ∧
        x.1.to_ = tokenEnd x.1.tok x.2 x.1.from_ := by
  obtain ⟨all, s', h1, h2, rfl⟩ := tokenize_ok_inv h
  obtain ⟨tps, i1, i2, i3, i4, -⟩ := h1.exact
  exact ⟨tps, by simp [i1], by simpa [h2] using i2, i3, i4⟩

/-- C04, exactly: when every CR is followed by LF, the line of a token is one plus the number of line breaks before it
if and only if no token before it, other than white space and comments, contains a line break. -/
theorem C04_lines_iff {d : Dialect} {fuel : Nat} {src : Str} {ts : List Token}
    (h : tokenize d true fuel src = .ok ts) (hcr : CrLf src) :
    ∃ tps : List (Token × Str), ts = tps.map (·.1) ∧ src = tps.flatMap (·.2) ∧
      (∀ x ∈ tps, Spells d x.1.tok x.2) ∧
      ∀ a x b, tps = a ++ x :: b → (x.1.from_.line = 1 + (a.flatMap (·.2)).count '\n' ↔
        ∀ y ∈ a, IsTrivia y.1.tok ∨ '\n' ∉ y.2) := by
  obtain ⟨all, s', h1, h2, rfl⟩ := tokenize_ok_inv h
  obtain ⟨tps, i1, i2, i3, -, i5⟩ := h1.exact
  refine ⟨tps, by simp [i1], by simpa [h2] using i2, i3, fun a x b hab => ?_⟩
  rw [i5 hcr a x b hab, ← counted_sum_iff]
  exact Nat.add_left_cancel_iff

/-- Hypotheses met, by a text with a line break in a literal, CR LF, a tab, a block comment over two lines, a string
with a doubled quote and a letter of two bytes. -/
def posText : Str := str% "'a\nb'\r\n\t/*\r\n*/'''é' c"
example : (∃ ts, tokenize genericDialect true 40 posText = .ok ts) ∧ CrLf posText := by
  refine ⟨⟨[⟨.single (str% "a\nb"), ⟨1, 1⟩, ⟨1, 6⟩⟩, ⟨.whitespace ['\n'], ⟨1, 6⟩, ⟨2, 1⟩⟩,
    ⟨.whitespace ['\t'], ⟨2, 1⟩, ⟨2, 5⟩⟩, ⟨.comment ['\r'], ⟨2, 5⟩, ⟨3, 3⟩⟩, ⟨.single (str% "'é"), ⟨3, 3⟩, ⟨3, 8⟩⟩,
    ⟨.whitespace [' '], ⟨3, 8⟩, ⟨3, 9⟩⟩, ⟨.word ⟨['c'], none, ['C']⟩, ⟨3, 9⟩, ⟨3, 10⟩⟩], by decide +kernel⟩, ?_⟩
  intro u v h
  have key : ∀ (u : Str) (n : Nat), n = u.length → posText = u ++ '\r' :: v → v.head? = some '\n' := by
    intro u n hn hu
    have h1 : posText.drop n = '\r' :: v := by rw [hu, hn]; simp
    have hlt : n < posText.length := by rw [hu, hn]; simp
    have hall : ∀ m < posText.length, (posText.drop m).head? = some '\r' → (posText.drop m).tail.head? = some '\n' := by
      decide +kernel
    have := hall n hlt (by rw [h1]; rfl)
    rwa [h1] at this
  exact key u _ rfl h

end Verif
