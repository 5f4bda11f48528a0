import Verif.Model.KindString
import Verif.Proofs.ParseBase
import Verif.Proofs.PrintSep
/-
Property theorem C70: `Kind.String` and `Pos.String` (sqltoken/kind_string.go:49-54, tokenizer.go:99-101).
-/
set_option maxRecDepth 100000
namespace Verif
open Spec

/-- The name of a constant in the Go source (kind.go:6-71). -/
def TokenKind.name : TokenKind → Str
  | .SQLKeyword => str% "SQLKeyword" | .Number => str% "Number" | .Char => str% "Char"
  | .SingleQuotedString => str% "SingleQuotedString" | .NationalStringLiteral => str% "NationalStringLiteral"
  | .Comma => str% "Comma" | .Whitespace => str% "Whitespace" | .Comment => str% "Comment" | .Eq => str% "Eq"
  | .Neq => str% "Neq" | .Lt => str% "Lt" | .Gt => str% "Gt" | .LtEq => str% "LtEq" | .GtEq => str% "GtEq"
  | .Plus => str% "Plus" | .Minus => str% "Minus" | .Mult => str% "Mult" | .Div => str% "Div" | .Mod => str% "Mod"
  | .LParen => str% "LParen" | .RParen => str% "RParen" | .Period => str% "Period" | .Colon => str% "Colon"
  | .DoubleColon => str% "DoubleColon" | .Semicolon => str% "Semicolon" | .Backslash => str% "Backslash"
  | .LBracket => str% "LBracket" | .RBracket => str% "RBracket" | .Ampersand => str% "Ampersand"
  | .LBrace => str% "LBrace" | .RBrace => str% "RBrace" | .ILLEGAL => str% "ILLEGAL"

/-! ### Decimal numbers -/

theorem natStr_inj {a b : Nat} (h : natStr a = natStr b) : a = b := by
  have h1 := natStr_denotes a
  rw [h, natStr_denotes b] at h1
  exact (Option.some.inj h1).symm

theorem dash_not_mem_natStr (n : Nat) : '-' ∉ natStr n := by
  intro h
  have := natStr_all n _ h
  revert this
  decide

theorem intStr_inj {a b : Int} (h : intStr a = intStr b) : a = b := by
  cases a with
  | ofNat m =>
    cases b with
    | ofNat n => exact congrArg Int.ofNat (natStr_inj h)
    | negSucc n =>
      exfalso
      apply dash_not_mem_natStr m
      have h : natStr m = '-' :: natStr (n + 1) := h
      rw [h]; simp
  | negSucc m =>
    cases b with
    | ofNat n =>
      exfalso
      apply dash_not_mem_natStr n
      have h : '-' :: natStr (m + 1) = natStr n := h
      rw [← h]; simp
    | negSucc n =>
      have h : '-' :: natStr (m + 1) = '-' :: natStr (n + 1) := h
      have := natStr_inj (List.cons.inj h).2
      congr 1
      omega

theorem intStr_chars (i : Int) : ∀ c ∈ intStr i, c = '-' ∨ isDigit c = true := by
  intro c hc
  cases i with
  | ofNat n => exact .inr (natStr_all n c hc)
  | negSucc n =>
    rcases List.mem_cons.mp hc with rfl | hc
    · exact .inl rfl
    · exact .inr (natStr_all _ c hc)

/-- A text up to the first character that is not in it. -/
theorem append_sep_inj {a b : Str} {c : Char} {x y : Str} (ha : c ∉ a) (hb : c ∉ b)
    (h : a ++ c :: x = b ++ c :: y) : a = b ∧ x = y := by
  induction a generalizing b with
  | nil =>
    cases b with
    | nil => exact ⟨rfl, (List.cons.inj h).2⟩
    | cons d b =>
      exfalso
      have := (List.cons.inj h).1
      exact hb (by rw [← this]; simp)
  | cons d a ih =>
    cases b with
    | nil =>
      exfalso
      have := (List.cons.inj h).1
      exact ha (by rw [← this]; simp)
    | cons e b =>
      obtain ⟨h1, h2⟩ := List.cons.inj h
      obtain ⟨h3, h4⟩ := ih (fun hm => ha (List.mem_cons_of_mem _ hm)) (fun hm => hb (List.mem_cons_of_mem _ hm)) h2
      exact ⟨by rw [h1, h3], h4⟩

theorem intStr_not_mem {c : Char} (h1 : c ≠ '-') (h2 : isDigit c = false) (i : Int) : c ∉ intStr i := by
  intro h
  rcases intStr_chars i c h with h3 | h3
  · exact h1 h3
  · rw [h2] at h3; cases h3

/-! ### Kinds -/

/-- The constants are numbered from 0 to 31 without a gap. -/
theorem TokenKind.value_range (i : Int) : (∃ k : TokenKind, k.value = i) ↔ 0 ≤ i ∧ i < 32 := by
  constructor
  · rintro ⟨k, rfl⟩
    cases k <;> decide
  · rintro ⟨h1, h2⟩
    obtain ⟨n, rfl⟩ := Int.eq_ofNat_of_zero_le h1
    have hn : n < 32 := by omega
    have : ∀ n : Fin 32, ∃ k : TokenKind, k.value = ((n : Nat) : Int) := by
      have h : ∀ n : Fin 32, ([TokenKind.SQLKeyword, .Number, .Char, .SingleQuotedString, .NationalStringLiteral, .Comma,
          .Whitespace, .Comment, .Eq, .Neq, .Lt, .Gt, .LtEq, .GtEq, .Plus, .Minus, .Mult, .Div, .Mod, .LParen,
          .RParen, .Period, .Colon, .DoubleColon, .Semicolon, .Backslash, .LBracket, .RBracket, .Ampersand, .LBrace,
          .RBrace, .ILLEGAL] : List TokenKind).any (fun k => decide (k.value = ((n : Nat) : Int))) = true := by
        decide
      intro n
      obtain ⟨k, -, hk⟩ := List.any_eq_true.mp (h n)
      exact ⟨k, of_decide_eq_true hk⟩
    exact this ⟨n, hn⟩

/-- The constants are distinct numbers. -/
theorem TokenKind.value_inj {k l : TokenKind} (h : k.value = l.value) : k = l := by
  cases k <;> cases l <;> first | rfl | (exfalso; revert h; decide)

theorem kindString_const (k : TokenKind) : kindString k.value = some k.name := by
  cases k <;> decide +kernel

theorem kindString_other {i : Int} (h : ∀ k : TokenKind, k.value ≠ i) :
    kindString i = some (str% "Kind(" ++ intStr i ++ str% ")") := by
  have : ¬ (0 ≤ i ∧ i < 32) := by
    rw [← TokenKind.value_range]
    rintro ⟨k, hk⟩
    exact h k hk
  unfold kindString
  rw [if_pos]
  have h33 : (kindIndex.length : Int) - 1 = 32 := by decide
  rw [h33]
  omega

theorem TokenKind.name_letters (k : TokenKind) : '(' ∉ k.name := by cases k <;> decide

theorem TokenKind.name_inj {k l : TokenKind} (h : k.name = l.name) : k = l := by
  cases k <;> cases l <;> first | rfl | (exfalso; revert h; decide)

/-- `Kind.String` returns for every `int`; the name of the constant, if there is one of that value, and otherwise
`Kind(n)`. -/
theorem C70_kind_string (i : Int) :
    (∀ k : TokenKind, k.value = i → kindString i = some k.name) ∧
    ((∀ k : TokenKind, k.value ≠ i) → kindString i = some (str% "Kind(" ++ intStr i ++ str% ")")) ∧
    ∃ s, kindString i = some s := by
  refine ⟨fun k hk => hk ▸ kindString_const k, kindString_other, ?_⟩
  by_cases h : ∃ k : TokenKind, k.value = i
  · obtain ⟨k, rfl⟩ := h
    exact ⟨_, kindString_const k⟩
  · exact ⟨_, kindString_other fun k hk => h ⟨k, hk⟩⟩

example : (TokenKind.value .Semicolon = 24 ∧ kindString 24 = some (str% "Semicolon")) ∧
    ((∀ k : TokenKind, k.value ≠ -5) ∧ kindString (-5) = some (str% "Kind(-5)")) ∧
    kindString 32 = some (str% "Kind(32)") :=
  ⟨⟨rfl, by decide +kernel⟩, ⟨fun k => by cases k <;> decide, by decide +kernel⟩, by decide +kernel⟩

/-- Different kinds have different texts. -/
theorem C70_kind_string_injective {i j : Int} (h : kindString i = kindString j) : i = j := by
  by_cases hi : ∃ k : TokenKind, k.value = i
  · obtain ⟨k, rfl⟩ := hi
    rw [kindString_const] at h
    by_cases hj : ∃ l : TokenKind, l.value = j
    · obtain ⟨l, rfl⟩ := hj
      rw [kindString_const] at h
      rw [TokenKind.name_inj (Option.some.inj h)]
    · rw [kindString_other fun l hl => hj ⟨l, hl⟩] at h
      exfalso
      apply k.name_letters
      rw [Option.some.inj h]
      simp
  · rw [kindString_other fun k hk => hi ⟨k, hk⟩] at h
    by_cases hj : ∃ l : TokenKind, l.value = j
    · obtain ⟨l, rfl⟩ := hj
      rw [kindString_const] at h
      exfalso
      apply l.name_letters
      rw [← Option.some.inj h]
      simp
    · rw [kindString_other fun l hl => hj ⟨l, hl⟩] at h
      have h := Option.some.inj h
      rw [List.append_assoc, List.append_assoc] at h
      have h := List.append_cancel_left h
      exact intStr_inj (List.append_cancel_right h)

/-- Tokens of the same kind text are of the same kind: a word is told from a number, and so on. -/
theorem C70_token_kinds {a b : Tok} (h : kindString a.kind.value = kindString b.kind.value) : a.kind = b.kind :=
  TokenKind.value_inj (C70_kind_string_injective h)

example : (Tok.number (str% "1")).kind = (Tok.number (str% "23")).kind ∧
    kindString (Tok.number (str% "1")).kind.value ≠ kindString (Tok.comment (str% "1")).kind.value := by
  decide +kernel

/-- Different positions have different texts. -/
theorem C70_pos_string_injective {l c l' c' : Int} (h : posString l c = posString l' c') : l = l' ∧ c = c' := by
  unfold posString at h
  simp only [List.append_assoc] at h
  have h := List.append_cancel_left h
  obtain ⟨h1, h2⟩ := append_sep_inj (c := ' ') (intStr_not_mem (by decide) (by decide) _)
    (intStr_not_mem (by decide) (by decide) _) h
  have h2 : str% "Col: " ++ (intStr c ++ str% "}") = str% "Col: " ++ (intStr c' ++ str% "}") := h2
  have h2 := List.append_cancel_left h2
  exact ⟨intStr_inj h1, intStr_inj (List.append_cancel_right h2)⟩

example : posString 12 (-3) = str% "{Line: 12 Col: -3}" := by decide +kernel

end Verif
