import Verif.Spec.Shape
import Verif.Proofs.NodePos
import Verif.Proofs.Exec
/-
Lemmas for Proofs/Shape.lean: what the token tests tell about the next token, and the precedences.
-/
set_option linter.unusedSimpArgs false
set_option linter.unusedVariables false
namespace Verif

variable {T : List Token} {α β : Type} {i j : Nat}

theorem toNat_ofNat_ascii {n : Nat} (h : n < 128) : (Char.ofNat n).toNat = n := by
  have : ∀ n : Fin 128, (Char.ofNat n.1).toNat = n.1 := by decide
  exact this ⟨n, h⟩

theorem fold_upper {c k : Char} (h : foldC c = foldC k) (hk : 'A' ≤ k ∧ k ≤ 'Z' ∧ k ≠ 'K') : upperC c = k := by
  obtain ⟨h1, h2, h3⟩ := hk
  have hA : ('A' ≤ c ∧ c ≤ 'Z') ↔ (65 ≤ c.toNat ∧ c.toNat ≤ 90) := by
    simp only [Char.le_def, UInt32.le_iff_toNat_le, Char.toNat]; exact Iff.rfl
  have ha : ('a' ≤ c ∧ c ≤ 'z') ↔ (97 ≤ c.toNat ∧ c.toNat ≤ 122) := by
    simp only [Char.le_def, UInt32.le_iff_toNat_le, Char.toNat]; exact Iff.rfl
  have hk1 : 65 ≤ k.toNat ∧ k.toNat ≤ 90 := by
    simp only [Char.le_def, UInt32.le_iff_toNat_le] at h1 h2; exact ⟨h1, h2⟩
  have hk3 : k.toNat ≠ 75 := fun h => h3 (Char.toNat_inj.1 h)
  have hfk : (foldC k).toNat = k.toNat + 32 := by
    simp only [foldC, h1, h2, and_self, if_true]
    rw [toNat_ofNat_ascii (by omega)]
  have hf : (foldC c).toNat = k.toNat + 32 := by rw [h, hfk]
  apply Char.toNat_inj.1
  unfold foldC at hf
  unfold upperC
  split at hf
  · rename_i hc
    rw [toNat_ofNat_ascii (by rw [hA] at hc; omega)] at hf
    rw [if_neg (by rw [ha]; omega)]
    split
    · rename_i hc2; subst hc2; simp at hf; omega
    · split
      · rename_i hc2; subst hc2; simp at hf; omega
      · omega
  · split at hf
    · rename_i hc; subst hc
      have : k.toNat = 83 := by simp at hf; omega
      simp [this]
    · split at hf
      · simp at hf; omega
      · have hc : 'a' ≤ c ∧ c ≤ 'z' := by rw [ha]; omega
        rw [if_pos hc, toNat_ofNat_ascii (by omega)]
        omega

theorem fold_upper_str : ∀ {w : Str} {k : Str}, w.map foldC = k.map foldC →
    (∀ c ∈ k, 'A' ≤ c ∧ c ≤ 'Z' ∧ c ≠ 'K') → upper w = k
  | [], [], _, _ => rfl
  | [], _ :: _, h, _ => by simp at h
  | _ :: _, [], h, _ => by simp at h
  | c :: w, u :: k, h, hk => by
    simp only [List.map_cons, List.cons.injEq] at h
    show upperC c :: upper w = u :: k
    rw [fold_upper h.1 (hk u (by simp)), fold_upper_str h.2 fun c hc => hk c (by simp [hc])]

/-- A token that `parseKeyword` takes for `k` has the keyword `k`, unless `k` has the letter K (the Kelvin sign
folds to k, but is its own upper case). -/
theorem kw_of_matches (hk : KwOK T) {t : Token} {k : KW} (ht : T[i]? = some t) (h : t.matchesKw k.str = true)
    (hc : ∀ c ∈ k.str, 'A' ≤ c ∧ c ≤ 'Z' ∧ c ≠ 'K' := by decide) : t.kw? = some k := by
  unfold Token.matchesKw at h
  split at h
  · rename_i w hw
    have h1 := hk t (List.mem_of_getElem? ht) w hw
    simp only [equalFold, beq_iff_eq] at h
    have h2 := fold_upper_str h hc
    simp [Token.kw?, Token.word?, hw, h1, h2]
  · cases h

/-- The precedence of the next token. -/
def nx (T : List Token) (j : Nat) : Nat :=
  match T[j]? with
  | some t => getPrecedence t
  | none => 0

theorem getPrecedence_le (t : Token) : getPrecedence t ≤ 50 := by
  unfold getPrecedence; split <;> (try split) <;> omega

theorem nx_le (T : List Token) (j : Nat) : nx T j ≤ 50 := by
  unfold nx; split
  · exact getPrecedence_le _
  · omega

theorem nx_of {t : Token} (h : T[j]? = some t) : nx T j = getPrecedence t := by simp [nx, h]

theorem kw_word {t : Token} {k : KW} (h : t.kw? = some k) : ∃ w, t.tok = .word w ∧ kwOf w.keyword = some k :=
  kwOf_kw h

theorem prec_kw {t : Token} {k : KW} (h : t.kw? = some k) : getPrecedence t = (match k with
    | .OR => 5
    | .AND => 10
    | .NOT => 15
    | .IS => 17
    | .IN => 20
    | .BETWEEN => 20
    | .LIKE => 20
    | _ => 0) := by
  obtain ⟨w, h1, h2⟩ := kw_word h
  simp only [getPrecedence, h1, h2]
  cases k <;> rfl

/-- The precedence of the next set operator, 0 if there is none. -/
def nq (T : List Token) (j : Nat) : Nat :=
  match T[j]?.bind setOperator with
  | some (_, np) => np
  | none => 0

theorem nq_le (T : List Token) (j : Nat) : nq T j ≤ 20 := by
  unfold nq; split
  · rename_i h
    rw [Option.bind_eq_some_iff] at h
    obtain ⟨t, -, h⟩ := h
    unfold setOperator at h
    split at h <;> simp at h <;> omega
  · omega

/-- What may follow a right edge. -/
def EdgeAt (T : List Token) (j : Nat) : Edge → Prop
  | .closed => True
  | .tab => ∀ t, T[j]? = some t → ∀ w, t.word? = some w → isReserved reservedForTableAlias w.keyword = true
  | .col => ∀ t, T[j]? = some t → ∀ w, t.word? = some w → isReserved reservedForColumnAlias w.keyword = true

/-- The keyword may follow the edge. -/
def Edge.allows (k : KW) : Edge → Bool
  | .closed => true
  | .tab => reservedForTableAlias k
  | .col => reservedForColumnAlias k

theorem EdgeAt.kw {e : Edge} {t : Token} {k : KW} (h : EdgeAt T j e) (ht : T[j]? = some t) (hk : t.kw? = some k) :
    e.allows k = true := by
  obtain ⟨w, h1, h2⟩ := kw_word hk
  have hw : t.word? = some w := by simp [Token.word?, h1]
  cases e with
  | closed => rfl
  | tab => have := h t ht w hw; simpa [isReserved, h2, Edge.allows] using this
  | col => have := h t ht w hw; simpa [isReserved, h2, Edge.allows] using this

/-- The keyword starts a join. -/
def startsJoin : KW → Bool
  | .NATURAL | .CROSS | .INNER | .LEFT | .RIGHT | .FULL | .JOIN => true
  | _ => false

/-- The next token does not start a join. -/
def NoJoin (T : List Token) (j : Nat) : Prop := ∀ t, T[j]? = some t → ∀ k, t.kw? = some k → startsJoin k = false

/-! ### Rules with more information -/

theorem wp_consumeToken' {k : Sym} {Q : Bool → Nat → Prop}
    (h1 : ∀ t, T[i]? = some t → t.isSym k = true → i < T.length → Q true (i + 1))
    (h2 : (∀ t, T[i]? = some t → t.isSym k = false) → Q false i) :
    wp T (consumeToken k) i Q := by
  unfold consumeToken
  refine wp_bind (wp_peekToken ?_ (fun hi => h2 ?_))
  · intro t ht hi
    simp only
    split
    · refine wp_bind (wp_nextOrErr ?_)
      intro t' ht' _
      exact h1 t ht ‹_› hi
    · rename_i hs
      exact h2 (by intro t' ht'; rw [ht] at ht'; cases ht'; simpa using hs)
  · intro t ht; rw [List.getElem?_eq_none hi] at ht; cases ht

theorem wp_parseKeywords' {k : KW} {ks : List KW} {Q : Option (List Token) → Nat → Prop}
    (h1 : ∀ t ts j, T[i]? = some t → t.matchesKw k.str = true → Q (some ts) j) (h2 : Q none i) :
    wp T (parseKeywords (k :: ks)) i Q := by
  simp only [wp, parseKeywords, P.runI]
  cases htk : takeKws ((k :: ks).map KW.str) (T.drop i) with
  | none => exact h2
  | some r =>
    obtain ⟨ts, s'⟩ := r
    cases hd : T.drop i with
    | nil => rw [hd] at htk; simp [takeKws] at htk
    | cons t a =>
      have ht : T[i]? = some t := by rw [← List.head?_drop, hd]; rfl
      rw [hd] at htk
      simp only [List.map_cons, takeKws] at htk
      split at htk
      · exact h1 t ts _ ht ‹_›
      · cases htk

theorem wp_kwTok' {k : KW} {Q : Option Token → Nat → Prop}
    (h1 : ∀ t, T[i]? = some t → t.matchesKw k.str = true → i < T.length → Q (some t) (i + 1))
    (h2 : (∀ t, T[i]? = some t → t.matchesKw k.str = false) → Q none i) : wp T (kwTok k) i Q := by
  unfold kwTok
  refine wp_bind (wp_parseKeyword (fun hi => h2 ?_) h1 (fun t ht hm _ => h2 ?_))
  · intro t ht; rw [List.getElem?_eq_none hi] at ht; cases ht
  · intro t' ht'; rw [ht] at ht'; cases ht'; exact hm

theorem kw_not_sym {t : Token} {k : KW} {s : Sym} (h : t.kw? = some k) : t.isSym s = false := by
  obtain ⟨w, h1, h2⟩ := kw_word h
  simp [Token.isSym, h1]

theorem matches_not_sym {t : Token} {k : Str} {s : Sym} (h : t.matchesKw k = true) : t.isSym s = false := by
  obtain ⟨tok, f, to⟩ := t
  cases tok <;> simp [Token.matchesKw] at h <;> simp [Token.isSym]

theorem word_not_sym {t : Token} {w : SQLWord} {s : Sym} (h : t.word? = some w) : t.isSym s = false := by
  obtain ⟨tok, f, to⟩ := t
  cases tok <;> simp [Token.word?] at h <;> simp [Token.isSym]

end Verif
