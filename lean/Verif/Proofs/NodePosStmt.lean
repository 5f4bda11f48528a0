/-
Where the types, queries and statements that the parser returns begin and end.
-/
import Verif.Proofs.NodePos
set_option linter.unusedSimpArgs false
set_option linter.unusedVariables false

namespace Verif

variable {T : List Token} {α β : Type} {i : Nat} {r : Parsers}

/-- If `ok`, the position `p` is the start of token `i`, else it was never set. -/
def StartIf (T : List Token) (ok : Bool) (p : Option Pos) (i : Nat) : Prop :=
  (ok = true → ∃ f, T[i]? = some f ∧ p = some f.from_) ∧ (ok = false → p = some Pos.zero)

/-- If `ok`, the position `p` is the end of the token before `j`, unless that token dangles. -/
def EndIf (T : List Token) (ok : Bool) (p : Option Pos) (j : Nat) : Prop :=
  ok = true → ∃ k l, j = k + 1 ∧ T[k]? = some l ∧ (l.dangling = false → p = some l.to_)

theorem StartIf.of {f : Token} {ok : Bool} {p : Option Pos} (h : T[i]? = some f) (hp : p = some f.from_)
    (hok : ok = true := by rfl) : StartIf T ok p i := ⟨fun _ => ⟨f, h, hp⟩, fun h => (by rw [hok] at h; cases h)⟩

theorem EndIf.of {l : Token} {ok : Bool} {p : Option Pos} (h : T[i]? = some l) (hp : p = some l.to_) :
    EndIf T ok p (i + 1) := fun _ => ⟨i, l, rfl, h, fun _ => hp⟩

theorem EndIf.of_false {p : Option Pos} {j : Nat} : EndIf T false p j := fun h => by cases h
theorem StartIf.of_false {p : Option Pos} {j : Nat} (hp : p = some Pos.zero := by rfl) : StartIf T false p j :=
  ⟨fun h => (by cases h), fun _ => hp⟩

theorem Spanned.endIf {e : Expr} {i j : Nat} (h : Spanned T e i j) : EndIf T e.rightOk e.end_ j := fun hr => by
  obtain ⟨k, l, h1, h2, h3⟩ := h.end_ hr
  exact ⟨k, l, h1, h2, fun _ => h3⟩

/-- A list of identifiers stands at the tokens from `i` to before `j`. -/
structure IdSpan (T : List Token) (l : List Ident) (i j : Nat) : Prop where
  pos : ∃ f, T[i]? = some f ∧ identsPos l = some f.from_
  end_ : ∃ k t, j = k + 1 ∧ T[k]? = some t ∧ identsEnd l = some t.to_

theorem IdSpan.startIf {l : List Ident} {i j : Nat} (h : IdSpan T l i j) : StartIf T true (identsPos l) i :=
  ⟨fun _ => h.pos, fun h => (by cases h)⟩
theorem IdSpan.endIf {l : List Ident} {i j : Nat} {ok : Bool} (h : IdSpan T l i j) : EndIf T ok (identsEnd l) j :=
  fun _ => by
    obtain ⟨k, t, h1, h2, h3⟩ := h.end_
    exact ⟨k, t, h1, h2, fun _ => h3⟩

/-- The last of a list ends before `j`. -/
def LastEnd (T : List Token) (ok : α → Bool) (end_ : α → Option Pos) (l : List α) (j : Nat) : Prop :=
  ∃ a, l.getLast? = some a ∧ EndIf T (ok a) (end_ a) j

theorem LastEnd.single {ok : α → Bool} {end_ : α → Option Pos} {a : α} {j : Nat} (h : EndIf T (ok a) (end_ a) j) :
    LastEnd T ok end_ [a] j := ⟨a, rfl, h⟩
theorem LastEnd.cons {ok : α → Bool} {end_ : α → Option Pos} {a : α} {l : List α} {j : Nat}
    (h : LastEnd T ok end_ l j) : LastEnd T ok end_ (a :: l) j := by
  obtain ⟨b, h1, h2⟩ := h
  exact ⟨b, by rw [List.getLast?_cons, h1]; rfl, h2⟩

/-- What the recursive entry points promise about statements. -/
structure Sq (T : List Token) (r : Parsers) : Prop where
  exprs : Sp T r
  listOfIds : ∀ s i, pc T (r.listOfIds s) i fun x j => ∀ l, x = some l → IdSpan T l i j
  listOfIdsSep : ∀ s i, pc T (r.listOfIdsSep s) i fun x j => ∀ l, x = some l →
    (l = [] ∧ i = j) ∨ (l ≠ [] ∧ ∃ k t, j = k + 1 ∧ T[k]? = some t ∧ identsEnd l = some t.to_)
  exprList : ∀ i, pc T r.exprList i fun x j => LastEnd T Expr.rightOk Expr.end_ x j
  orderByList : ∀ i, pc T r.orderByList i fun x j => LastEnd T OrderByExpr.rightOk OrderByExpr.end_ x j
  cteList : ∀ i, pc T r.cteList i fun x _ => x ≠ []
  selectList : ∀ i, pc T r.selectList i fun x j => LastEnd T SelectItem.rightOk SelectItem.end_ x j
  tableRef : ∀ i, pc T r.tableRef i fun x j => StartIf T x.leftOk x.pos i ∧ EndIf T x.rightOk x.end_ j
  tableRefLoop : ∀ f e i k, StartIf T f.leftOk f.pos i → StartIf T e.leftOk e.pos i → EndIf T e.rightOk e.end_ k →
    pc T (r.tableRefLoop f e) k fun x j => StartIf T x.leftOk x.pos i ∧ EndIf T x.rightOk x.end_ j
  fromRest : ∀ i, pc T r.fromRest i fun x j => (x = [] ∧ i = j) ∨ LastEnd T TableRef.rightOk TableRef.end_ x j
  query : ∀ i, pc T r.query i fun x j => StartIf T x.leftOk x.pos i ∧ EndIf T x.rightOk x.end_ j
  queryBody : ∀ p i, pc T (r.queryBody p) i fun x j => StartIf T x.leftOk x.pos i ∧ EndIf T x.rightOk x.end_ j
  bodyLoop : ∀ p e i k, StartIf T e.leftOk e.pos i → EndIf T e.rightOk e.end_ k →
    pc T (r.bodyLoop p e) k fun x j => StartIf T x.leftOk x.pos i ∧ EndIf T x.rightOk x.end_ j
  assignments : ∀ i, pc T r.assignments i fun x j =>
    LastEnd T (fun a : Assignment => a.value.rightOk) Assignment.end_ x j
  rows : ∀ i, pc T r.rows i fun x j => LastEnd T (fun _ => true) (fun a : RowValueExpr => some a.rparen) x j
  defaultLoop : ∀ e i k, Spanned T e i k → pc T (r.defaultLoop e) k fun e' j => Spanned T e' i j
  statement : ∀ i, pc T r.statement i fun x j => StartIf T x.leftOk x.pos i ∧ EndIf T x.rightOk x.end_ j

theorem takeKws_get : ∀ {ks : List Str} {s ts s' : List Token} {n : Nat}, takeKws ks s = some (ts, s') → n < ks.length →
    s[n]? = some (nthTok ts n)
  | [], _, _, _, _, _, hn => by simp at hn
  | _ :: _, [], _, _, _, h, _ => by simp [takeKws] at h
  | k :: ks, t :: s, ts, s', n, h, hn => by
    simp only [takeKws] at h
    split at h
    · rw [Option.map_eq_some_iff] at h
      obtain ⟨⟨a, b⟩, h1, h2⟩ := h
      simp only [Prod.mk.injEq] at h2
      obtain ⟨rfl, rfl⟩ := h2
      cases n with
      | zero => rfl
      | succ n =>
        have := takeKws_get (n := n) h1 (by simpa using hn)
        simpa [nthTok] using this
    · cases h

/-- The tokens that `parseKeywords` returns. -/
theorem wp_kwsToks {ks : List KW} {Q : Option (List Token) → Nat → Prop}
    (h1 : ∀ ts, (∀ n, n < ks.length → T[i + n]? = some (nthTok ts n)) → Q (some ts) (i + ks.length))
    (h2 : Q none i) : wp T (parseKeywords ks) i Q := by
  simp only [wp, parseKeywords, P.runI]
  cases htk : takeKws (ks.map KW.str) (T.drop i) with
  | none => exact h2
  | some x =>
    obtain ⟨ts, s'⟩ := x
    have hl := (takeKws_append htk).2
    have hq : Q (some ts) (i + ks.length) := h1 ts fun n hn => by
      have := takeKws_get (n := n) htk (by simpa using hn)
      rwa [List.getElem?_drop] at this
    rw [List.length_map] at hl
    simp only [hl]
    exact hq

theorem sq_parseIdentifier : pc T parseIdentifier i fun x j => ∃ t, T[i]? = some t ∧ j = i + 1 ∧
    x.from_ = t.from_ ∧ x.to_ = t.to_ := by
  unfold parseIdentifier
  refine pc_bindOf (wp_nextOrErr fun t ht _ => ?_)
  split
  · exact pc_err
  · exact pc_pure ⟨t, ht, rfl, rfl, rfl⟩

theorem sq_parseListOfIds (H : Sq T r) (s : Sym) : pc T (parseListOfIds r s) i fun l j => IdSpan T l i j := by
  unfold parseListOfIds
  refine pc_bind (pc_mono (H.listOfIds s i) fun x j hx => ?_)
  split
  · exact pc_err
  · exact pc_pure (hx _ rfl)

theorem sq_parseObjectName (H : Sq T r) : pc T (parseObjectName r) i fun n j => IdSpan T n.idents i j := by
  unfold parseObjectName
  exact pc_bind (pc_mono (sq_parseListOfIds H _) fun x j hx => pc_pure hx)

theorem sq_parseOptionalPrecision : pc T parseOptionalPrecision i fun x j =>
    (x.1 = none ∧ j = i) ∨ (x.1.isSome = true ∧ ∃ k l, j = k + 1 ∧ T[k]? = some l ∧ x.2 = l.to_) := by
  unfold parseOptionalPrecision
  refine pc_bindOf (wp_consumeToken (fun u hu _ _ => ?_) ?_)
  · simp only [if_true]
    refine pc_skip fun x a => ?_
    obtain ⟨n, _⟩ := x
    dsimp only
    refine pc_bindOf (wp_nextSym fun t ht _ _ => ?_)
    exact pc_pure (.inr ⟨rfl, a, t, rfl, ht, rfl⟩)
  · simp only [Bool.false_eq_true, if_false]
    exact pc_pure (.inl ⟨rfl, rfl⟩)

theorem sq_parseMyUnsigned : pc T parseMyUnsigned i fun x j =>
    (x.1 = false ∧ j = i) ∨ (x.1 = true ∧ ∃ k l, j = k + 1 ∧ T[k]? = some l ∧ x.2 = l.to_) := by
  unfold parseMyUnsigned
  refine pc_bindOf (wp_kwTok (fun u hu _ _ => ?_) ?_)
  · exact pc_pure (.inr ⟨rfl, i, u, rfl, hu, rfl⟩)
  · exact pc_pure (.inl ⟨rfl, rfl⟩)

theorem sq_parseCascade : pc T parseCascade i fun x j =>
    (x.1 = false ∧ j = i) ∨ (x.1 = true ∧ ∃ k l, j = k + 1 ∧ T[k]? = some l ∧ x.2 = l.to_) := by
  unfold parseCascade
  refine pc_bindOf (wp_kwTok (fun u hu _ _ => ?_) ?_)
  · exact pc_pure (.inr ⟨rfl, i, u, rfl, hu, rfl⟩)
  · exact pc_pure (.inl ⟨rfl, rfl⟩)

theorem sq_parseChar {t : Token} (ht : T[i]? = some t) : pc T (parseDataType.parseChar t) (i + 1) fun d j =>
    StartIf T d.leftOk d.pos i ∧ EndIf T d.rightOk d.end_ j := by
  unfold parseDataType.parseChar
  refine pc_bindOf (wp_kwTok (fun v hv _ _ => ?_) ?_)
  · refine pc_bind (pc_mono sq_parseOptionalPrecision fun x j hx => ?_)
    obtain ⟨size, rp⟩ := x
    refine pc_pure ⟨.of ht rfl, ?_⟩
    rcases hx with ⟨h1, h2⟩ | ⟨h1, k, l, h2, h3, h4⟩
    · dsimp only at h1; subst h1 h2
      exact .of hv rfl
    · dsimp only at h1 h4; subst h2
      exact .of h3 (by simp [DataType.end_, h1, h4])
  · refine pc_bind (pc_mono sq_parseOptionalPrecision fun x j hx => ?_)
    obtain ⟨size, rp⟩ := x
    refine pc_pure ⟨.of ht rfl, ?_⟩
    rcases hx with ⟨h1, h2⟩ | ⟨h1, k, l, h2, h3, h4⟩
    · dsimp only at h1; subst h1 h2
      exact .of ht rfl
    · dsimp only at h1 h4; subst h2
      exact .of h3 (by simp [DataType.end_, h1, h4])

/-- The optional UNSIGNED after the token `t` at `i`. -/
theorem sq_unsigned {t : Token} {k : Nat} (ht : T[k]? = some t) {f : Bool × Pos → DataType} (h0 : T[i]? = some t0)
    (hok : ∀ x, (f x).leftOk = true) (h1 : ∀ x, (f x).pos = some t0.from_) (h2 : ∀ p, (f (false, p)).end_ = some t.to_)
    (h3 : ∀ p, (f (true, p)).end_ = some p) :
    pc T (parseMyUnsigned >>= fun x => pure (f x)) (k + 1) fun d j =>
      StartIf T d.leftOk d.pos i ∧ EndIf T d.rightOk d.end_ j := by
  refine pc_bind (pc_mono sq_parseMyUnsigned fun x j hx => ?_)
  refine pc_pure ⟨.of h0 (h1 _) (hok _), ?_⟩
  obtain ⟨u, p⟩ := x
  rcases hx with ⟨h4, h5⟩ | ⟨h4, k, l, h5, h6, h7⟩
  · dsimp only at h4; subst h4 h5
    exact .of ht (h2 _)
  · dsimp only at h4 h7; subst h4 h5 h7
    exact .of h6 (h3 _)

theorem sq_parseDataType (H : Sq T r) : pc T (parseDataType r) i fun d j =>
    StartIf T d.leftOk d.pos i ∧ EndIf T d.rightOk d.end_ j := by
  unfold parseDataType
  refine pc_bindOf (wp_nextOrErr fun t ht _ => ?_)
  split
  · exact pc_err
  split
  · exact pc_pure ⟨.of ht rfl, .of ht rfl⟩
  · refine pc_bind (pc_mono sq_parseOptionalPrecision fun x j hx => ?_)
    obtain ⟨size, rp⟩ := x
    dsimp only at hx ⊢
    rcases hx with ⟨h1, h2⟩ | ⟨h1, k, l, h2, h3, h4⟩
    · subst h1 h2
      exact sq_unsigned ht ht (fun _ => rfl) (fun _ => rfl) (fun _ => rfl) (fun _ => rfl)
    · subst h2
      exact sq_unsigned h3 ht (fun _ => rfl) (fun _ => rfl) (fun _ => by simp [DataType.end_, h1, h4]) (fun _ => rfl)
  · exact sq_unsigned ht ht (fun _ => rfl) (fun _ => rfl) (fun _ => rfl) (fun _ => rfl)
  · refine pc_bindOf (wp_expectKeyword fun p hp _ _ => ?_)
    exact pc_pure ⟨.of ht rfl, .of hp rfl⟩
  · exact sq_unsigned ht ht (fun _ => rfl) (fun _ => rfl) (fun _ => rfl) (fun _ => rfl)
  · exact sq_unsigned ht ht (fun _ => rfl) (fun _ => rfl) (fun _ => rfl) (fun _ => rfl)
  · exact sq_unsigned ht ht (fun _ => rfl) (fun _ => rfl) (fun _ => rfl) (fun _ => rfl)
  · refine pc_bindOf (wp_parseKeyword (fun _ => pc_panic) (fun u hu _ _ => ?_) (fun u hu _ _ => ?_))
    · exact pc_pure ⟨.of ht rfl, .of hu rfl⟩
    · exact pc_pure ⟨.of ht rfl, .of ht rfl⟩
  · refine pc_bind (pc_mono sq_parseOptionalPrecision fun x j hx => ?_)
    obtain ⟨size, rp⟩ := x
    dsimp only at hx ⊢
    refine pc_pure ⟨.of ht rfl, ?_⟩
    rcases hx with ⟨h1, h2⟩ | ⟨h1, k, l, h2, h3, h4⟩
    · subst h1 h2
      exact .of_false
    · subst h2
      exact .of h3 (by simp [DataType.end_, h1, h4])
  · exact sq_parseChar ht
  · exact sq_parseChar ht
  · exact pc_pure ⟨.of ht rfl, .of ht rfl⟩
  · exact pc_pure ⟨.of_false, .of_false⟩
  · exact pc_skip fun _ _ => pc_pure ⟨.of ht rfl, .of_false⟩
  · exact pc_skip fun _ _ => pc_pure ⟨.of_false, .of_false⟩
  · exact pc_pure ⟨.of_false, .of_false⟩
  · refine pc_skip fun b _ => ?_
    split
    · exact pc_skip fun _ _ => pc_pure ⟨.of_false, .of_false⟩
    · exact pc_pure ⟨.of_false, .of_false⟩
  · exact pc_pure ⟨.of_false, .of_false⟩
  · refine pc_skip fun x a => ?_
    obtain ⟨pr, sc⟩ := x
    dsimp only
    refine pc_bindOf (wp_prevToken fun j hj => ?_)
    refine pc_bindOf (wp_nextSym fun rp hr _ _ => ?_)
    exact sq_unsigned hr ht (fun _ => rfl) (fun _ => rfl) (fun _ => rfl) (fun _ => rfl)
  · refine pc_bindOf (wp_prevToken fun j hj => ?_)
    cases hj
    refine pc_bind (pc_mono (sq_parseObjectName H) fun n j hn => ?_)
    exact pc_pure ⟨hn.startIf, hn.endIf⟩

theorem sq_parseOptionalAlias {res : KW → Bool} : pc T (parseOptionalAlias res) i fun x j =>
    (∃ a k l, x = some a ∧ j = k + 1 ∧ T[k]? = some l ∧ a.to_ = l.to_) ∨
    (x = none ∧ (j = i ∨ ∃ t, T[i]? = some t ∧ j = i + 1 ∧ j = T.length ∧ t.dangling = true)) := by
  unfold parseOptionalAlias
  refine pc_bindOf (wp_kw (fun t ht hm _ => ?_) (fun _ => ?_))
  · refine pc_bindOf (wp_nextToken (fun u hu _ => ?_) (fun hl => ?_))
    · dsimp only
      split
      · simp only [Bool.true_or, if_true]
        exact pc_pure (.inl ⟨_, i + 1, u, rfl, rfl, hu, rfl⟩)
      · simp only [if_true]
        exact pc_panic
    · refine pc_pure (.inr ⟨rfl, .inr ⟨t, ht, rfl, ?_, ?_⟩⟩)
      · have := (List.getElem?_eq_some_iff.1 ht).1
        omega
      · have : t.matchesKw (str% "AS") = true := hm
        simp [Token.dangling, this]
  · refine pc_bindOf (wp_nextToken (fun u hu _ => ?_) (fun hl => ?_))
    · have back : pc T (prevToken >>= fun _ => (pure none : P (Option Ident))) (i + 1) fun x j =>
          (∃ a k l, x = some a ∧ j = k + 1 ∧ T[k]? = some l ∧ a.to_ = l.to_) ∨
          (x = none ∧ (j = i ∨ ∃ t, T[i]? = some t ∧ j = i + 1 ∧ j = T.length ∧ t.dangling = true)) := by
        refine pc_bindOf (wp_prevToken fun j hj => ?_)
        cases hj
        exact pc_pure (.inr ⟨rfl, .inl rfl⟩)
      dsimp only
      split
      · split
        · exact pc_pure (.inl ⟨_, i, u, rfl, rfl, hu, rfl⟩)
        · exact back
      · simp only [Bool.false_eq_true, if_false]
        exact back
    · exact pc_pure (.inr ⟨rfl, .inl rfl⟩)

end Verif
