import Verif.Proofs.Concat
import Verif.Props.Param
import Verif.Props.Script
/-
Property theorem C74: texts put one behind the other.

`Pos.shift`, `Token.shift` and `Stops` are defined in Verif/Spec/Concat.lean.
-/
set_option maxRecDepth 100000
namespace Verif
open Spec

/-- C74, the tokenizer on a text that does not begin at line 1, column 1: the same tokens (or the same failure), with
shifted positions. -/
theorem C74_shift {d : Dialect} (hd : Sane d) (keep : Bool) (o : Pos) (ho : 1 ≤ o.line) (ho' : 1 ≤ o.col) (b : Str)
    (f f' : Nat) (hf : b.length < f) (hf' : b.length < f') :
    tokenizeFrom d keep f' ⟨b, o.line, o.col⟩ = (tokenize d keep f b).shift o :=
  tokenizeFrom_shift hd keep o hf hf' ho ho'

/-- C74, tokenizing is local: whatever is written behind a text, all its tokens but the last remain as they are, and the
tokenizer goes on where the last one begins. -/
theorem C74_local {d : Dialect} (hd : Sane d) {f : Nat} {a : Str} {ts : List Token} {t : Token}
    (ht : tokenize d true f a = .ok (ts ++ [t])) :
    ∃ pre piece, a = pre ++ piece ∧ Spells d t.tok piece ∧ ∀ b f' f'', (a ++ b).length < f' → (piece ++ b).length < f'' →
      tokenize d true f' (a ++ b) = ((tokenize d true f'' (piece ++ b)).shift t.from_).prepend ts ∧
      (Stops d t.tok piece b.head? →
        tokenize d true f' (a ++ b) = ((tokenize d true f'' b).shift t.to_).prepend (ts ++ [t])) := by
  obtain ⟨all, s', h1, h2, h3⟩ := tokenize_ok_inv ht
  cases h3
  rcases h1.last with ⟨h, -⟩ | ⟨us, t', s1, he, h4, h5⟩
  · simp at h
  · obtain ⟨rfl, he'⟩ := List.append_inj' (show ts ++ [t] = us ++ _ from he) rfl
    cases he'
    obtain ⟨p, e1, e2⟩ := h5.spells
    rw [h2, List.append_nil] at e1
    have hne : s1.rest ≠ [] := by
      intro h0
      have := h5.length_lt
      rw [h0] at this
      simp at this
    obtain ⟨pre, hpre⟩ : ∃ pre, a = pre ++ s1.rest := by
      clear h5 ht
      have : ∀ {s s' : TState} {us : List Token}, Scans d s us s' → ∃ pre, s.rest = pre ++ s'.rest := by
        intro s s' us h
        induction h with
        | refl => exact ⟨[], rfl⟩
        | step h1 _ ih =>
          obtain ⟨pre, hp⟩ := ih
          obtain ⟨p, e1, -⟩ := h1.spells
          exact ⟨p ++ pre, by rw [e1, hp, List.append_assoc]⟩
      exact this h4
    obtain ⟨hl1, hc1⟩ := h4.start (Nat.le_refl _) (Nat.le_refl _)
    obtain ⟨hl2, hc2⟩ := h5.start hl1 hc1
    refine ⟨pre, s1.rest, hpre, by rw [e1]; exact e2, fun b f' f'' hf' hf'' => ⟨?_, fun hs => ?_⟩⟩
    · obtain ⟨g, hg, e⟩ := tokenizeFrom_scans hd true (h4.more b hne) (fuel := f') hf'
      have e' := tokenizeFrom_shift hd true ⟨s1.line, s1.col⟩ hf'' hg hl1 hc1
      exact e.trans (congrArg (TokRes.prepend ts) e')
    · have h6 := h5.more b fun _ => hs
      have h7 := (h4.more b hne).trans (.step h6 (.refl _))
      obtain ⟨g, hg, e⟩ := tokenizeFrom_scans hd true h7 (fuel := f') hf'
      rw [h2] at e hg
      have e' := tokenizeFrom_shift hd true ⟨s'.line, s'.col⟩ (b := b) (f := f'')
        (by rw [List.length_append] at hf''; omega) hg hl2 hc2
      exact e.trans (congrArg (TokRes.prepend _) e')

theorem stops_newline {d : Dialect} (hn : d.isIdentPart '\n' = false) {s s' : TState} {t : Tok} (h : NextRel d s t s')
    (hr : s.rest ≠ ['\r']) (h0 : s'.rest = []) : Stops d t s.rest (some '\n') := by
  cases h with
  | cr cs l c h => simp only at h0; subst h0; exact absurd rfl hr
  | space | tab | lf | crlf => intro h; simp at h
  | national | single => simp [Stops, Ends]
  | word =>
    refine ⟨fun y hy => ?_, by simp⟩
    cases hy
    exact hn
  | delim => trivial
  | number =>
    intro y hy
    cases hy
    decide
  | line => exact .inr (.inr rfl)
  | block => exact .inl ⟨_, rfl⟩
  | sym k text r l c h h2 =>
    intro x y hx hy
    cases hy
    simp [gluing]
  | char => trivial

/-- C74, a line break ends every token: the tokens of `a`, a line break and `b` are those of `a`, one for the line break
(none if `a` ends with a carriage return that belongs to it) and those of `b` on later lines. -/
theorem C74_newline {d : Dialect} (hd : BuiltIn d) {keep : Bool} {f : Nat} {a : Str} {ta : List Token}
    (ht : tokenize d keep f a = .ok ta) :
    ∃ (k : Nat) (nl : List Token), 1 ≤ k ∧ (∀ t ∈ nl, t.tok = .whitespace ['\n']) ∧
      ∀ b f' f'', (a ++ '\n' :: b).length < f' → b.length < f'' →
        tokenize d keep f' (a ++ '\n' :: b) = ((tokenize d keep f'' b).shift ⟨1 + k, 1⟩).prepend (ta ++ nl) := by
  have hs := hd.sane
  have hn : d.isIdentPart '\n' = false := by rcases hd with rfl | rfl | rfl <;> decide
  obtain ⟨all, s', h1, h2, rfl⟩ := tokenize_ok_inv ht
  obtain ⟨hl, hc⟩ := h1.start (Nat.le_refl _) (Nat.le_refl _)
  have key : ∀ (all' : List Token) (l : Nat), 1 ≤ l → (∀ b, Scans d ⟨a ++ '\n' :: b, 1, 1⟩ all' ⟨b, 1 + l, 1⟩) →
      ∀ b f' f'', (a ++ '\n' :: b).length < f' → b.length < f'' → tokenize d keep f' (a ++ '\n' :: b) =
        ((tokenize d keep f'' b).shift ⟨1 + l, 1⟩).prepend (filterTok keep all') := by
    intro all' l hl h b f' f'' hf' hf''
    obtain ⟨g, hg, e⟩ := tokenizeFrom_scans hs keep (h b) (fuel := f') hf'
    rw [tokenize, e, ← tokenizeFrom_shift hs keep ⟨1 + l, 1⟩ hf'' hg (by simp) (by simp)]
  have nlrel : ∀ b l c, NextRel d ⟨'\n' :: b, l, c⟩ (.whitespace ['\n']) ⟨b, 1 + l, 1⟩ := by
    intro b l c
    rw [Nat.add_comm]
    exact .lf _ _ _
  have norm : ∀ (t : Token), t.tok = .whitespace ['\n'] → ∀ x ∈ filterTok keep [t], x.tok = .whitespace ['\n'] := by
    intro t hw x hx
    cases keep <;> simp [filterTok, List.filter_cons] at hx
    · rw [hx.2]; exact hw
    · rw [hx]; exact hw
  rcases h1.last with ⟨rfl, rfl⟩ | ⟨us, t, s1, rfl, h4, h5⟩
  · simp only at h2
    subst h2
    refine ⟨1, filterTok keep [⟨.whitespace ['\n'], ⟨1, 1⟩, ⟨2, 1⟩⟩], Nat.le_refl _, norm _ rfl, ?_⟩
    rw [← filterTok_append]
    exact key _ 1 (Nat.le_refl _) fun b => .step (nlrel b 1 1) (.refl _)
  · have hne : s1.rest ≠ [] := by
      intro h0
      have := h5.length_lt
      rw [h0] at this
      simp at this
    by_cases hr : s1.rest = ['\r']
    · obtain ⟨r1, l1, c1⟩ := s1
      simp only at hr
      subst hr
      obtain ⟨hl1, -⟩ := h4.start (Nat.le_refl _) (Nat.le_refl _)
      have e := h5.next hs (Nat.le_refl _)
      simp [next] at e
      obtain ⟨rfl, rfl⟩ := e
      refine ⟨l1, [], hl1, by simp, ?_⟩
      rw [List.append_nil]
      refine key _ l1 hl1 fun b => ?_
      have h6 := h4.more ('\n' :: b) hne
      refine h6.trans ?_
      have h7 := NextRel.crlf (d := d) b l1 c1
      rw [Nat.add_comm l1 1] at h7
      have := Scans.step h7 (.refl _)
      simpa [TState.pos, Nat.add_comm] using this
    · refine ⟨s'.line, filterTok keep [⟨.whitespace ['\n'], s'.pos, ⟨1 + s'.line, 1⟩⟩], hl, norm _ rfl, ?_⟩
      rw [← filterTok_append]
      refine key _ _ hl fun b => ?_
      have h6 := h5.more ('\n' :: b) fun h0 => stops_newline hn h5 hr h0
      have h7 := (h4.more ('\n' :: b) hne).trans (.step h6 (.refl _))
      rw [h2] at h7
      exact h7.trans (.step (nlrel b s'.line s'.col) (.refl _))

/-! ### Scripts -/

theorem mapVal_andThen (x y : Res Unit (List Stmt)) : (andThen x y).mapVal (List.map Stmt.erase) =
    andThen (x.mapVal (List.map Stmt.erase)) (y.mapVal (List.map Stmt.erase)) := by
  cases x <;> cases y <;> simp [andThen, Res.mapVal]

/-- The first significant token is not a semicolon. -/
def NoLead (toks : List Token) : Prop := ∀ t ∈ (toks.filter Token.sig).head?, t.isSym .Semicolon = false

/-- C74 for `ParseSQL`, on tokens: behind an accepted script another one (that does not begin with a semicolon) is read as
it is alone, whatever its outcome is. -/
theorem C74_tokens (fns : FloatFns) (n : Nat) (mode : Bool) (a b : List Token) (hk : KwOK (a ++ b))
    (hn : 3 * (a ++ b).length + 3 ≤ n) (ss : List Stmt) (ha : runSQL fns n mode a = .ok ss ()) (hb : NoLead b) :
    runSQL fns n mode (a ++ b) = andThen (.ok ss ()) (runSQL fns n mode b) := by
  have hka : KwOK a := fun t ht => hk t (List.mem_append_left _ ht)
  have hkb : KwOK (b.filter Token.sig) := fun t ht => hk t (List.mem_append_right _ (List.mem_filter.1 ht).1)
  rw [List.length_append] at hn
  have h1 := List.length_filter_le Token.sig a
  have h2 := List.length_filter_le Token.sig b
  rcases List.eq_nil_or_concat (a.filter Token.sig) with h0 | ⟨pre, sem, h0⟩
  · have e : ss = [] := by
      rw [runSQL_loopOut, h0] at ha
      obtain ⟨m, rfl⟩ : ∃ m, n = m + 1 := ⟨n - 1, by omega⟩
      rw [loopOut_nil] at ha
      cases ha
      rfl
    rw [runSQL_loopOut, runSQL_loopOut, List.filter_append, h0, List.nil_append, e]
    cases loopOut fns n n false (b.filter Token.sig) <;> rfl
  · rw [List.concat_eq_append] at h0
    have hs : sem.isSym .Semicolon = true := by
      cases hc : sem.isSym .Semicolon with
      | true => rfl
      | false => exact absurd ha (C26_last_semicolon fns mode a hka n (by omega) pre sem h0 hc ss)
    have hl := congrArg List.length h0
    simp only [List.length_append, List.length_cons, List.length_nil] at hl
    have hkw : KwOK (sem :: b.filter Token.sig) := by
      intro t ht
      rcases List.mem_cons.1 ht with rfl | ht
      · exact hka t (List.mem_filter (p := Token.sig).1 (by rw [h0]; simp)).1
      · exact hkb t ht
    have h3 := loop_law fns n hs hkw (by omega) n pre false (by omega)
    rw [runSQL_loopOut, runSQL_loopOut, List.filter_append, h0,
      show pre ++ [sem] ++ b.filter Token.sig = pre ++ sem :: b.filter Token.sig by simp, h3, ← h0, ← runSQL_loopOut fns n mode a,
      ha]
    congr 1
    obtain ⟨m, rfl⟩ : ∃ m, n = m + 1 := ⟨n - 1, by omega⟩
    rw [loopOut_semi fns _ hs]
    cases hbf : b.filter Token.sig with
    | nil =>
      rw [loopOut_nil]
      have h4 := loopOut_semi fns (m + 1) hs m true []
      obtain ⟨k, rfl⟩ : ∃ k, m = k + 1 := ⟨m - 1, by omega⟩
      rfl
    | cons t x =>
      rw [loopOut_nosemi]
      · simp
      · rw [hb t (by rw [hbf]; rfl)]; simp

/-- C74 for `ParseSQL`, on texts: the statements of an accepted text `a`, a line break and a text `b` (that does not begin
with a semicolon) are those of `a` and of `b`, up to positions; if `b` alone is rejected or makes the parser panic, so does
the whole. -/
theorem C74_script {d : Dialect} (hd : BuiltIn d) (fns : FloatFns) (mode keep : Bool) {f : Nat} {a b : Str}
    {ta tb : List Token} (hta : tokenize d keep f a = .ok ta) (htb : tokenize d keep f b = .ok tb) (hf : b.length < f)
    (n : Nat) (hn : 3 * (ta.length + tb.length + 1) + 3 ≤ n) (ss : List Stmt) (ha : runSQL fns n mode ta = .ok ss ())
    (hb : NoLead tb) (f' : Nat) (hf' : (a ++ '\n' :: b).length < f') :
    ∃ toks, tokenize d keep f' (a ++ '\n' :: b) = .ok toks ∧
      (runSQL fns n mode toks).mapVal (List.map Stmt.erase) =
        (andThen (.ok ss ()) (runSQL fns n mode tb)).mapVal (List.map Stmt.erase) := by
  obtain ⟨k, nl, hk1, hnl, h⟩ := C74_newline hd hta
  have e := h b f' f hf' hf
  rw [htb] at e
  have hsig : nl.filter Token.sig = [] := by
    rw [List.filter_eq_nil_iff]
    intro t ht
    simp [Token.sig, hnl t ht, Tok.insignificant]
  have htok : ((ta ++ nl ++ tb.map (Token.shift ⟨1 + k, 1⟩)).filter Token.sig).map (·.tok) =
      ((ta ++ tb).filter Token.sig).map (·.tok) := by
    rw [List.filter_append, List.filter_append, hsig, List.append_nil, List.filter_append, List.map_append, List.map_append,
      List.filter_map, List.map_map]
    rfl
  refine ⟨_, e, ?_⟩
  rw [(C47_sql fns n mode htok).1, C74_tokens fns n mode ta tb ?_ (by simp; omega) ss ha hb]
  intro t ht
  rcases List.mem_append.1 ht with ht | ht
  · exact tokenizeFrom_kwOK hta t ht
  · exact tokenizeFrom_kwOK htb t ht

/-- The number of statements that `ParseSQL` reads, if it accepts the text. -/
def countStmts (fns : FloatFns) (src : Str) : Option Nat :=
  match runSQL fns 200 false (textToks src) with
  | .ok ss _ => some ss.length
  | _ => none

/-- C74, the conditions are needed: without the line break a comment at the end of `a` swallows `b`, and a semicolon at the
beginning of `b`, allowed there, is not allowed behind `a`. -/
theorem C74_conditions (fns : FloatFns) :
    countStmts fns (str% "SELECT a; -- x") = some 1 ∧ countStmts fns (str% "SELECT b;") = some 1 ∧
    countStmts fns (str% "SELECT a; -- xSELECT b;") = some 1 ∧ countStmts fns (str% "SELECT a; -- x\nSELECT b;") = some 2 ∧
    countStmts fns (str% ";SELECT b;") = some 1 ∧ countStmts fns (str% "SELECT a; -- x\n;SELECT b;") = none := by
  refine ⟨?_, ?_, ?_, ?_, ?_, ?_⟩ <;> kernel_rfl

/-- Hypotheses met. -/
example (fns : FloatFns) : ∃ toks,
    tokenize genericDialect true 100 (str% "SELECT a; -- x\nSELECT b FROM t; SELECT c;") = .ok toks ∧
      ∃ ss, runSQL fns 200 false toks = .ok ss () ∧ ss.length = 3 := by
  have ha : (match runSQL fns 200 false (textToks (str% "SELECT a; -- x")) with
    | .ok ss _ => ss.length == 1 | _ => false) = true := by kernel_rfl
  have hb : (match runSQL fns 200 false (textToks (str% "SELECT b FROM t; SELECT c;")) with
    | .ok ss _ => ss.length == 2 | _ => false) = true := by kernel_rfl
  split at ha
  · rename_i ss u hs
    split at hb
    · rename_i ss' u' hs'
      obtain ⟨toks, h1, h2⟩ := C74_script (.inl rfl) fns false true (f := 200) (a := str% "SELECT a; -- x")
        (b := str% "SELECT b FROM t; SELECT c;") (ta := textToks (str% "SELECT a; -- x"))
        (tb := textToks (str% "SELECT b FROM t; SELECT c;")) (by kernel_rfl) (by kernel_rfl) (by decide) 200 (by decide +kernel)
        ss hs (by unfold NoLead; decide +kernel) 100 (by decide)
      refine ⟨toks, h1, ?_⟩
      rw [hs'] at h2
      cases hr : runSQL fns 200 false toks with
      | ok ss'' u'' =>
        refine ⟨ss'', rfl, ?_⟩
        rw [hr] at h2
        simp only [andThen, Res.mapVal, Res.ok.injEq, and_true] at h2
        have := congrArg List.length h2
        simp at this ha hb
        omega
      | _ => rw [hr] at h2; cases h2
    · cases hb
  · cases ha

/-- Hypotheses of `C74_local` met: the last token, `<`, is continued by `=`, the others remain. -/
example : ∃ ts t, tokenize genericDialect true 20 (str% "a <") = .ok (ts ++ [t]) ∧
    tokenize genericDialect true 20 (str% "a <= b") = .ok (ts ++ [⟨.sym .LtEq ['<', '='], ⟨1, 3⟩, ⟨1, 5⟩⟩,
      ⟨.whitespace [' '], ⟨1, 5⟩, ⟨1, 6⟩⟩, ⟨.word ⟨['b'], none, ['B']⟩, ⟨1, 6⟩, ⟨1, 7⟩⟩]) :=
  ⟨[⟨.word ⟨['a'], none, ['A']⟩, ⟨1, 1⟩, ⟨1, 2⟩⟩, ⟨.whitespace [' '], ⟨1, 2⟩, ⟨1, 3⟩⟩], ⟨.sym .Lt ['<'], ⟨1, 3⟩, ⟨1, 4⟩⟩,
    by kernel_rfl, by kernel_rfl⟩

end Verif
