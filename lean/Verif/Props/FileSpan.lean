import Verif.Props.Within
import Verif.Props.Alphabet
import Verif.Props.CommentFile
import Verif.Proofs.CommentPlace
/-
Property theorem C69: `Pos` and `End` of a file (ast.go:30-49).
-/
set_option maxRecDepth 100000
namespace Verif
open Spec

/-- The token is neither a space nor a semicolon. -/
def Token.content (t : Token) : Bool :=
  match t.tok with
  | .whitespace _ => false
  | .sym .Semicolon _ => false
  | _ => true

/-! ### `File.Pos` and `File.End` in terms of the comments of the text -/

theorem file_pos_eq {f : File} {cs : List Comment} (hne : ∀ g ∈ f.comments, g.list ≠ [])
    (hcs : f.comments.flatMap (·.list) = cs) :
    f.pos = (f.stmts.head?.bind Stmt.pos).map fun s =>
      match cs.head? with
      | none => s
      | some c => if comparePos s c.from_ = 1 then c.from_ else s := by
  unfold File.pos
  subst hcs
  cases hc : f.comments with
  | nil => cases f.stmts.head?.bind Stmt.pos <;> rfl
  | cons g gs =>
    have := hne g (by rw [hc]; simp)
    obtain ⟨l⟩ := g
    cases l with
    | nil => exact absurd rfl this
    | cons c l => cases f.stmts.head?.bind Stmt.pos <;> simp [CommentGroup.pos?]

theorem file_end_eq {f : File} {cs : List Comment} (hne : ∀ g ∈ f.comments, g.list ≠ [])
    (hcs : f.comments.flatMap (·.list) = cs) :
    f.end_ = (f.stmts.getLast?.bind Stmt.end_).map fun s =>
      match cs.getLast? with
      | none => s
      | some c => if comparePos c.to_ s = 1 then c.to_ else s := by
  unfold File.end_
  subst hcs
  rcases List.eq_nil_or_concat f.comments with hc | ⟨gs, g, hc⟩
  · rw [hc]; cases f.stmts.getLast?.bind Stmt.end_ <;> rfl
  · rw [List.concat_eq_append] at hc
    have := hne g (by rw [hc]; simp)
    obtain ⟨l⟩ := g
    rcases List.eq_nil_or_concat l with hl | ⟨l, c, hl⟩
    · exact absurd hl this
    · rw [List.concat_eq_append] at hl
      subst hl
      rw [hc]
      cases f.stmts.getLast?.bind Stmt.end_ <;> simp [CommentGroup.end?, ← List.append_assoc]

theorem mem_commentsOf {toks : List Token} {c : Comment} :
    c ∈ commentsOf toks ↔ ∃ t ∈ toks, t.tok = .comment c.text ∧ t.from_ = c.from_ ∧ t.to_ = c.to_ := by
  obtain ⟨s, a, b⟩ := c
  simp only [commentsOf, List.mem_filterMap]
  constructor
  · rintro ⟨t, ht, h⟩
    refine ⟨t, ht, ?_⟩
    split at h
    · cases h; exact ⟨by assumption, rfl, rfl⟩
    · cases h
  · rintro ⟨t, ht, h1, h2, h3⟩
    refine ⟨t, ht, ?_⟩
    rw [h1]
    exact congrArg some (by rw [← h2, ← h3])

/-- What the parser and the tokenizer guarantee. -/
structure FileFacts (fns : FloatFns) (toks : List Token) (f : File) : Prop where
  ne : ∀ g ∈ f.comments, g.list ≠ []
  cs : f.comments.flatMap (·.list) = commentsOf toks
  lang : scriptLang fns ⟨true, false, true⟩ f.stmts (significant toks)
  wide : ∀ t ∈ toks, t.from_.lt t.to_
  ord : toks.Pairwise fun a b => ¬ b.from_.lt a.to_
  stars : StarsOk toks

theorem fileFacts {d : Dialect} {fuel : Nat} {src : Str} {fns : FloatFns} {n : Nat} {toks : List Token} {f : File}
    {s : PState} (ht : tokenize d true fuel src = .ok toks) (h : parseFile fns n true (newParser toks) = .ok f s) :
    FileFacts fns toks f := by
  have h1 := C19_tokenized ht
  refine ⟨(C19_sorted h1.1 h).1, C18_comments_complete_text ht h, C50_file_grammar fns n fuel true d src toks ht f s h,
    fun t ht => (comparePos_lt_iff _ _).1 (h1.2.1 t ht), h1.2.2.imp fun {a b} hab hlt => hab ?_, (C45_source ht).2⟩
  rw [(comparePos_lt_iff _ _).2 hlt]
  decide

/-! ### Lists of tokens -/

theorem find_split {p : Token → Bool} : ∀ {l : List Token}, (∃ t ∈ l, p t = true) →
    ∃ pre t post, l = pre ++ t :: post ∧ p t = true ∧ ∀ u ∈ pre, p u = false
  | [], h => by obtain ⟨t, ht, -⟩ := h; cases ht
  | a :: l, h => by
    cases ha : p a with
    | true => exact ⟨[], a, l, rfl, ha, by simp⟩
    | false =>
      obtain ⟨t, ht, hp⟩ := h
      rcases List.mem_cons.1 ht with rfl | ht
      · rw [ha] at hp; cases hp
      · obtain ⟨pre, u, post, h1, h2, h3⟩ := find_split ⟨t, ht, hp⟩
        refine ⟨a :: pre, u, post, by rw [h1]; rfl, h2, fun v hv => ?_⟩
        rcases List.mem_cons.1 hv with rfl | hv
        · exact ha
        · exact h3 v hv

theorem split_unique {p : Token → Bool} {t t' : Token} : ∀ {pre pre' post post' : List Token},
    pre ++ t :: post = pre' ++ t' :: post' → p t = true → p t' = true → (∀ u ∈ pre, p u = false) →
    (∀ u ∈ pre', p u = false) → t = t'
  | [], [], _, _, h, _, _, _, _ => by simp at h; exact h.1
  | [], b :: pre', _, _, h, h1, _, _, h4 => by
    simp at h
    have := h4 b (by simp)
    rw [← h.1, h1] at this; cases this
  | a :: pre, [], _, _, h, _, h2, h3, _ => by
    simp at h
    have := h3 a (by simp)
    rw [h.1, h2] at this; cases this
  | a :: pre, b :: pre', _, _, h, h1, h2, h3, h4 => by
    simp at h
    exact split_unique h.2 h1 h2 (fun u hu => h3 u (by simp [hu])) (fun u hu => h4 u (by simp [hu]))

theorem comment_content {t : Token} {s : Str} (h : t.tok = .comment s) : t.content = true := by
  simp [Token.content, h]

theorem inStatement_content {t : Token} (h : inStatement t.tok = true) : t.content = true ∧ t.sig = true := by
  unfold Token.content Token.sig
  revert h
  cases t.tok with
  | sym k s => cases k <;> simp [inStatement, Tok.insignificant]
  | _ => simp [inStatement, Tok.insignificant]

/-- The first token that is not a space or semicolon. -/
theorem first_content {toks pre post : List Token} {t : Token} (h : toks = pre ++ t :: post) (ht : t.content = true)
    (hp : ∀ u ∈ pre, u.content = false) : (toks.filter Token.content).head? = some t := by
  subst h
  rw [List.filter_append, List.filter_eq_nil_iff.2 (by simpa using hp)]
  simp [ht]

theorem last_content {toks pre post : List Token} {t : Token} (h : toks = pre ++ t :: post) (ht : t.content = true)
    (hp : ∀ u ∈ post, u.content = false) : (toks.filter Token.content).getLast? = some t := by
  subst h
  rw [List.filter_append, List.filter_cons, if_pos ht, (List.filter_eq_nil_iff (l := post)).2 (by simpa using hp)]
  simp

theorem last_split {p : Token → Bool} {l : List Token} (h : ∃ t ∈ l, p t = true) :
    ∃ pre t post, l = pre ++ t :: post ∧ p t = true ∧ ∀ u ∈ post, p u = false := by
  obtain ⟨t, ht, hp⟩ := h
  obtain ⟨pre, u, post, h1, h2, h3⟩ := find_split (l := l.reverse) ⟨t, List.mem_reverse.2 ht, hp⟩
  refine ⟨post.reverse, u, pre.reverse, ?_, h2, fun v hv => h3 v (List.mem_reverse.1 hv)⟩
  rw [← List.reverse_reverse l, h1]
  simp

/-! ### `Pos` -/

theorem kwd_ne {k : KW} {a : Lang} {ts : List Token} (h : (kwd k ⬝ a) ts) : ts ≠ [] := by
  obtain ⟨_, _, rfl, ⟨t, w, rfl, _⟩, _⟩ := h
  simp

theorem append_ne {us vs : List Token} (h : us ≠ []) : us ++ vs ≠ [] := by simp [h]

theorem body_unset {fns : FloatFns} {q : Quirks} : ∀ {x : SetExpr} {ts : List Token}, x.leftOk = false →
    x.lang fns q ts → x.pos = some Pos.zero ∧ ts ≠ []
  | .selectExpr _, _, hl, _ => by cases hl
  | .select _, _, hl, _ => by cases hl
  | .query lp rp s, _, _, h => by
    rw [SetExpr.lang] at h
    obtain ⟨_, _, rfl, ⟨_, _, rfl, ⟨t, w, rfl, _⟩, _⟩, _, _, _, h1, _⟩ := h
    exact ⟨by rw [SetExpr.pos, h1.2], by simp⟩
  | .setOp op all l r, _, hl, h => by
    rw [SetExpr.lang] at h
    obtain ⟨us, _, rfl, h1, _⟩ := h
    rw [SetExpr.leftOk] at hl
    exact ⟨by rw [SetExpr.pos, (body_unset hl h1).1], append_ne (body_unset hl h1).2⟩

theorem unset_pos {fns : FloatFns} {q : Quirks} {x : Stmt} (hl : x.leftOk = false) {ts : List Token}
    (h : x.lang fns q ts) : x.pos = some Pos.zero ∧ ts ≠ [] := by
  cases x with
  | query s =>
    obtain ⟨w, ctes, body, orderBy, limit⟩ := s
    simp only [Stmt.lang, QueryStmt.lang] at h
    obtain ⟨_, _, rfl, hc, _, _, rfl, hb, _, _, _, _, _, _, _, _, hw⟩ := h
    simp only [Stmt.pos, QueryStmt.pos]
    cases ctes with
    | cons c cs => exact ⟨by simp [hw.2], append_ne (kwd_ne hc)⟩
    | nil =>
      simp only [Stmt.leftOk, QueryStmt.leftOk, List.isEmpty_nil, Bool.true_and] at hl
      have := body_unset hl hb
      exact ⟨this.1, by simp [this.2]⟩
  | createIndex p name unique indexName methodName is rp cond =>
    simp only [Stmt.lang] at h
    have hne := kwd_ne h
    obtain ⟨_, _, _, _, _, _, _, _, _, _, _, _, _, _, _, _, _, _, _, _, _, _, _, _, _, _, _, _, _, _, _, _, _, _, _, h1, _⟩ := h
    exact ⟨by rw [Stmt.pos, h1.2], hne⟩
  | explain s p =>
    simp only [Stmt.lang] at h
    have hne := kwd_ne h
    obtain ⟨_, _, _, _, _, _, _, _, hp⟩ := h
    exact ⟨by rw [Stmt.pos, hp.2], hne⟩
  | _ => cases hl

/-- The first token of a statement. -/
theorem stmt_first {fns : FloatFns} {q : Quirks} {x : Stmt} {ts : List Token} (h : x.lang fns q ts) :
    ∃ t us, ts = t :: us ∧ x.pos = some (if x.leftOk then t.from_ else Pos.zero) := by
  cases hl : x.leftOk with
  | true => exact node_starts (fns := fns) (q := q) (.stmt x) hl ts h
  | false =>
    obtain ⟨h1, h2⟩ := unset_pos hl h
    cases ts with
    | nil => exact absurd rfl h2
    | cons t us => exact ⟨t, us, rfl, h1⟩

/-- The first comment of a text is not before a token with only spaces and semicolons before it. -/
theorem firstComment {fns : FloatFns} {toks pre post : List Token} {t : Token} {f : File} (F : FileFacts fns toks f)
    (e : toks = pre ++ t :: post) (hpre : ∀ u ∈ pre, u.content = false) {c : Comment}
    (hc : (commentsOf toks).head? = some c) :
    (∃ s, t.tok = .comment s ∧ c.from_ = t.from_) ∨ (∀ s, t.tok ≠ .comment s) ∧ t.from_.lt c.from_ := by
  have h0 : commentsOf pre = [] := by
    cases hp : commentsOf pre with
    | nil => rfl
    | cons c' cs =>
      obtain ⟨u, hu, h1, -⟩ := mem_commentsOf.1 (show c' ∈ commentsOf pre by rw [hp]; simp)
      have := hpre u hu
      rw [comment_content h1] at this
      cases this
  have h1 : commentsOf toks = commentsOf (t :: post) := by
    rw [e]
    simp only [commentsOf, List.filterMap_append] at h0 ⊢
    rw [h0, List.nil_append]
  rw [h1] at hc
  cases ht : t.tok with
  | comment s =>
    left
    simp only [commentsOf, List.filterMap_cons, ht, List.head?_cons, Option.some.injEq] at hc
    exact ⟨s, rfl, by rw [← hc]⟩
  | _ =>
    right
    refine ⟨by simp, ?_⟩
    have hc : c ∈ commentsOf post := by
      simp only [commentsOf, List.filterMap_cons, ht] at hc
      exact List.mem_of_mem_head? hc
    obtain ⟨u, hu, -, h2, -⟩ := mem_commentsOf.1 hc
    have o := F.ord
    rw [e, List.pairwise_append] at o
    have := (List.pairwise_cons.1 o.2.1).1 u hu
    have w := F.wide t (by rw [e]; simp)
    rw [← h2]
    simp only [Pos.lt] at this w ⊢
    omega

/-- C69, `Pos`: it is where the first token of the text begins that is neither a space nor a semicolon (it may be a
comment), if the first statement begins with a keyword whose position is stored, and (0, 0) otherwise. -/
theorem C69_pos {d : Dialect} {fuel : Nat} {src : Str} {fns : FloatFns} {n : Nat} {toks : List Token} {f : File}
    {s : PState} (ht : tokenize d true fuel src = .ok toks) (h : parseFile fns n true (newParser toks) = .ok f s)
    {x : Stmt} {xs : List Stmt} (hx : f.stmts = x :: xs) :
    ∃ t, (toks.filter Token.content).head? = some t ∧ f.pos = some (if x.leftOk then t.from_ else Pos.zero) := by
  have F := fileFacts ht h
  have hl := F.lang
  rw [hx] at hl
  obtain ⟨us, vs, h1, hu, ys, zs, rfl, ⟨ys, ws, rfl, hy, -⟩, -⟩ := hl
  have hus : ∀ u ∈ us, u.content = false := by
    rcases hu with hu | ⟨u, w, rfl, hw⟩
    · cases hu; simp
    · simp [Token.content, hw]
  have hyo := x.over fns _ ys hy
  obtain ⟨a, ys', rfl, hp⟩ := stmt_first hy
  have ha := inStatement_content (hyo.1 a (by simp))
  have hmem : a ∈ toks := (List.mem_filter.1 (show a ∈ toks.filter Token.sig by
    have : a ∈ significant toks := by rw [h1]; simp
    exact this)).1
  obtain ⟨pre, t, post, e, htc, hpre⟩ := find_split (p := Token.content) ⟨a, hmem, ha.1⟩
  refine ⟨t, first_content e htc hpre, ?_⟩
  rw [file_pos_eq F.ne F.cs, hx]
  simp only [List.head?_cons, Option.bind_some, hp, Option.map_some, Option.some.injEq]
  -- the first token of the statement, unless a comment comes before it
  have hat : (∀ s, t.tok ≠ .comment s) → t = a := by
    intro hnc
    have hts : t.sig = true := by
      revert htc hnc
      simp only [Token.content, Token.sig]
      cases t.tok <;> simp [Tok.insignificant]
    have e' : significant toks = pre.filter Token.sig ++ t :: post.filter Token.sig := by
      rw [e]; simp [significant, List.filter_append, hts]
    rw [h1] at e'
    refine (split_unique (p := Token.content) (pre := us) (post := ys' ++ ws ++ zs) (pre' := pre.filter Token.sig)
      (post' := post.filter Token.sig) ?_ ha.1 htc hus fun u hu => hpre u (List.mem_filter.1 hu).1).symm
    rw [← e']; simp
  have hta : ∀ w, t.tok = .comment w → t.from_.lt a.from_ := by
    intro w hw
    have hne : a ≠ t := by
      rintro rfl
      have := ha.2
      simp [Token.sig, hw, Tok.insignificant] at this
    have hpost : a ∈ post := by
      rw [e] at hmem
      rcases List.mem_append.1 hmem with hm | hm
      · have := hpre a hm
        rw [ha.1] at this
        cases this
      · exact (List.mem_cons.1 hm).resolve_left hne
    have o := F.ord
    rw [e, List.pairwise_append] at o
    have h3 := (List.pairwise_cons.1 o.2.1).1 a hpost
    have h4 := F.wide t (by rw [e]; simp)
    simp only [Pos.lt] at h3 h4 ⊢
    omega
  cases hc : (commentsOf toks).head? with
  | none =>
    cases hl : x.leftOk with
    | false => simp
    | true =>
      have : ∀ w, t.tok ≠ .comment w := by
        intro w hw
        have hm : (⟨w, t.from_, t.to_⟩ : Comment) ∈ commentsOf toks := mem_commentsOf.2 ⟨t, by rw [e]; simp, hw, rfl, rfl⟩
        rw [List.head?_eq_none_iff.1 hc] at hm
        cases hm
      simp [hat this]
  | some c =>
    cases hl : x.leftOk with
    | false =>
      have : ¬ comparePos Pos.zero c.from_ = 1 := by
        rw [comparePos_gt_iff]
        simp [Pos.lt, Pos.zero]
      simp [this]
    | true =>
      rcases firstComment F e hpre hc with ⟨w, hw, hcf⟩ | ⟨hnc, hlt⟩
      · have := hta w hw
        rw [← comparePos_gt_iff] at this
        simp [this, hcf]
      · rw [hat hnc] at hlt ⊢
        have : ¬ comparePos a.from_ c.from_ = 1 := by
          rw [comparePos_gt_iff]
          simp only [Pos.lt] at hlt ⊢
          omega
        simp [this]

/-! ### `End` -/

theorem commentsOf_ord {fns : FloatFns} {toks : List Token} {f : File} (F : FileFacts fns toks f) :
    (∀ c ∈ commentsOf toks, c.from_.lt c.to_) ∧ (commentsOf toks).Pairwise fun a b => ¬ b.from_.lt a.to_ := by
  constructor
  · intro c hc
    obtain ⟨t, ht, -, h2, h3⟩ := mem_commentsOf.1 hc
    rw [← h2, ← h3]
    exact F.wide t ht
  · refine F.ord.filterMap _ fun a b hab c hc c' hc' => ?_
    split at hc <;> cases hc
    split at hc' <;> cases hc'
    exact hab

/-- C69: if `Pos` and `End` do not panic, all comments are between them. -/
theorem C69_covers {d : Dialect} {fuel : Nat} {src : Str} {fns : FloatFns} {n : Nat} {toks : List Token} {f : File}
    {s : PState} (ht : tokenize d true fuel src = .ok toks) (h : parseFile fns n true (newParser toks) = .ok f s)
    {p e : Pos} (hp : f.pos = some p) (he : f.end_ = some e) (t : Token) (hm : t ∈ toks) (w : Str)
    (hw : t.tok = .comment w) : comparePos p t.from_ ≠ 1 ∧ comparePos t.to_ e ≠ 1 := by
  have F := fileFacts ht h
  have hmem : (⟨w, t.from_, t.to_⟩ : Comment) ∈ commentsOf toks := mem_commentsOf.2 ⟨t, hm, hw, rfl, rfl⟩
  obtain ⟨wide, ord⟩ := commentsOf_ord F
  rw [file_pos_eq F.ne F.cs] at hp
  rw [file_end_eq F.ne F.cs] at he
  obtain ⟨p', -, hp⟩ := Option.map_eq_some_iff.1 hp
  obtain ⟨e', -, he⟩ := Option.map_eq_some_iff.1 he
  simp only [ne_eq, comparePos_gt_iff]
  constructor
  · cases hc : commentsOf toks with
    | nil => rw [hc] at hmem; cases hmem
    | cons c cs =>
      rw [hc] at hmem ord wide hp
      simp only [List.head?_cons] at hp
      have hle : ¬ t.from_.lt c.from_ := by
        rcases List.mem_cons.1 hmem with hm | hm
        · rw [← hm]; simp only [Pos.lt]; omega
        · have h1 := (List.pairwise_cons.1 ord).1 _ hm
          have h2 := wide c (by simp)
          simp only [Pos.lt] at h1 h2 ⊢
          omega
      split at hp <;> subst hp
      · exact hle
      · rename_i hn
        rw [comparePos_gt_iff] at hn
        simp only [Pos.lt] at hn hle ⊢
        omega
  · rcases List.eq_nil_or_concat (commentsOf toks) with hc | ⟨cs, c, hc⟩
    · rw [hc] at hmem; cases hmem
    · rw [List.concat_eq_append] at hc
      rw [hc] at hmem ord wide he
      simp only [List.getLast?_append, List.getLast?_singleton, Option.some_or] at he
      have hle : ¬ c.to_.lt t.to_ := by
        rcases List.mem_append.1 hmem with hm | hm
        · have h1 := (List.pairwise_append.1 ord).2.2 _ hm c (by simp)
          have h2 := wide c (by simp)
          simp only [Pos.lt] at h1 h2 ⊢
          omega
        · rw [← List.mem_singleton.1 hm]; simp only [Pos.lt]; omega
      split at he <;> subst he
      · exact hle
      · rename_i hn
        rw [comparePos_gt_iff] at hn
        simp only [Pos.lt] at hn hle ⊢
        omega

theorem concat_last {as : List Lang} {a : Lang} : ∀ {ts : List Token}, concat (as ++ [a]) ts →
    ∃ us vs, ts = us ++ vs ∧ a vs := by
  induction as with
  | nil =>
    rintro _ ⟨us, vs, rfl, h1, h2⟩
    cases h2
    exact ⟨[], us, by simp, h1⟩
  | cons b as ih =>
    rintro _ ⟨us, vs, rfl, _, h2⟩
    obtain ⟨xs, ys, rfl, h3⟩ := ih h2
    exact ⟨us ++ xs, ys, by simp, h3⟩

/-- The last comment of a text is not after a token with only spaces and semicolons after it. -/
theorem lastComment {fns : FloatFns} {toks pre post : List Token} {t : Token} {f : File} (F : FileFacts fns toks f)
    (e : toks = pre ++ t :: post) (hpost : ∀ u ∈ post, u.content = false) {c : Comment}
    (hc : (commentsOf toks).getLast? = some c) :
    (∃ s, t.tok = .comment s ∧ c.to_ = t.to_) ∨ (∀ s, t.tok ≠ .comment s) ∧ c.to_.lt t.to_ := by
  have h0 : commentsOf post = [] := by
    cases hp : commentsOf post with
    | nil => rfl
    | cons c' cs =>
      obtain ⟨u, hu, h1, -⟩ := mem_commentsOf.1 (show c' ∈ commentsOf post by rw [hp]; simp)
      have := hpost u hu
      rw [comment_content h1] at this
      cases this
  have h1 : commentsOf toks = commentsOf (pre ++ [t]) := by
    rw [e]
    simp only [commentsOf, List.filterMap_append, List.filterMap_cons] at h0 ⊢
    rw [h0]
    cases t.tok <;> rfl
  rw [h1] at hc
  cases ht : t.tok with
  | comment s =>
    left
    simp [commentsOf, List.filterMap_append, ht] at hc
    exact ⟨s, rfl, by rw [← hc]⟩
  | _ =>
    right
    refine ⟨by simp, ?_⟩
    have hc : c ∈ commentsOf pre := by
      have he : commentsOf (pre ++ [t]) = commentsOf pre := by
        simp [commentsOf, List.filterMap_append, ht]
      rw [he] at hc
      exact List.mem_of_getLast? hc
    obtain ⟨u, hu, -, -, h2⟩ := mem_commentsOf.1 hc
    have o := F.ord
    rw [e, List.pairwise_append] at o
    have := o.2.2 u hu t (by simp)
    have w := F.wide t (by rw [e]; simp)
    rw [← h2]
    simp only [Pos.lt] at this w ⊢
    omega

/-- C69, `End`: it is where the last token of the text ends that is neither a space nor a semicolon (it may be a
comment), unless `End` of the last statement is wrong (C45). -/
theorem C69_end {d : Dialect} {fuel : Nat} {src : Str} {fns : FloatFns} {n : Nat} {toks : List Token} {f : File}
    {s : PState} (ht : tokenize d true fuel src = .ok toks) (h : parseFile fns n true (newParser toks) = .ok f s)
    {x : Stmt} {xs : List Stmt} (hx : f.stmts = xs ++ [x]) (hr : x.rightOk = true) :
    ∃ t l, (toks.filter Token.content).getLast? = some t ∧
      ((significant toks).filter Token.content).getLast? = some l ∧ (l.dangling = false → f.end_ = some t.to_) := by
  have F := fileFacts ht h
  have hl := F.lang
  rw [hx] at hl
  obtain ⟨us, vs, h1, hu, hv⟩ := hl
  rw [List.map_append, List.map_cons, List.map_nil] at hv
  obtain ⟨zs, _, rfl, ys, ws, rfl, hy, ⟨u, w, rfl, hw⟩⟩ := concat_last hv
  have hyo := x.over fns _ ys hy
  have hsub : ∀ t ∈ significant toks, t ∈ toks := fun t ht => (List.mem_filter.1 ht).1
  have hst : StarsOk ys := fun t ht => F.stars t (hsub t (by rw [h1]; simp [ht]))
  obtain ⟨ys', a, rfl, hp⟩ := node_ends (fns := fns) (q := ⟨true, false, true⟩) (.stmt x) hr ys hst hy
  have hp : a.dangling = false → x.end_ = some a.to_ := fun hd => hp fun _ => hd
  have ha := inStatement_content (hyo.1 a (by simp))
  have hmem : a ∈ toks := hsub a (by rw [h1]; simp)
  have huc : u.content = false := by simp [Token.content, hw]
  have h1' : significant toks = (us ++ zs ++ ys') ++ a :: [u] := by rw [h1]; simp
  obtain ⟨pre, t, post, e, htc, hpost⟩ := last_split (p := Token.content) ⟨a, hmem, ha.1⟩
  refine ⟨t, a, last_content e htc hpost, last_content h1' ha.1 (by simpa using huc), fun hd => ?_⟩
  rw [file_end_eq F.ne F.cs, hx]
  simp only [List.getLast?_append, List.getLast?_singleton, Option.some_or, Option.bind_some, hp hd, Option.map_some,
    Option.some.injEq]
  have hat : (∀ s, t.tok ≠ .comment s) → t = a := by
    intro hnc
    have hts : t.sig = true := by
      revert htc hnc
      simp only [Token.content, Token.sig]
      cases t.tok <;> simp [Tok.insignificant]
    have e' : significant toks = pre.filter Token.sig ++ t :: post.filter Token.sig := by
      rw [e]; simp [significant, List.filter_append, hts]
    rw [h1'] at e'
    have e'' := congrArg List.reverse e'
    simp only [List.reverse_append, List.reverse_cons, List.reverse_nil, List.nil_append, List.append_assoc,
      List.singleton_append] at e''
    refine (split_unique (p := Token.content) (pre := [u]) (pre' := (post.filter Token.sig).reverse)
      e'' ha.1 htc (by simpa using huc) fun u hu => hpost u (List.mem_filter.1 (List.mem_reverse.1 hu)).1).symm
  have hta : ∀ w, t.tok = .comment w → a.to_.lt t.to_ := by
    intro w hw
    have hne : a ≠ t := by
      rintro rfl
      have := ha.2
      simp [Token.sig, hw, Tok.insignificant] at this
    have hpre : a ∈ pre := by
      rw [e] at hmem
      rcases List.mem_append.1 hmem with hm | hm
      · exact hm
      · have := hpost a ((List.mem_cons.1 hm).resolve_left hne)
        rw [ha.1] at this
        cases this
    have o := F.ord
    rw [e, List.pairwise_append] at o
    have h3 := o.2.2 a hpre t (by simp)
    have h4 := F.wide t (by rw [e]; simp)
    simp only [Pos.lt] at h3 h4 ⊢
    omega
  cases hc : (commentsOf toks).getLast? with
  | none =>
    have : ∀ w, t.tok ≠ .comment w := by
      intro w hw
      have hm : (⟨w, t.from_, t.to_⟩ : Comment) ∈ commentsOf toks := mem_commentsOf.2 ⟨t, by rw [e]; simp, hw, rfl, rfl⟩
      rw [List.getLast?_eq_none_iff.1 hc] at hm
      cases hm
    simp [hat this]
  | some c =>
    rcases lastComment F e hpost hc with ⟨w, hw, hcf⟩ | ⟨hnc, hlt⟩
    · have := hta w hw
      rw [← comparePos_gt_iff] at this
      simp [this, hcf]
    · rw [hat hnc] at hlt ⊢
      have : ¬ comparePos c.to_ a.to_ = 1 := by
        rw [comparePos_gt_iff]
        simp only [Pos.lt] at hlt ⊢
        omega
      simp [this]

/-! ### Examples -/

/-- `Pos` and `End` of the file that a text gives, and the first and last position that are not those of spaces and
semicolons. -/
def fileSpan (fns : FloatFns) (src : Str) : Option ((Option Pos × Option Pos) × (Option Pos × Option Pos)) :=
  (fileOf fns src).map fun (toks, f) => ((f.pos, f.end_), (((toks.filter Token.content).head?.map Token.from_),
    ((toks.filter Token.content).getLast?.map Token.to_)))

/-- Statements begin and end the file, or comments do. -/
example (fns : FloatFns) :
    fileSpan fns (str% " ; DELETE FROM t;\n/* c */ DELETE FROM u ; ") =
      some ((some ⟨1, 4⟩, some ⟨2, 22⟩), (some ⟨1, 4⟩, some ⟨2, 22⟩)) ∧
    fileSpan fns (str% "-- a\nDELETE FROM t; -- b\n") =
      some ((some ⟨1, 1⟩, some ⟨2, 20⟩), (some ⟨1, 1⟩, some ⟨2, 20⟩)) := by
  constructor <;> kernel_rfl

/-- C69 is about statements whose positions are right: with EXPLAIN the file begins at (0, 0), and with a table
it ends within the CREATE TABLE. -/
theorem C69_span_false (fns : FloatFns) :
    fileSpan fns (str% "/* c */ EXPLAIN DELETE FROM t;") =
      some ((some ⟨0, 0⟩, some ⟨1, 30⟩), (some ⟨1, 1⟩, some ⟨1, 30⟩)) ∧
    fileSpan fns (str% "CREATE TABLE t (a int NOT NULL);") =
      some ((some ⟨1, 1⟩, some ⟨1, 31⟩), (some ⟨1, 1⟩, some ⟨1, 32⟩)) := by
  constructor <;> kernel_rfl

/-- Hypotheses met. -/
example (fns : FloatFns) : ∃ toks f x xs, fileOf fns (str% "-- a\nDELETE FROM t; -- b\n") = some (toks, f) ∧
    f.stmts = x :: xs ∧ f.stmts = [] ++ [x] ∧ x.leftOk = true ∧ x.rightOk = true := by
  have h : (fileOf fns (str% "-- a\nDELETE FROM t; -- b\n")).map (fun p => (p.2.stmts.length, p.2.stmts.map Stmt.leftOk,
      p.2.stmts.map Stmt.rightOk)) = some (1, [true], [true]) := by kernel_rfl
  obtain ⟨⟨toks, f⟩, h1, h2⟩ := Option.map_eq_some_iff.1 h
  simp only [Prod.mk.injEq] at h2
  match hs : f.stmts with
  | [] => rw [hs] at h2; simp at h2
  | [x] =>
    rw [hs] at h2
    simp at h2
    exact ⟨toks, f, x, [], h1, hs, hs, h2.1, h2.2⟩
  | _ :: _ :: _ => rw [hs] at h2; simp at h2

end Verif
