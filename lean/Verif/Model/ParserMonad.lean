import Verif.Model.Ast
import Verif.Model.Kw
/-
The parser's access to the token stream (parser.go:2869-3123), and the type of parser programs.

A parser function of parser.go touches the `Parser` struct only through `nextToken`, `peekToken`,
`prevToken` and `parseKeywords`.  It is modelled as a value of type `P`, a program whose primitive
steps are these four operations; `run` executes a program on a `Parser` state, in either comment
mode.  An error return is `P.err` (the text of the error is not modelled), a panic (`log.Panic`, nil
dereference, failed type assertion) is `P.panic`, and `P.oof` marks an exhausted recursion budget
(see Model/Parser.lean; C20 proves that it does not occur).
-/
namespace Verif

/-- A parser program. -/
inductive P (α : Type) where
  | ret (a : α)
  | next (k : Option Token → P α)
  | peek (k : Option Token → P α)
  | prev (k : P α)
  | kws (ks : List Str) (k : Option (List Token) → P α)
  | err
  | panic
  | oof

namespace P

def bind : P α → (α → P β) → P β
  | ret a, f => f a
  | next k, f => next fun t => (k t).bind f
  | peek k, f => peek fun t => (k t).bind f
  | prev k, f => prev (k.bind f)
  | kws ks k, f => kws ks fun r => (k r).bind f
  | err, _ => err
  | panic, _ => panic
  | oof, _ => oof

instance : Monad P where
  pure := ret
  bind := bind

end P

/-- The `Parser` struct (parser.go:18-23) without `parseComment`, which never changes after
construction and is an argument of `run`.  `comments`, a Go map, is an association list with at most
one entry per key. -/
structure PState where
  toks : List Token
  idx : Nat
  comments : List (Pos × CommentGroup)

/-- Assignment to a map entry. -/
def mapInsert (m : List (Pos × CommentGroup)) (k : Pos) (v : CommentGroup) : List (Pos × CommentGroup) :=
  match m with
  | [] => [(k, v)]
  | (k', v') :: m' => if k' = k then (k, v) :: m' else (k', v') :: mapInsert m' k v

/-- Map lookup `_, ok := m[k]`. -/
def mapHas (m : List (Pos × CommentGroup)) (k : Pos) : Bool := m.any fun e => e.1 == k

/-- parser.go:2925-2934, the loop of `nextToken` without comments: read tokens from position `i`, where
`ts` is the part of the token slice from `i` on, up to the first significant one. -/
def nextLoop : List Token → Nat → Option Token × Nat
  | [], i => (none, i)
  | t :: ts, i => if t.sig then (some t, i + 1) else nextLoop ts (i + 1)

/-- parser.go:2971-2981: looking back from a line break at index `p.index - 1`, is there a significant
token on the same line?  `before` is the token slice up to and including the line break, reversed. -/
def splitGroup (line : Nat) : List Token → Bool
  | [] => false
  | prev :: before =>
    if prev.to_.line < line then false
    else if prev.sig then true
    else splitGroup line before

/-- parser.go:2945-3023, the loop of `nextTokenWithParseComment` and the code after it.  `before` is
`p.tokens[:p.index]` reversed, `skip` is `skipComment`, `groups` and `m` as in Go. -/
def commentLoop (comments : List (Pos × CommentGroup)) :
    List Token → List Token → Nat → Bool → List CommentGroup → List Comment →
    Option Token × Nat × List CommentGroup
  | [], _, i, _, groups, m => (none, i, if m = [] then groups else groups ++ [⟨m⟩])
  | t :: ts, before, i, skip, groups, m =>
    match t.tok with
    | .whitespace s =>
      if s ≠ ['\n'] ∨ m = [] then commentLoop comments ts (t :: before) (i + 1) skip groups m
      else if splitGroup t.from_.line (t :: before) then
        commentLoop comments ts (t :: before) (i + 1) skip (groups ++ [⟨m⟩]) []
      else commentLoop comments ts (t :: before) (i + 1) skip groups m
    | .comment s =>
      if skip then commentLoop comments ts (t :: before) (i + 1) skip groups m
      else if mapHas comments t.from_ then
        commentLoop comments ts (t :: before) (i + 1) true groups m
      else commentLoop comments ts (t :: before) (i + 1) skip groups (m ++ [⟨s, t.from_, t.to_⟩])
    | _ => (some t, i + 1, if m = [] then groups else groups ++ [⟨m⟩])

/-- sqlast/comment.go:25-27, `CommentGroup.Pos`; panics on an empty group, which `nextTokenWithParseComment`
never asks for. -/
def CommentGroup.pos (g : CommentGroup) : Pos :=
  match g.list with
  | [] => Pos.zero
  | c :: _ => c.from_

/-- parser.go:2953-2957 and 3019-3023. -/
def record (comments : List (Pos × CommentGroup)) (groups : List CommentGroup) :
    List (Pos × CommentGroup) :=
  groups.foldl (fun m g => if g.list = [] then m else mapInsert m g.pos g) comments

/-- parser.go:2920-3026, `nextToken`; `none` for the error `EOF`, its only error. -/
def PState.next (mode : Bool) (s : PState) : Option Token × PState :=
  if mode then
    let r := commentLoop s.comments (s.toks.drop s.idx) (s.toks.take s.idx).reverse s.idx false [] []
    (r.1, { s with idx := r.2.1, comments := record s.comments r.2.2 })
  else
    let r := nextLoop (s.toks.drop s.idx) s.idx
    (r.1, { s with idx := r.2 })

/-- parser.go:3056-3077, `peekToken`. -/
def PState.peek (s : PState) : Option Token := (s.toks.drop s.idx).find? Token.sig

/-- parser.go:3038-3054, the loop of `prevToken`; `before` is `p.tokens[:i]` reversed.  `none` is the nil
dereference at the beginning of the slice. -/
def prevLoop : List Token → Nat → Option Nat
  | [], _ => none
  | t :: before, i => if t.sig then some (i - 1) else prevLoop before (i - 1)

/-- parser.go:3038-3054, `prevToken`. -/
def PState.prev (s : PState) : Option PState :=
  (prevLoop (s.toks.take s.idx).reverse s.idx).map fun i => { s with idx := i }

/-- The test of parser.go:3101-3106: a word whose value matches ignoring case (quoted words
included). -/
def Token.matchesKw (t : Token) (expected : Str) : Bool :=
  match t.tok with
  | .word w => equalFold w.value expected
  | _ => false

/-- parser.go:3079-3093, the loop of `parseKeywords`. -/
def PState.keywords (mode : Bool) : List Str → PState → List Token → Option (List Token) × PState
  | [], s, toks => (some toks.reverse, s)
  | k :: ks, s, toks =>
    match s.peek with
    | some t => if t.matchesKw k then PState.keywords mode ks (s.next mode).2 (t :: toks) else (none, s)
    | none => (none, s)

/-- parser.go:3079-3093, `parseKeywords`: the index is reset if not all keywords are there; comments
collected on the way stay. -/
def PState.kws (mode : Bool) (ks : List Str) (s : PState) : Option (List Token) × PState :=
  match PState.keywords mode ks s [] with
  | (some toks, s') => (some toks, s')
  | (none, s') => (none, { s' with idx := s.idx })

/-- The outcome of a parser function. -/
inductive Res (σ α : Type) where
  | ok (a : α) (s : σ)
  | err
  | panic
  | oof
  deriving Repr

/-- Execute a program. -/
def P.run (mode : Bool) : P α → PState → Res PState α
  | .ret a, s => .ok a s
  | .next k, s => ((k (s.next mode).1)).run mode (s.next mode).2
  | .peek k, s => (k s.peek).run mode s
  | .prev k, s =>
    match s.prev with
    | none => .panic
    | some s' => k.run mode s'
  | .kws ks k, s => (k (s.kws mode ks).1).run mode (s.kws mode ks).2
  | .err, _ => .err
  | .panic, _ => .panic
  | .oof, _ => .oof

/-! ### The helper methods of parser.go:2869-3111 as programs -/

/-- `tok.Value.(*sqltoken.SQLWord)`. -/
def Token.word? (t : Token) : Option SQLWord :=
  match t.tok with
  | .word w => some w
  | _ => none

/-- `tok.Kind == k` for a symbol kind. -/
def Token.isSym (t : Token) (k : Sym) : Bool :=
  match t.tok with
  | .sym k' _ => k' == k
  | _ => false

/-- The keyword of a word token (`switch word.Keyword`). -/
def Token.kw? (t : Token) : Option KW := t.word?.bind fun w => kwOf w.keyword

def nextToken : P (Option Token) := .next .ret
def peekToken : P (Option Token) := .peek .ret
def prevToken : P Unit := .prev (.ret ())
def parseKeywords (ks : List KW) : P (Option (List Token)) := .kws (ks.map KW.str) .ret

/-- `tok, err := p.nextToken(); if err != nil { return err }`. -/
def nextOrErr : P Token := .next fun
  | some t => .ret t
  | none => .err

/-- parser.go:2911-2918, `mustNextToken`; also the pattern `tok, _ := p.nextToken()` followed by a use of
`tok.Kind`, which dereferences nil at the end of the tokens. -/
def mustNext : P Token := .next fun
  | some t => .ret t
  | none => .panic

/-- `tok, _ := p.peekToken()` followed by a use of `tok.Kind`. -/
def mustPeek : P Token := .peek fun
  | some t => .ret t
  | none => .panic

/-- The three results of parser.go:3095-3111, `parseKeyword`. -/
inductive KwRes where
  | eof
  | no (t : Token)
  | yes (t : Token)

/-- parser.go:3095-3111, `parseKeyword`. -/
def parseKeyword (k : KW) : P KwRes := do
  match ← peekToken with
  | none => pure .eof
  | some t => if t.matchesKw k.str then do let _ ← mustNext; pure (.yes t) else pure (.no t)

/-- `ok, _, _ := p.parseKeyword(k)`. -/
def kw (k : KW) : P Bool := do
  match ← parseKeyword k with
  | .yes _ => pure true
  | _ => pure false

/-- `ok, tok, _ := p.parseKeyword(k)` where `tok` is used only if `ok`. -/
def kwTok (k : KW) : P (Option Token) := do
  match ← parseKeyword k with
  | .yes t => pure (some t)
  | _ => pure none

/-- `ok, tok, _ := p.parseKeyword(k); if !ok { return error }`. -/
def kwOrErr (k : KW) : P Token := do
  match ← parseKeyword k with
  | .yes t => pure t
  | _ => .err

/-- parser.go:2869-2880, `expectKeyword`. -/
def expectKeyword (k : KW) : P Token := do
  match ← parseKeyword k with
  | .yes t => pure t
  | _ => .panic

/-- parser.go:2895-2909, `consumeToken`, as used everywhere (`ok, _ :=`). -/
def consumeToken (k : Sym) : P Bool := do
  match ← peekToken with
  | none => pure false
  | some t => if t.isSym k then do let _ ← nextOrErr; pure true else pure false

/-- parser.go:2882-2893, `expectToken`. -/
def expectToken (k : Sym) : P Unit := do
  if ← consumeToken k then pure () else .panic

/-- `r, _ := p.nextToken(); if r.Kind != k { return error }`. -/
def nextSym (k : Sym) : P Token := do
  let t ← mustNext
  if t.isSym k then pure t else .err

end Verif
