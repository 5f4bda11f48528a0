import Verif.Model.ParserMonad
/-
Specification for C56: how often a parser program looks at or moves the cursor.
-/
namespace Verif

/-- The number of calls of `nextToken`, `peekToken` and `prevToken` a run makes. `parseKeywords` of `n`
keywords is charged `2 * n + 1`: it calls `parseKeyword` at most `n` times, each of which calls `peekToken`
once and `nextToken` at most once, and then resets the index (parser.go:3079-3111). -/
def P.ops (mode : Bool) : P α → PState → Nat
  | .ret _, _ => 0
  | .next k, s => 1 + (k (s.next mode).1).ops mode (s.next mode).2
  | .peek k, s => 1 + (k s.peek).ops mode s
  | .prev k, s =>
    match s.prev with
    | none => 1
    | some s' => 1 + k.ops mode s'
  | .kws ks k, s => (2 * ks.length + 1) + (k (s.kws mode ks).1).ops mode (s.kws mode ks).2
  | .err, _ => 0
  | .panic, _ => 0
  | .oof, _ => 0

end Verif
