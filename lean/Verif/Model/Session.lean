import Verif.Model.Parser
import Verif.Model.Print
import Verif.Model.Tokenizer
/-
A parser as an object: the exported methods of `Parser` called one after the other, and cmd/astprinter.  `session` ends
with the first call that fails, `sessionE` goes on after an error.
-/
namespace Verif

/-- The exported methods of `Parser` (parser.go:60-62, 64, 86, 129 and `ParseExpr`, `ParseDataType`). -/
inductive Method where
  | sql
  | file
  | statement
  | expr
  | dataType
  | setTokens (toks : List Token)

/-- What they return. -/
inductive Reply where
  | stmts (ss : List Stmt)
  | file (f : File)
  | stmt (s : Stmt)
  | expr (e : Expr)
  | dataType (t : DataType)
  | done

/-- The same outcome, as a reply. -/
def Res.reply (f : α → Reply) : Res σ α → Res σ Reply
  | .ok a s => .ok (f a) s
  | .err => .err
  | .panic => .panic
  | .oof => .oof

/-- `p.M()`. -/
def call (fns : FloatFns) (n : Nat) (mode : Bool) : Method → PState → Res PState Reply
  | .sql, s => ((parseSQL mode (Parsers.at fns n) n).run mode s).reply .stmts
  | .file, s => (parseFile fns n mode s).reply .file
  | .statement, s => ((Parsers.at fns n).statement.run mode s).reply .stmt
  | .expr, s => ((parseExpr (Parsers.at fns n)).run mode s).reply .expr
  | .dataType, s => ((parseDataType (Parsers.at fns n)).run mode s).reply .dataType
  -- parser.go:60-62: neither the index nor the comments are reset
  | .setTokens toks, s => .ok .done { s with toks := toks }

/-- Calls one after the other, until one fails. -/
def session (fns : FloatFns) (n : Nat) (mode : Bool) : List Method → PState → Res PState (List Reply)
  | [], s => .ok [] s
  | c :: cs, s =>
    match call fns n mode c s with
    | .ok r s1 =>
      match session fns n mode cs s1 with
      | .ok rs s2 => .ok (r :: rs) s2
      | .err => .err
      | .panic => .panic
      | .oof => .oof
    | .err => .err
    | .panic => .panic
    | .oof => .oof

/-! ### Going on after an error

No function of parser.go touches the parser on the way from the place where an error occurs to the caller of the exported
method: there are no deferred calls, and each caller returns the error at once.  (Errors that are dropped are values of the
model, see `listOfIdsF`.  `p.Debug` of parser.go:1009 only prints.)  So the parser has the state it had at that place. -/

/-- `x, err := p.M()`; `none` is an error. -/
def P.attempt : P α → P (Option α)
  | .ret a => .ret (some a)
  | .next k => .next fun t => (k t).attempt
  | .peek k => .peek fun t => (k t).attempt
  | .prev k => .prev k.attempt
  | .kws ks k => .kws ks fun r => (k r).attempt
  | .err => .ret none
  | .panic => .panic
  | .oof => .oof

/-- The same outcome, as a reply or an error. -/
def Res.replyOr (f : α → Reply) : Res σ (Option α) → Res σ (Option Reply)
  | .ok a s => .ok (a.map f) s
  | .err => .err
  | .panic => .panic
  | .oof => .oof

/-- parser.go:64-84, `ParseFile`, with the state after an error. -/
def tryFile (fns : FloatFns) (n : Nat) (mode : Bool) (s : PState) : Res PState (Option Reply) :=
  match (parseSQL mode (Parsers.at fns n) n).attempt.run mode s with
  | .ok (some ss) s' => .ok (some (.file ⟨ss, sortGroups (s'.comments.map Prod.snd)⟩)) s'
  | .ok none s' => .ok none s'
  | .err => .err
  | .panic => .panic
  | .oof => .oof

/-- `x, err := p.M()`. -/
def tryCall (fns : FloatFns) (n : Nat) (mode : Bool) : Method → PState → Res PState (Option Reply)
  | .sql, s => ((parseSQL mode (Parsers.at fns n) n).attempt.run mode s).replyOr .stmts
  | .file, s => tryFile fns n mode s
  | .statement, s => ((Parsers.at fns n).statement.attempt.run mode s).replyOr .stmt
  | .expr, s => ((parseExpr (Parsers.at fns n)).attempt.run mode s).replyOr .expr
  | .dataType, s => ((parseDataType (Parsers.at fns n)).attempt.run mode s).replyOr .dataType
  | .setTokens toks, s => .ok (some .done) { s with toks := toks }

/-- Calls one after the other, whether they fail or not. -/
def sessionE (fns : FloatFns) (n : Nat) (mode : Bool) : List Method → PState → Res PState (List (Option Reply))
  | [], s => .ok [] s
  | c :: cs, s =>
    match tryCall fns n mode c s with
    | .ok r s1 =>
      match sessionE fns n mode cs s1 with
      | .ok rs s2 => .ok (r :: rs) s2
      | .err => .err
      | .panic => .panic
      | .oof => .oof
    | .err => .err
    | .panic => .panic
    | .oof => .oof

/-- parser.go:50-56, `NewParserWithOptions`: a parser without tokens. -/
def newParserWithOptions : PState := ⟨[], 0, []⟩

/-- How a run of cmd/astprinter ends. -/
inductive Printed where
  /-- `pp.Println(stmt)` and the text of the statement on stderr -/
  | printed (s : Stmt) (text : Str)
  /-- `log.Fatal(err)` -/
  | fatal
  | panic
  | loops

/-- cmd/astprinter/main.go:32-40.  The error of `NewParser` is dropped; the parser is nil then, and `ParseStatement`
dereferences it. -/
def astPrinter (fns : FloatFns) (fuel n : Nat) (src : Str) : Printed :=
  match tokenize genericDialect true fuel src with
  | .ok toks =>
    match (Parsers.at fns n).statement.run false (newParser toks) with
    | .ok s _ => .printed s (Node.toSQLString fns (.stmt s))
    | .err => .fatal
    | .panic => .panic
    | .oof => .loops
  | .err _ => .panic
  | .loop => .loops

end Verif
