import Verif.Model.ParserMonad
/-
Model of the grammar of parser.go (lines 64-2867), function by function.

Recursion.  Go's functions call each other without bound.  Here every recursive call and every loop
iteration goes through a record `Parsers` of the recursive entry points; `fooF r` is the body of the
Go function `foo` with recursive calls taken from `r`, and `Parsers.at n` ties the knot `n` times
(`Parsers.at 0` is the exhausted budget `P.oof`).  C20 proves that a budget linear in the number of
tokens is never exhausted, and that a larger budget does not change any result.

`fns` are the two floating point functions of package strconv.
-/
namespace Verif

/-- What parseTableReferenceRight (parser.go:1641-1732) returns: a join without its left element. -/
inductive JoinRight where
  | natural (type : JoinType) (right : TableRef)
  | cross (factor : TableFactor)
  | qualified (right : TableRef) (type : JoinType) (spec : JoinSpec)

/-- The recursive entry points. -/
structure Parsers where
  subexpr : Nat → P Expr
  subexprLoop : Nat → Expr → P Expr
  prefix_ : P Expr
  idParts : P (List Ident × Bool)
  exprList : P (List Expr)
  listOfIds : Sym → P (Option (List Ident))
  listOfIdsSep : Sym → P (Option (List Ident))
  orderByList : P (List OrderByExpr)
  caseLoop : P (List Expr × List Expr)
  query : P QueryStmt
  queryBody : Nat → P SetExpr
  bodyLoop : Nat → SetExpr → P SetExpr
  cteList : P (List CTE)
  selectList : P (List SelectItem)
  tableRef : P TableRef
  tableRefLoop : TableFactor → TableRef → P TableRef
  fromRest : P (List TableRef)
  defaultLoop : Expr → P Expr
  columnLoop : Option Expr → List ColumnConstraint → List AutoIncrement →
    P (Option Expr × List ColumnConstraint × List AutoIncrement)
  columnConstraints : P (List ColumnConstraint)
  elements : P (List TableElement)
  tableOptions : P (List TableOption)
  assignments : P (List Assignment)
  rows : P (List RowValueExpr)
  statement : P Stmt

/-! ### Literals, names and lists -/

/-- The number denoted by a digit string; `none` if another character occurs or the text is empty. -/
def digitsVal : Str → Option Nat
  | [] => none
  | cs => cs.foldl (fun acc c => acc.bind fun n =>
      if isDigit c then some (n * 10 + (c.toNat - '0'.toNat)) else none) (some 0)

/-- The largest `int` (64 bit). -/
def maxInt : Nat := 2 ^ 63 - 1

/-- `strconv.Atoi`: value, and whether the error is nil.  Signs are not modelled: the text of a number
token consists of digits and `.`. -/
def atoi (s : Str) : Int × Bool :=
  match digitsVal s with
  | none => (0, false)
  | some n => if n ≤ maxInt then (n, true) else (maxInt, false)

/-- parser.go:1901-1916, `parseIdentifier`. -/
def parseIdentifier : P Ident := do
  let t ← nextOrErr
  match t.word? with
  | none => .err
  | some w => pure ⟨w.string, t.from_, t.to_⟩

/-- parser.go:2692-2704, `parseLiteralInt`. -/
def parseLiteralInt : P (Int × Token) := do
  let t ← mustNext
  match t.tok with
  | .number s =>
    match atoi s with
    | (i, true) => pure (i, t)
    | (_, false) => .err
  | _ => .err

/-- parser.go:2652-2668, `parseOptionalPrecision`; the conversion `uint(n)` of a nonnegative `int`. -/
def parseOptionalPrecision : P (Option Nat × Pos) := do
  if ← consumeToken .LParen then do
    let (n, _) ← parseLiteralInt
    let r ← nextSym .RParen
    pure (some n.toNat, r.to_)
  else pure (none, Pos.zero)

/-- parser.go:2670-2690, `parseOptionalPrecisionScale`. -/
def parseOptionalPrecisionScale : P (Option Nat × Option Nat) := do
  if ← consumeToken .LParen then do
    let (n, _) ← parseLiteralInt
    let scale ← (do
      if ← consumeToken .Comma then do
        let (s, _) ← parseLiteralInt
        pure (some s.toNat)
      else pure none)
    expectToken .RParen
    pure (some n.toNat, scale)
  else pure (none, none)

/-- parser.go:2861-2867, `parseMyUnsigned`. -/
def parseMyUnsigned : P (Bool × Pos) := do
  match ← kwTok .UNSIGNED with
  | some u => pure (true, u.to_)
  | none => pure (false, Pos.zero)

/-- One iteration of the loop of `parseListOfIds` (parser.go:2706-2737) with `expectIdentifier` true.
`none` is the error return; the caller decides whether it propagates (parser.go:794 ignores it). -/
def listOfIdsF (r : Parsers) (sep : Sym) : P (Option (List Ident)) := do
  match ← nextToken with
  | none => pure none
  | some t =>
    match t.word? with
    | some w => do
      let rest ← r.listOfIdsSep sep
      pure (rest.map fun l => ⟨w.string, t.from_, t.to_⟩ :: l)
    | none => do prevToken; pure none

/-- One iteration of the same loop with `expectIdentifier` false. -/
def listOfIdsSepF (r : Parsers) (sep : Sym) : P (Option (List Ident)) := do
  match ← nextToken with
  | none => pure (some [])
  | some t => if t.isSym sep then r.listOfIds sep else do prevToken; pure (some [])

/-- parser.go:2706-2737, `parseListOfIds`, with the error propagated. -/
def parseListOfIds (r : Parsers) (sep : Sym) : P (List Ident) := do
  match ← r.listOfIds sep with
  | none => .err
  | some l => pure l

/-- parser.go:1937-1939, `parseColumnNames`. -/
def parseColumnNames (r : Parsers) : P (List Ident) := parseListOfIds r .Comma

/-- parser.go:2567-2575, `parseObjectName`. -/
def parseObjectName (r : Parsers) : P ObjectName := do
  let ids ← parseListOfIds r .Period
  pure ⟨ids⟩

/-- parser.go:172-297, `ParseDataType`. -/
def parseDataType (r : Parsers) : P DataType := do
  let t ← nextOrErr
  match t.word? with
  | none => .err
  | some w =>
    match kwOf w.keyword with
    | some .BOOLEAN => pure (.boolean t.from_ t.to_)
    | some .FLOAT => do
      let (size, rp) ← parseOptionalPrecision
      let (u, pos) ← parseMyUnsigned
      pure (.float size t.from_ t.to_ rp u pos)
    | some .REAL => do
      let (u, pos) ← parseMyUnsigned
      pure (.real t.from_ t.to_ u pos)
    | some .DOUBLE => do
      let p ← expectKeyword .PRECISION
      pure (.double t.from_ p.to_)
    | some .SMALLINT => do
      let (u, pos) ← parseMyUnsigned
      pure (.smallInt t.from_ t.to_ u pos)
    | some .INTEGER => do
      let (u, pos) ← parseMyUnsigned
      pure (.int t.from_ t.to_ u pos)
    | some .INT => do
      let (u, pos) ← parseMyUnsigned
      pure (.int t.from_ t.to_ u pos)
    | some .BIGINT => do
      match ← parseKeyword .UNSIGNED with
      | .eof => .panic
      | .no u => pure (.bigInt t.from_ t.to_ false u.to_)
      | .yes u => pure (.bigInt t.from_ t.to_ true u.to_)
    | some .VARCHAR => do
      let (size, rp) ← parseOptionalPrecision
      pure (.varchar size t.from_ Pos.zero rp)
    | some .CHAR => parseChar t
    | some .CHARACTER => parseChar t
    | some .UUID => pure (.uuid t.from_ t.to_)
    | some .DATE => pure (.date Pos.zero Pos.zero)
    | some .TIMESTAMP => do
      let tz ← parseTimeZone
      pure (.timestamp tz t.from_ Pos.zero)
    | some .TIME => do
      let _ ← parseTimeZone
      pure (.time Pos.zero Pos.zero)
    | some .REGCLASS => pure (.regclass Pos.zero Pos.zero)
    | some .TEXT => do
      if ← consumeToken .LBracket then do
        expectToken .RBracket
        pure (.array (.text Pos.zero Pos.zero) Pos.zero)
      else pure (.text Pos.zero Pos.zero)
    | some .BYTEA => pure (.bytea Pos.zero Pos.zero)
    | some .NUMERIC => do
      let (precision, scale) ← parseOptionalPrecisionScale
      prevToken
      let rp ← nextSym .RParen
      let (u, pos) ← parseMyUnsigned
      pure (.decimal precision scale t.from_ rp.to_ u pos)
    | _ => do
      prevToken
      let name ← parseObjectName r
      pure (.custom name)
where
  /-- parser.go:219-230 -/
  parseChar (t : Token) : P DataType := do
    match ← kwTok .VARYING with
    | some v => do
      let (size, rp) ← parseOptionalPrecision
      pure (.varchar size t.from_ v.to_ rp)
    | none => do
      let (size, rp) ← parseOptionalPrecision
      pure (.char size t.from_ t.to_ rp)
  /-- parser.go:236-241 and 247-252; the result is `wok` -/
  parseTimeZone : P Bool := do
    let wok ← kw .WITH
    let ook ← kw .WITHOUT
    if wok || ook then do
      let _ ← expectKeyword .TIME
      let _ ← expectKeyword .ZONE
      pure wok
    else pure wok

/-- dialect/keywords.go:357-374, `ReservedForTableAlias`. -/
def reservedForTableAlias : KW → Bool
  | .WITH | .SELECT | .WHERE | .GROUP | .ORDER | .UNION | .EXCEPT | .INTERSECT | .ON | .JOIN | .INNER
  | .CROSS | .FULL | .LEFT | .RIGHT | .NATURAL | .USING => true
  | _ => false

/-- dialect/keywords.go:376-385, `ReservedForColumnAlias`. -/
def reservedForColumnAlias : KW → Bool
  | .WITH | .SELECT | .WHERE | .GROUP | .ORDER | .UNION | .EXCEPT | .INTERSECT | .FROM => true
  | _ => false

/-- `containsStr(reservedKeywords, word.Keyword)`, parser.go:3120-3123. -/
def isReserved (table : KW → Bool) (keyword : Str) : Bool :=
  match kwOf keyword with
  | some k => table k
  | none => false

/-- parser.go:1524-1548, `parseOptionalAlias`. -/
def parseOptionalAlias (reserved : KW → Bool) : P (Option Ident) := do
  let afterAs ← kw .AS
  match ← nextToken with
  | none => pure none
  | some t =>
    match t.word? with
    | some w =>
      if afterAs || !isReserved reserved w.keyword then pure (some ⟨w.string, t.from_, t.to_⟩)
      else do prevToken; pure none
    | none => if afterAs then .panic else do prevToken; pure none

/-! ### Expressions -/

/-- parser.go:2577-2650, `parseSQLValue` and `parseValue`. -/
def parseValue (fns : FloatFns) : P Expr := do
  let t ← nextOrErr
  match t.tok with
  | .word w =>
    match kwOf w.keyword with
    | some .TRUE => pure (.boolean t.from_ t.to_ true)
    | some .FALSE => pure (.boolean t.from_ t.to_ false)
    | some .NULL => pure (.null t.from_ t.to_)
    | _ => .err
  | .number s =>
    if '.' ∈ s then
      match fns.parse s with
      | none => .err
      | some f => pure (.double t.from_ t.to_ f)
    else pure (.long ⟨t.from_, t.to_, (atoi s).1⟩)
  | .single s => pure (.singleQuoted t.from_ t.to_ s)
  | .national s => pure (.national t.from_ t.to_ s)
  | _ => .err

/-- parser.go:2141-2174, `getPrecedence`. -/
def getPrecedence (t : Token) : Nat :=
  match t.tok with
  | .word w =>
    match kwOf w.keyword with
    | some .OR => 5
    | some .AND => 10
    | some .NOT => 15
    | some .IS => 17
    | some .IN => 20
    | some .BETWEEN => 20
    | some .LIKE => 20
    | _ => 0
  | .sym k _ =>
    match k with
    | .Eq | .Lt | .LtEq | .Neq | .Gt | .GtEq => 20
    | .Plus | .Minus => 30
    | .Mult | .Div | .Mod => 40
    | .DoubleColon => 50
    | _ => 0
  | _ => 0

/-- parser.go:2133-2139, `getNextPrecedence`. -/
def getNextPrecedence : P Nat := do
  match ← peekToken with
  | none => pure 0
  | some t => pure (getPrecedence t)

/-- parser.go:299-301, `ParseExpr`. -/
def parseExpr (r : Parsers) : P Expr := r.subexpr 0

/-- parser.go:1918-1935, `parseExprList`. -/
def exprListF (r : Parsers) : P (List Expr) := do
  let e ← parseExpr r
  match ← peekToken with
  | none => pure [e]
  | some t =>
    if t.isSym .Comma then do
      let _ ← mustNext
      let es ← r.exprList
      pure (e :: es)
    else pure [e]

/-- parser.go:1941-1963, `parseSubexpr`. -/
def subexprF (r : Parsers) (precedence : Nat) : P Expr := do
  let e ← r.prefix_
  r.subexprLoop precedence e

/-- parser.go:1972-2010: the operator of a binary expression, by token kind. -/
def symOp : Sym → Option OpType
  | .Eq => some .Eq
  | .Neq => some .NotEq
  | .Gt => some .Gt
  | .GtEq => some .GtEq
  | .Lt => some .Lt
  | .LtEq => some .LtEq
  | .Plus => some .Plus
  | .Minus => some .Minus
  | .Mult => some .Multiply
  | .Mod => some .Modulus
  | .Div => some .Divide
  | _ => none

/-- parser.go:1972-2010, the first switch of `parseInfix` (reads LIKE after NOT). -/
def infixOp (t : Token) : P (Option OpType) :=
  match t.tok with
  | .sym k _ => pure (symOp k)
  | .word w =>
    match kwOf w.keyword with
    | some .AND => pure (some .And)
    | some .OR => pure (some .Or)
    | some .LIKE => pure (some .Like)
    | some .NOT => do
      if ← kw .LIKE then pure (some .NotLike) else pure none
    | _ => pure none
  | _ => pure none

/-- parser.go:2073-2111, `parseIn`. -/
def parseIn (r : Parsers) (expr : Expr) (negated : Bool) : P Expr := do
  expectToken .LParen
  let sok ← kw .SELECT
  let wok ← kw .WITH
  if sok || wok then do
    prevToken
    let q ← r.query
    let rp ← nextSym .RParen
    pure (.inSubQuery expr q negated rp.to_)
  else do
    let list ← r.exprList
    let rp ← nextSym .RParen
    pure (.inList expr list negated rp.to_)

/-- parser.go:2113-2131, `parseBetween`. -/
def parseBetween (r : Parsers) (expr : Expr) (negated : Bool) : P Expr := do
  let low ← r.prefix_
  let _ ← expectKeyword .AND
  let high ← r.prefix_
  pure (.between expr negated low high)

/-- parser.go:2042-2049: NOT, IN and BETWEEN in `parseInfix`; falls through to the panic of 2057. -/
def parseNotInBetween (r : Parsers) (expr : Expr) : P Expr := do
  prevToken
  let negated ← kw .NOT
  if ← kw .IN then parseIn r expr negated
  else if ← kw .BETWEEN then parseBetween r expr negated
  else .panic

/-- parser.go:1965-2059, `parseInfix`; parser.go:2062-2071, `parsePGCast`. -/
def parseInfix (r : Parsers) (expr : Expr) (precedence : Nat) : P Expr := do
  let t ← nextOrErr
  match ← infixOp t with
  | some op => do
    let right ← r.subexpr precedence
    pure (.binary expr ⟨op, t.from_, t.to_⟩ right)
  | none =>
    match t.tok with
    | .word w =>
      match kwOf w.keyword with
      | some .IS => do
        if ← kw .NULL then pure (.isNull expr)
        else
          match ← parseKeywords [.NOT, .NULL] with
          | some _ => pure (.isNotNull expr)
          | none => .err
      | some .NOT => parseNotInBetween r expr
      | some .IN => parseNotInBetween r expr
      | some .BETWEEN => parseNotInBetween r expr
      | _ => .panic
    | .sym .DoubleColon _ => do
      let tp ← parseDataType r
      pure (.cast expr tp Pos.zero Pos.zero)
    | _ => .panic

/-- parser.go:1947-1960, the loop of `parseSubexpr`. -/
def subexprLoopF (r : Parsers) (precedence : Nat) (expr : Expr) : P Expr := do
  let np ← getNextPrecedence
  if precedence ≥ np then pure expr
  else do
    let e ← parseInfix r expr np
    r.subexprLoop precedence e

/-- parser.go:2440-2451, `parseOptionalArgs`. -/
def parseOptionalArgs (r : Parsers) : P (List Expr) := do
  if ← consumeToken .RParen then do prevToken; pure []
  else r.exprList

/-- parser.go:2453-2484, `parseOrderByExprList`. -/
def orderByListF (r : Parsers) : P (List OrderByExpr) := do
  let e ← parseExpr r
  let asc ← (do
    if ← kw .ASC then pure (some true)
    else if ← kw .DESC then pure (some false)
    else pure none)
  match ← peekToken with
  | none => pure [.mk e Pos.zero asc]
  | some t =>
    if t.isSym .Comma then do
      let _ ← mustNext
      let es ← r.orderByList
      pure (.mk e Pos.zero asc :: es)
    else pure [.mk e Pos.zero asc]

/-- sqlast/ast.go:700-715, `WindowFrameUnit.FromStr`. -/
def windowUnit : KW → Option WindowUnit
  | .ROWS => some .Rows
  | .RANGE => some .Range
  | .GROUPS => some .Groups
  | _ => none

/-- parser.go:2532-2565, `parseWindowFrameBound`.  After UNBOUNDED the tests of lines 2557-2562 repeat the
two tests that have just failed, so the panic of line 2563 follows. -/
def parseWindowFrameBound : P FrameBound := do
  match ← parseKeywords [.CURRENT, .ROW] with
  | some _ => pure (.currentRow Pos.zero Pos.zero)
  | none =>
    if ← kw .UNBOUNDED then do
      if ← kw .PRECEDING then pure (.unboundedPreceding Pos.zero Pos.zero)
      else if ← kw .FOLLOWING then pure (.unboundedFollowing Pos.zero Pos.zero)
      else .panic
    else do
      let (i, _) ← parseLiteralInt
      if i < 0 then .err
      else if ← kw .PRECEDING then pure (.preceding i.toNat Pos.zero Pos.zero)
      else if ← kw .FOLLOWING then pure (.following i.toNat Pos.zero Pos.zero)
      else .panic

/-- parser.go:2486-2530, `parseWindowFrame`. -/
def parseWindowFrame : P (Option WindowFrame) := do
  let t ← mustPeek
  match t.word? with
  | some w =>
    match (kwOf w.keyword).bind windowUnit with
    | none => .err
    | some u => do
      let _ ← mustNext
      if ← kw .BETWEEN then do
        let s ← parseWindowFrameBound
        let _ ← expectKeyword .AND
        let e ← parseWindowFrameBound
        expectToken .RParen
        pure (some ⟨⟨Pos.zero, Pos.zero, u⟩, s, some e⟩)
      else do
        let s ← parseWindowFrameBound
        expectToken .RParen
        pure (some ⟨⟨Pos.zero, Pos.zero, u⟩, s, none⟩)
  | none => do
    expectToken .RParen
    pure none

/-- parser.go:2387-2430: the OVER clause, after its keyword. -/
def parseOver (r : Parsers) : P WindowSpec := do
  expectToken .LParen
  let (partitionBy, partition) ← (do
    match ← kwTok .PARTITION with
    | some t => do
      let _ ← expectKeyword .BY
      let el ← r.exprList
      pure (el, t.from_)
    | none => pure ([], Pos.zero))
  let (orderBy, order) ← (do
    match ← kwTok .ORDER with
    | some t => do
      let _ ← expectKeyword .BY
      let el ← r.orderByList
      pure (el, t.from_)
    | none => pure ([], Pos.zero))
  let frame ← parseWindowFrame
  pure (.mk partitionBy orderBy frame partition order)

/-- parser.go:2374-2438, `parseFunction`. -/
def parseFunction (r : Parsers) (name : ObjectName) : P Expr := do
  expectToken .LParen
  let args ← parseOptionalArgs r
  let rp ← nextSym .RParen
  if ← kw .OVER then do
    let over ← parseOver r
    pure (.function name args rp.to_ (some over) Pos.zero)
  else pure (.function name args rp.to_ none Pos.zero)

/-- One iteration of parser.go:2758-2773. -/
def caseLoopF (r : Parsers) : P (List Expr × List Expr) := do
  let c ← parseExpr r
  let _ ← expectKeyword .THEN
  let x ← parseExpr r
  if ← kw .WHEN then do
    let (cs, xs) ← r.caseLoop
    pure (c :: cs, x :: xs)
  else pure ([c], [x])

/-- parser.go:2739-2797, `parseCaseExpression`. -/
def parseCaseExpression (r : Parsers) : P Expr := do
  let t ← kwOrErr .CASE
  let operand ← (do
    if ← kw .WHEN then pure none
    else do
      let e ← parseExpr r
      let _ ← expectKeyword .WHEN
      pure (some e))
  let (conditions, results) ← r.caseLoop
  let elseResult ← (do
    if ← kw .ELSE then do
      let e ← parseExpr r
      pure (some e)
    else pure none)
  let et ← kwOrErr .END
  pure (.caseExpr t.from_ et.to_ operand conditions results elseResult)

/-- parser.go:2799-2825, `parseCastExpression`. -/
def parseCastExpression (r : Parsers) : P Expr := do
  let t ← kwOrErr .CAST
  expectToken .LParen
  let e ← parseExpr r
  let _ ← expectKeyword .AS
  let dt ← parseDataType r
  let rp ← nextSym .RParen
  pure (.cast e dt t.from_ rp.to_)

/-- parser.go:2827-2859, `parseExistsExpression`. -/
def parseExistsExpression (r : Parsers) (negatedTok : Option Token) : P Expr := do
  let t ← kwOrErr .EXISTS
  expectToken .LParen
  let q ← r.query
  let rp ← nextSym .RParen
  match negatedTok with
  | some n => pure (.exists_ true q n.from_ t.from_ rp.to_)
  | none => pure (.exists_ false q Pos.zero t.from_ rp.to_)

/-- One iteration of parser.go:2252-2275: the parts of a dotted name after the first, and whether it ends
with `*`. -/
def idPartsF (r : Parsers) : P (List Ident × Bool) := do
  if ← consumeToken .Period then do
    let n ← nextOrErr
    match n.word? with
    | some w => do
      let (ids, wild) ← r.idParts
      pure (⟨w.string, n.from_, n.to_⟩ :: ids, wild)
    | none => if n.isSym .Mult then pure ([], true) else .err
  else pure ([], false)

/-- parser.go:2239-2298, the default case of `parsePrefix`: names and function calls. -/
def parseName (r : Parsers) (t : Token) (w : SQLWord) : P Expr := do
  let id : Ident := ⟨w.string, t.from_, t.to_⟩
  match ← peekToken with
  | none => pure (.ident id)
  | some n =>
    if n.isSym .LParen || n.isSym .Period then do
      let (ids, wild) ← r.idParts
      if wild then pure (.qualifiedWildcard (id :: ids))
      else if ← consumeToken .LParen then do
        prevToken
        parseFunction r ⟨id :: ids⟩
      else pure (.compoundIdent (id :: ids))
    else pure (.ident id)

/-- parser.go:2332-2368, the `(` case of `parsePrefix`. -/
def parseParen (r : Parsers) (t : Token) : P Expr := do
  let sok ← kw .SELECT
  let wok ← kw .WITH
  if sok || wok then do
    prevToken
    let q ← r.query
    let rp ← nextSym .RParen
    pure (.subQuery rp.to_ t.from_ q)
  else do
    let e ← parseExpr r
    let rp ← nextSym .RParen
    pure (.nested e t.from_ rp.to_)

/-- parser.go:2215-2238, the NOT case of `parsePrefix`; 15 is the precedence of NOT. -/
def parseNot (r : Parsers) (t : Token) : P Expr := do
  if ← kw .EXISTS then do
    prevToken
    parseExistsExpression r (some t)
  else do
    let e ← r.subexpr 15
    pure (.unary t.from_ ⟨.Not, Pos.zero, Pos.zero⟩ e)

/-- parser.go:2176-2372, `parsePrefix`. -/
def prefixF (fns : FloatFns) (r : Parsers) : P Expr := do
  let t ← nextOrErr
  match t.tok with
  | .word w =>
    match kwOf w.keyword with
    | some .TRUE => do prevToken; parseValue fns
    | some .FALSE => do prevToken; parseValue fns
    | some .NULL => do prevToken; parseValue fns
    | some .CASE => do prevToken; parseCaseExpression r
    | some .CAST => do prevToken; parseCastExpression r
    | some .EXISTS => do prevToken; parseExistsExpression r none
    | some .NOT => parseNot r t
    | _ => parseName r t w
  | .sym .Mult _ => pure (.wildcard t.from_)
  | .sym .Plus _ => do
    let e ← r.subexpr (getPrecedence t)
    pure (.unary t.from_ ⟨.Plus, t.from_, t.to_⟩ e)
  | .sym .Minus _ => do
    let e ← r.subexpr (getPrecedence t)
    pure (.unary t.from_ ⟨.Minus, t.from_, t.to_⟩ e)
  | .number _ => do prevToken; parseValue fns
  | .single _ => do prevToken; parseValue fns
  | .national _ => do prevToken; parseValue fns
  | .sym .LParen _ => parseParen r t
  | _ => .panic

/-! ### Queries -/

/-- One iteration of parser.go:1550-1574, `parseCTEList`. -/
def cteListF (r : Parsers) : P (List CTE) := do
  let alias ← parseIdentifier
  let _ ← expectKeyword .AS
  expectToken .LParen
  let q ← r.query
  expectToken .RParen
  if ← consumeToken .Comma then do
    let rest ← r.cteList
    pure (.mk alias q Pos.zero :: rest)
  else pure [.mk alias q Pos.zero]

/-- parser.go:1868-1899, `parseLimit`. -/
def parseLimit : P LimitExpr := do
  if ← kw .ALL then pure ⟨none, Pos.zero, Pos.zero, none⟩
  else do
    let (i, t) ← parseLiteralInt
    let offset ← (do
      match ← kwTok .OFFSET with
      | some ot => do
        let (o, _) ← parseLiteralInt
        pure (some ⟨ot.from_, ot.to_, o⟩)
      | none => pure none)
    pure ⟨some ⟨t.from_, t.to_, i⟩, Pos.zero, Pos.zero, offset⟩

/-- parser.go:303-343, `parseQuery`. -/
def queryF (r : Parsers) : P QueryStmt := do
  let ctes ← (do if ← kw .WITH then r.cteList else pure [])
  let body ← r.queryBody 0
  let orderBy ← (do
    match ← parseKeywords [.ORDER, .BY] with
    | some _ => r.orderByList
    | none => pure [])
  let limit ← (do
    if ← kw .LIMIT then do
      let l ← parseLimit
      pure (some l)
    else pure none)
  pure (.mk Pos.zero ctes body orderBy limit)

/-- One iteration of parser.go:477-515, `parseSelectList`.  (No expression parser returns a
`WildcardSelectItem`, line 485.) -/
def selectListF (r : Parsers) : P (List SelectItem) := do
  let e ← parseExpr r
  let item ← (do
    match e with
    | .qualifiedWildcard ids => pure (SelectItem.qualifiedWildcard ⟨ids⟩)
    | _ => do
      match ← parseOptionalAlias reservedForColumnAlias with
      | some a => pure (.alias e a)
      | none => pure (.unnamed e))
  let t ← mustPeek
  if t.isSym .Comma then do
    let _ ← mustNext
    let items ← r.selectList
    pure (item :: items)
  else pure [item]

/-- parser.go:1586-1596: the rest of a FROM clause after a table reference. -/
def fromRestF (r : Parsers) : P (List TableRef) := do
  if ← consumeToken .Comma then do
    let t ← r.tableRef
    let ts ← r.fromRest
    pure (t :: ts)
  else pure []

/-- parser.go:1576-1599, `parseFromClause`. -/
def parseFromClause (r : Parsers) : P (List TableRef) := do
  let t ← r.tableRef
  let ts ← r.fromRest
  pure (t :: ts)

/-- parser.go:421-475, `parseSelect`; `pos` is the position that parseQueryBody stores (line 352). -/
def parseSelect (r : Parsers) (pos : Pos) : P SetExpr := do
  let distinct ← (do
    match ← parseKeyword .DISTINCT with
    | .eof => .err
    | .no _ => pure false
    | .yes _ => pure true)
  let projection ← r.selectList
  let from_ ← (do if ← kw .FROM then parseFromClause r else pure [])
  let where_ ← (do
    if ← kw .WHERE then do
      let e ← parseExpr r
      pure (some e)
    else pure none)
  let groupBy ← (do
    match ← parseKeywords [.GROUP, .BY] with
    | some _ => r.exprList
    | none => pure [])
  let having ← (do
    if ← kw .HAVING then do
      let e ← parseExpr r
      pure (some e)
    else pure none)
  pure (.select (.mk distinct projection from_ where_ groupBy having pos))

/-- parser.go:400-419, `parseSetOperator`, with the precedences of lines 371-376. -/
def setOperator (t : Token) : Option (SetOp × Nat) :=
  match t.kw? with
  | some .UNION => some (.union Pos.zero Pos.zero, 10)
  | some .EXCEPT => some (.except Pos.zero Pos.zero, 10)
  | some .INTERSECT => some (.intersect Pos.zero Pos.zero, 20)
  | _ => none

/-- parser.go:367-395, the loop of `parseQueryBody`. -/
def bodyLoopF (r : Parsers) (precedence : Nat) (expr : SetExpr) : P SetExpr := do
  match (← peekToken).bind setOperator with
  | none => pure expr
  | some (op, np) =>
    if precedence ≥ np then pure expr
    else do
      let _ ← mustNext
      let all ← kw .ALL
      let right ← r.queryBody np
      r.bodyLoop precedence (.setOp op all expr right)

/-- parser.go:345-398, `parseQueryBody`. -/
def queryBodyF (r : Parsers) (precedence : Nat) : P SetExpr := do
  match ← kwTok .SELECT with
  | some t => do
    let s ← parseSelect r t.from_
    r.bodyLoop precedence s
  | none =>
    if ← consumeToken .LParen then do
      let q ← r.query
      expectToken .RParen
      r.bodyLoop precedence (.query Pos.zero Pos.zero q)
    else .panic

/-- parser.go:1812-1866, `parseTableFactor`. -/
def parseTableFactor (r : Parsers) : P TableFactor := do
  let isLateral ← kw .LATERAL
  if ← consumeToken .LParen then do
    let q ← r.query
    expectToken .RParen
    let alias ← parseOptionalAlias reservedForTableAlias
    pure (.derived isLateral Pos.zero Pos.zero Pos.zero q alias)
  else if isLateral then do
    let _ ← nextToken
    .err
  else do
    let name ← parseObjectName r
    let args ← (do if ← consumeToken .LParen then parseOptionalArgs r else pure [])
    let alias ← parseOptionalAlias reservedForTableAlias
    let hints ← (do
      if ← kw .WITH then
        if ← consumeToken .LParen then do
          let h ← r.exprList
          expectToken .RParen
          pure h
        else do
          prevToken
          pure []
      else pure [])
    pure (.table name alias args Pos.zero hints Pos.zero)

/-- parser.go:1734-1780, `parseJoinType`. -/
def parseJoinType : P JoinType := do
  let t ← mustNext
  match t.word? with
  | none => .err
  | some w =>
    match kwOf w.keyword with
    | some .INNER => pure ⟨.INNER, t.from_, t.to_⟩
    | some .LEFT => do
      if ← kw .OUTER then pure ⟨.LEFTOUTER, t.from_, t.to_⟩ else pure ⟨.LEFT, t.from_, t.to_⟩
    | some .RIGHT => do
      if ← kw .OUTER then pure ⟨.RIGHTOUTER, Pos.zero, Pos.zero⟩ else pure ⟨.RIGHT, Pos.zero, Pos.zero⟩
    | some .FULL => do
      if ← kw .OUTER then pure ⟨.FULLOUTER, Pos.zero, Pos.zero⟩ else pure ⟨.FULL, Pos.zero, Pos.zero⟩
    | some .JOIN => do
      prevToken
      pure ⟨.IMPLICIT, Pos.zero, Pos.zero⟩
    | _ => .err

/-- parser.go:1782-1810, `parseJoinSpec`. -/
def parseJoinSpec (r : Parsers) : P JoinSpec := do
  match ← kwTok .ON with
  | some t => do
    let e ← parseExpr r
    pure (.condition e t.from_)
  | none =>
    if ← kw .USING then do
      expectToken .LParen
      let ids ← parseListOfIds r .Comma
      expectToken .RParen
      pure (.namedColumns ids Pos.zero Pos.zero)
    else do
      let _ ← nextToken
      .err

/-- parser.go:1704-1726: a join that begins with LEFT, RIGHT, FULL or JOIN. -/
def parseQualifiedJoin (r : Parsers) : P (Option JoinRight) := do
  prevToken
  let tp ← parseJoinType
  let _ ← expectKeyword .JOIN
  let ref ← r.tableRef
  let spec ← parseJoinSpec r
  pure (some (.qualified ref tp spec))

/-- parser.go:1641-1732, `parseTableReferenceRight`; `none` is the nil reference. -/
def parseTableReferenceRight (r : Parsers) : P (Option JoinRight) := do
  if ← consumeToken .Comma then do prevToken; pure none
  else
    match ← nextToken with
    | none => pure none
    | some t =>
      match t.word? with
      | none => do prevToken; pure none
      | some w =>
        match kwOf w.keyword with
        | some .NATURAL => do
          let tp ← parseJoinType
          let _ ← expectKeyword .JOIN
          let right ← r.tableRef
          pure (some (.natural tp right))
        | some .CROSS => do
          let _ ← expectKeyword .JOIN
          let right ← parseTableFactor r
          pure (some (.cross right))
        | some .INNER => do
          let _ ← expectKeyword .JOIN
          let ref ← r.tableRef
          let spec ← parseJoinSpec r
          pure (some (.qualified ref ⟨.INNER, Pos.zero, Pos.zero⟩ spec))
        | some .LEFT => parseQualifiedJoin r
        | some .RIGHT => parseQualifiedJoin r
        | some .FULL => parseQualifiedJoin r
        | some .JOIN => parseQualifiedJoin r
        | _ => do prevToken; pure none

/-- One iteration of parser.go:1609-1636; `left` is `leftElem`, `e` the reference built so far. -/
def tableRefLoopF (r : Parsers) (left : TableFactor) (e : TableRef) : P TableRef := do
  match ← parseTableReferenceRight r with
  | none => pure e
  | some (.natural tp right) => r.tableRefLoop left (.natural e tp right)
  | some (.cross factor) => r.tableRefLoop left (.cross (.factor left) factor)
  | some (.qualified right tp spec) => r.tableRefLoop left (.qualified e tp right spec)

/-- parser.go:1601-1639, `parseTableReference`. -/
def tableRefF (r : Parsers) : P TableRef := do
  let left ← parseTableFactor r
  r.tableRefLoop left (.factor left)

/-! ### Statements -/

/-- parser.go:1500-1520, the loop of `parseDefaultExpr` (always called with precedence 0). -/
def defaultLoopF (r : Parsers) (expr : Expr) : P Expr := do
  let t ← peekToken
  let stop : Bool := match t.bind Token.kw? with
    | some .NOT => true
    | some .NULL => true
    | _ => false
  if stop then pure expr
  else do
    let np ← getNextPrecedence
    if 0 ≥ np then pure expr
    else do
      let e ← parseInfix r expr np
      r.defaultLoop e

/-- parser.go:1495-1522, `parseDefaultExpr`. -/
def parseDefaultExpr (r : Parsers) : P Expr := do
  let e ← r.prefix_
  r.defaultLoop e

/-- parser.go:914-979: the specification of a column constraint; `none` when the loop ends (line 978). -/
def parseColumnSpec (r : Parsers) (t : Token) : P (Option ColumnSpec) := do
  match t.kw? with
  | some .NOT => do
    let _ ← mustNext
    let n ← kwOrErr .NULL
    pure (some (.notNull t.from_ n.to_))
  | some .UNIQUE => do
    let _ ← mustNext
    pure (some (.unique false Pos.zero Pos.zero t.from_))
  | some .PRIMARY => do
    let _ ← mustNext
    let k ← kwOrErr .KEY
    pure (some (.unique true t.from_ k.to_ Pos.zero))
  | some .REFERENCES => do
    let _ ← mustNext
    let name ← parseObjectName r
    expectToken .LParen
    let columns ← parseColumnNames r
    let rp ← nextSym .RParen
    pure (some (.references t.from_ rp.to_ name columns))
  | some .CHECK => do
    let _ ← mustNext
    expectToken .LParen
    let e ← parseExpr r
    let rp ← nextSym .RParen
    pure (some (.check e t.from_ rp.to_))
  | _ => pure none

/-- One iteration of parser.go:885-988, `parseColumnConstraints`. -/
def columnConstraintsF (r : Parsers) : P (List ColumnConstraint) := do
  match ← peekToken with
  | none => pure []
  | some t => do
    let name ← (do
      match t.kw? with
      | some .CONSTRAINT => do
        let _ ← mustNext
        let i ← parseIdentifier
        pure (some i)
      | _ => pure none)
    let t ← mustPeek
    match t.word? with
    | none => pure []
    | some _ => do
      match ← parseColumnSpec r t with
      | none => pure []
      | some spec => do
        let rest ← r.columnConstraints
        pure (⟨name, Pos.zero, spec⟩ :: rest)

/-- One iteration of parser.go:848-881, the loop of `parseColumnDefinition`. -/
def columnLoopF (r : Parsers) (def_ : Option Expr) (specs : List ColumnConstraint)
    (decorates : List AutoIncrement) : P (Option Expr × List ColumnConstraint × List AutoIncrement) := do
  match ← peekToken with
  | none => pure (def_, specs, decorates)
  | some t =>
    match t.kw? with
    | some .DEFAULT => do
      if ← kw .DEFAULT then do
        let d ← parseDefaultExpr r
        r.columnLoop (some d) specs decorates
      else r.columnLoop def_ specs decorates
    | some .CONSTRAINT => parseSpecs
    | some .NOT => parseSpecs
    | some .UNIQUE => parseSpecs
    | some .PRIMARY => parseSpecs
    | some .REFERENCES => parseSpecs
    | some .CHECK => parseSpecs
    | some .AUTO_INCREMENT => do
      let _ ← mustNext
      r.columnLoop def_ specs (decorates ++ [⟨t.from_, t.to_⟩])
    | _ => pure (def_, specs, decorates)
where
  /-- parser.go:867-871; the constraints replace those of an earlier iteration -/
  parseSpecs : P (Option Expr × List ColumnConstraint × List AutoIncrement) := do
    let s ← r.columnConstraints
    r.columnLoop def_ s decorates

/-- parser.go:691-716, `parseColumnDef`. -/
def parseColumnDef (r : Parsers) : P ColumnDef := do
  let t ← mustNext
  match t.word? with
  | none => .panic
  | some w => do
    let dt ← parseDataType r
    let (def_, specs, decorates) ← r.columnLoop none [] []
    pure ⟨⟨w.string, t.from_, t.to_⟩, dt, def_, decorates, specs⟩

/-- parser.go:742-832: the specification of a table constraint. -/
def parseTableConstraintSpec (r : Parsers) (t : Token) : P TableConstraintSpec := do
  match t.word? with
  | none => .panic
  | some w =>
    match kwOf w.keyword with
    | some .UNIQUE => do
      let _ ← mustNext
      match ← parseKeyword .KEY with
      | .eof => .err
      | _ => do
        expectToken .LParen
        let columns ← parseColumnNames r
        let rp ← nextSym .RParen
        pure (.unique false Pos.zero t.from_ rp.to_ columns)
    | some .PRIMARY => do
      let _ ← mustNext
      let _ ← expectKeyword .KEY
      expectToken .LParen
      let columns ← parseColumnNames r
      let rp ← nextSym .RParen
      pure (.unique true t.from_ Pos.zero rp.to_ columns)
    | some .FOREIGN => do
      let _ ← mustNext
      let _ ← expectKeyword .KEY
      expectToken .LParen
      let columns ← parseColumnNames r
      expectToken .RParen
      let _ ← expectKeyword .REFERENCES
      let n ← mustNext
      match n.word? with
      | none => .panic
      | some nw => do
        expectToken .LParen
        let refcolumns ← r.listOfIds .Comma
        let rp ← nextSym .RParen
        pure (.referential t.from_ columns ⟨⟨nw.string, n.from_, n.to_⟩, refcolumns.getD [], rp.to_⟩)
    | some .CHECK => do
      let _ ← mustNext
      expectToken .LParen
      let e ← parseExpr r
      let rp ← nextSym .RParen
      pure (.check t.from_ rp.to_ e)
    | _ => .err

/-- parser.go:718-839, `parseTableConstraints`. -/
def parseTableConstraints (r : Parsers) : P TableConstraint := do
  match ← peekToken with
  | none => .err
  | some t =>
    match t.word? with
    | none => .err
    | some w =>
      if kwOf w.keyword = some .CONSTRAINT then do
        let _ ← mustNext
        let name ← parseIdentifier
        let t' ← mustPeek
        let spec ← parseTableConstraintSpec r t'
        pure ⟨t.from_, some name, spec⟩
      else do
        let t' ← mustPeek
        let spec ← parseTableConstraintSpec r t'
        pure ⟨Pos.zero, none, spec⟩

/-- parser.go:661-678: one element of a table definition. -/
def parseElement (r : Parsers) (w : SQLWord) : P TableElement := do
  prevToken
  match kwOf w.keyword with
  | some .CONSTRAINT => parseC
  | some .PRIMARY => parseC
  | some .CHECK => parseC
  | some .FOREIGN => parseC
  | some .UNIQUE => parseC
  | _ => do
    let d ← parseColumnDef r
    pure (.column d)
where
  parseC : P TableElement := do
    let c ← parseTableConstraints r
    pure (.constraint c)

/-- One iteration of parser.go:654-686, the loop of `parseElements`. -/
def elementsF (r : Parsers) : P (List TableElement) := do
  match ← nextToken with
  | none => .err
  | some t =>
    match t.word? with
    | none => .err
    | some w => do
      let e ← parseElement r w
      match ← nextToken with
      | none => .panic
      | some t' =>
        if t'.isSym .RParen then pure [e]
        else if t'.isSym .Comma then do
          let es ← r.elements
          pure (e :: es)
        else .panic

/-- parser.go:648-689, `parseElements`. -/
def parseElements (r : Parsers) : P (List TableElement) := do
  if ← consumeToken .LParen then r.elements else pure []

/-- parser.go:1031-1042, 1055-1068 and 1075-1087: optional `=`, then a name. -/
def parseOptionName : P (Bool × Ident) := do
  let t ← mustPeek
  if t.isSym .Eq then do
    let _ ← mustNext
    let t' ← mustPeek
    match t'.word? with
    | none => .err
    | some _ => do
      let name ← parseIdentifier
      pure (true, name)
  else
    match t.word? with
    | none => .err
    | some _ => do
      let name ← parseIdentifier
      pure (false, name)

/-- parser.go:1018-1093, `parseTableOption`. -/
def parseTableOption : P TableOption := do
  let t ← mustPeek
  match t.word? with
  | none => .err
  | some w => do
    let _ ← mustNext
    match kwOf w.keyword with
    | some .ENGINE => do
      let (eq, name) ← parseOptionName
      pure (.engine t.from_ eq name)
    | some .DEFAULT => do
      let c ← kwOrErr .CHARSET
      let (eq, name) ← parseOptionName
      pure (.charset true t.from_ c.from_ eq name)
    | some .CHARSET => do
      let (eq, name) ← parseOptionName
      pure (.charset false Pos.zero t.from_ eq name)
    | _ => .err

/-- One iteration of parser.go:990-1016, `parseTableOptions`.  After a comma, `tok` is the comma itself,
so the loop ends (lines 1001-1006). -/
def tableOptionsF (r : Parsers) : P (List TableOption) := do
  match ← peekToken with
  | none => pure []
  | some t =>
    if t.isSym .Comma then do
      let _ ← mustNext
      pure []
    else
      match t.word? with
      | none => pure []
      | some _ => do
        let o ← parseTableOption
        let os ← r.tableOptions
        pure (o :: os)

/-- parser.go:546-570, `parseCreateTable`. -/
def parseCreateTable (r : Parsers) (create : Token) : P Stmt := do
  let notExists ← parseKeywords [.IF, .NOT, .EXISTS]
  let name ← parseObjectName r
  let elements ← parseElements r
  let options ← r.tableOptions
  pure (.createTable create.from_ name elements notExists.isSome options)

/-- parser.go:572-592, `parseCreateView`. -/
def parseCreateView (r : Parsers) (create : Token) : P Stmt := do
  let materialized ← kw .MATERIALIZED
  let _ ← expectKeyword .VIEW
  let name ← parseObjectName r
  let _ ← expectKeyword .AS
  let q ← r.query
  pure (.createView create.from_ name q materialized)

/-- parser.go:594-646, `parseCreateIndex`. -/
def parseCreateIndex (r : Parsers) (unique : Bool) : P Stmt := do
  let indexName ← (do
    if ← kw .ON then pure none
    else do
      let n ← parseIdentifier
      let _ ← expectKeyword .ON
      pure (some n))
  let tableName ← parseObjectName r
  let methodName ← (do
    if ← kw .USING then do
      let m ← parseIdentifier
      pure (some m)
    else pure none)
  let columns ← (do
    if ← consumeToken .LParen then do
      let c ← parseColumnNames r
      expectToken .RParen
      pure c
    else pure [])
  let selection ← (do
    if ← kw .WHERE then do
      let e ← parseExpr r
      pure (some e)
    else pure none)
  pure (.createIndex Pos.zero tableName unique indexName methodName columns Pos.zero selection)

/-- parser.go:517-544, `parseCreate`. -/
def parseCreate (r : Parsers) : P Stmt := do
  let t ← kwOrErr .CREATE
  if ← kw .TABLE then parseCreateTable r t
  else do
    let mok ← kw .MATERIALIZED
    let vok ← kw .VIEW
    if mok || vok then do
      prevToken
      parseCreateView r t
    else do
      let iok ← kw .INDEX
      let uiok ← parseKeywords [.UNIQUE, .INDEX]
      if iok || uiok.isSome then parseCreateIndex r uiok.isSome
      else .panic

/-- parser.go:1095-1120, `parseDelete`. -/
def parseDelete (r : Parsers) : P Stmt := do
  let d ← kwOrErr .DELETE
  let _ ← expectKeyword .FROM
  let name ← parseObjectName r
  let selection ← (do
    if ← kw .WHERE then do
      let e ← parseExpr r
      pure (some e)
    else pure none)
  pure (.delete d.from_ name selection)

/-- One iteration of parser.go:1155-1184, `parseAssignments`. -/
def assignmentsF (r : Parsers) : P (List Assignment) := do
  let t ← mustNext
  match t.word? with
  | none => .err
  | some w => do
    expectToken .Eq
    let v ← parseExpr r
    if ← consumeToken .Comma then do
      let rest ← r.assignments
      pure (⟨⟨w.string, t.from_, t.to_⟩, v⟩ :: rest)
    else pure [⟨⟨w.string, t.from_, t.to_⟩, v⟩]

/-- parser.go:1122-1153, `parseUpdate`. -/
def parseUpdate (r : Parsers) : P Stmt := do
  let u ← kwOrErr .UPDATE
  let name ← parseObjectName r
  let _ ← expectKeyword .SET
  let assignments ← r.assignments
  let selection ← (do
    if ← kw .WHERE then do
      let e ← parseExpr r
      pure (some e)
    else pure none)
  pure (.update u.from_ name assignments selection)

/-- One iteration of parser.go:1219-1240: the rows of VALUES. -/
def rowsF (r : Parsers) : P (List RowValueExpr) := do
  let l ← nextSym .LParen
  let v ← r.exprList
  let rp ← nextSym .RParen
  if ← consumeToken .Comma then do
    let rest ← r.rows
    pure (⟨v, l.from_, rp.to_⟩ :: rest)
  else pure [⟨v, l.from_, rp.to_⟩]

/-- parser.go:1186-1261, `parseInsert`. -/
def parseInsert (r : Parsers) : P Stmt := do
  let i ← kwOrErr .INSERT
  let _ ← expectKeyword .INTO
  let name ← parseObjectName r
  let columns ← (do
    if ← consumeToken .LParen then do
      let c ← parseColumnNames r
      expectToken .RParen
      pure c
    else pure [])
  let source ← (do
    if ← kw .VALUES then do
      let rows ← r.rows
      pure (InsertSource.constructor Pos.zero rows)
    else do
      let q ← r.query
      pure (.subQuery q))
  let assigns ← (do
    match ← parseKeywords [.ON, .DUPLICATE, .KEY, .UPDATE] with
    | some _ => r.assignments
    | none => pure [])
  pure (.insert i.from_ name columns source assigns)

/-- The position of the `n`th of the tokens returned by `parseKeywords`. -/
def nthTok (ts : List Token) (n : Nat) : Token := ts[n]?.getD default

/-- parser.go:1413-1493, `parseAlterColumn`. -/
def parseAlterColumn (r : Parsers) (alt : Token) : P AlterTableAction := do
  let name ← parseIdentifier
  let t ← mustNext
  match t.word? with
  | none => .err
  | some w =>
    match kwOf w.keyword with
    | some .SET => do
      if ← kw .DEFAULT then do
        let d ← parseDefaultExpr r
        pure (.alterColumn name alt.from_ (.setDefault t.from_ d))
      else
        match ← parseKeywords [.NOT, .NULL] with
        | some ts => pure (.alterColumn name alt.from_ (.pgSetNotNull t.from_ (nthTok ts 1).to_))
        | none => .err
    | some .DROP => do
      match ← kwTok .DEFAULT with
      | some dt => pure (.alterColumn name alt.from_ (.dropDefault t.from_ dt.to_))
      | none =>
        match ← parseKeywords [.NOT, .NULL] with
        | some ts => pure (.alterColumn name alt.from_ (.pgDropNotNull t.from_ (nthTok ts 1).to_))
        | none => .err
    | some .TYPE => do
      let tp ← parseDataType r
      pure (.alterColumn name alt.from_ (.pgAlterDataType t.from_ tp))
    | _ => .err

/-- `cascade, t, _ := p.parseKeyword("CASCADE")`, parser.go:1313-1317, 1336-1340 and 1398-1402. -/
def parseCascade : P (Bool × Pos) := do
  match ← kwTok .CASCADE with
  | some t => pure (true, t.to_)
  | none => pure (false, Pos.zero)

/-- parser.go:1276-1369: the action of `parseAlter`. -/
def parseAlterAction (r : Parsers) : P AlterTableAction := do
  match ← parseKeywords [.ADD, .COLUMN] with
  | some ts => do
    let c ← parseColumnDef r
    pure (.addColumn (nthTok ts 0).from_ c)
  | none =>
  match ← kwTok .ADD with
  | some add => do
    let c ← parseTableConstraints r
    pure (.addConstraint add.from_ c)
  | none =>
  match ← parseKeywords [.DROP, .CONSTRAINT] with
  | some ts => do
    let name ← parseIdentifier
    let (cascade, pos) ← parseCascade
    pure (.dropConstraint name (nthTok ts 0).from_ cascade pos)
  | none =>
  match ← parseKeywords [.DROP, .COLUMN] with
  | some ts => do
    let name ← parseIdentifier
    let (cascade, pos) ← parseCascade
    pure (.removeColumn name cascade pos (nthTok ts 0).from_)
  | none =>
  match ← parseKeywords [.ALTER, .COLUMN] with
  | some ts => parseAlterColumn r (nthTok ts 0)
  | none => .err

/-- parser.go:1263-1370, `parseAlter`. -/
def parseAlter (r : Parsers) : P Stmt := do
  let t ← kwOrErr .ALTER
  let _ ← expectKeyword .TABLE
  let name ← parseObjectName r
  let action ← parseAlterAction r
  pure (.alterTable t.from_ name action)

/-- parser.go:1372-1411, `parseDrop`. -/
def parseDrop (r : Parsers) : P Stmt := do
  let t ← kwOrErr .DROP
  if ← kw .TABLE then do
    let ex ← parseKeywords [.IF, .EXISTS]
    let name ← parseObjectName r
    let (cascade, pos) ← parseCascade
    pure (.dropTable [name] cascade pos ex.isSome t.from_)
  else do
    let _ ← expectKeyword .INDEX
    let ids ← parseColumnNames r
    pure (.dropIndex t.from_ ids)

/-- parser.go:129-170, `ParseStatement`. -/
def statementF (r : Parsers) : P Stmt := do
  let t ← nextOrErr
  match t.word? with
  | none => .err
  | some w =>
    match kwOf w.keyword with
    | some .SELECT => parseQueryStmt
    | some .WITH => parseQueryStmt
    | some .CREATE => do prevToken; parseCreate r
    | some .DELETE => do prevToken; parseDelete r
    | some .INSERT => do prevToken; parseInsert r
    | some .ALTER => do prevToken; parseAlter r
    | some .UPDATE => do prevToken; parseUpdate r
    | some .DROP => do prevToken; parseDrop r
    | some .EXPLAIN => do
      let s ← r.statement
      pure (.explain s Pos.zero)
    | _ => .err
where
  parseQueryStmt : P Stmt := do
    prevToken
    let q ← r.query
    pure (.query q)

/-! ### Tying the knot -/

/-- All entry points out of budget. -/
def Parsers.bot : Parsers where
  subexpr _ := .oof
  subexprLoop _ _ := .oof
  prefix_ := .oof
  idParts := .oof
  exprList := .oof
  listOfIds _ := .oof
  listOfIdsSep _ := .oof
  orderByList := .oof
  caseLoop := .oof
  query := .oof
  queryBody _ := .oof
  bodyLoop _ _ := .oof
  cteList := .oof
  selectList := .oof
  tableRef := .oof
  tableRefLoop _ _ := .oof
  fromRest := .oof
  defaultLoop _ := .oof
  columnLoop _ _ _ := .oof
  columnConstraints := .oof
  elements := .oof
  tableOptions := .oof
  assignments := .oof
  rows := .oof
  statement := .oof

/-- One level of calls. -/
def Parsers.step (fns : FloatFns) (r : Parsers) : Parsers where
  subexpr := subexprF r
  subexprLoop := subexprLoopF r
  prefix_ := prefixF fns r
  idParts := idPartsF r
  exprList := exprListF r
  listOfIds := listOfIdsF r
  listOfIdsSep := listOfIdsSepF r
  orderByList := orderByListF r
  caseLoop := caseLoopF r
  query := queryF r
  queryBody := queryBodyF r
  bodyLoop := bodyLoopF r
  cteList := cteListF r
  selectList := selectListF r
  tableRef := tableRefF r
  tableRefLoop := tableRefLoopF r
  fromRest := fromRestF r
  defaultLoop := defaultLoopF r
  columnLoop := columnLoopF r
  columnConstraints := columnConstraintsF r
  elements := elementsF r
  tableOptions := tableOptionsF r
  assignments := assignmentsF r
  rows := rowsF r
  statement := statementF r

/-- The parser functions with call depth at most `n`. -/
def Parsers.at (fns : FloatFns) : Nat → Parsers
  | 0 => .bot
  | n + 1 => .step fns (Parsers.at fns n)

/-- parser.go:90-124, the loop of `ParseSQL` from the `n`th iteration on.  `mode` is `p.parseComment`; in
comment mode the look-ahead of lines 97-107 reads a token and puts it back. -/
def parseSQLLoop (mode : Bool) (r : Parsers) : Nat → Bool → P (List Stmt)
  | 0, _ => .oof
  | n + 1, expectingDelimiter => do
    let ok ← consumeToken .Semicolon
    if !ok && expectingDelimiter then .err
    else do
      let t ← if mode then nextToken else peekToken
      match t with
      | none => pure []
      | some _ => do
        if mode then prevToken
        let s ← r.statement
        let ss ← parseSQLLoop mode r n true
        pure (s :: ss)

/-- parser.go:86-127, `ParseSQL`. -/
def parseSQL (mode : Bool) (r : Parsers) (n : Nat) : P (List Stmt) := parseSQLLoop mode r n false

/-- Insertion into a list sorted by position. -/
def insertGroup (g : CommentGroup) : List CommentGroup → List CommentGroup
  | [] => [g]
  | h :: gs => if comparePos g.pos h.pos < 0 then g :: h :: gs else h :: insertGroup g gs

/-- `sort.Slice` of parser.go:76-78.  The slice is filled in the arbitrary order of a Go map iteration, and
`sort.Slice` may return any sorted permutation of it; `C18_sort_unique` shows that there is only one. -/
def sortGroups (gs : List CommentGroup) : List CommentGroup := gs.foldr insertGroup []

/-- parser.go:64-84, `ParseFile`. -/
def parseFile (fns : FloatFns) (fuel : Nat) (mode : Bool) (s : PState) : Res PState File :=
  match (parseSQL mode (Parsers.at fns fuel) fuel).run mode s with
  | .ok stmts s' => .ok ⟨stmts, sortGroups (s'.comments.map Prod.snd)⟩ s'
  | .err => .err
  | .panic => .panic
  | .oof => .oof

/-- The parser returned by `NewParser` (parser.go:34-48) for the given tokens. -/
def newParser (toks : List Token) : PState := ⟨toks, 0, []⟩

end Verif
