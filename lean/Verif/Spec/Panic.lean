import Verif.Proofs.Zipper
/-
Panics, for C21: where a run panics, and a table of the reasons.

A row of the table says which tokens the parser requires at some point of the grammar.  Most of the panics are
in `expectKeyword` (parser.go:2869-2880) and `expectToken` (parser.go:2882-2893), the others in `switch`
statements whose default case panics or dereferences nil.
-/
namespace Verif

/-- The state in which a run panics. -/
def P.panicAt (mode : Bool) : P α → PState → Option PState
  | .next k, s => (k (s.next mode).1).panicAt mode (s.next mode).2
  | .peek k, s => (k s.peek).panicAt mode s
  | .prev k, s =>
    match s.prev with
    | none => some s
    | some s' => k.panicAt mode s'
  | .kws ks k, s => (k (s.kws mode ks).1).panicAt mode (s.kws mode ks).2
  | .panic, s => some s
  | _, _ => none

/-- A kind of token. -/
inductive Item where
  | kw (k : KW)
  | sym (s : Sym)
  | word
  | number
  | string
  deriving DecidableEq, Repr

/-- The token is acceptable where the item is required. -/
def Item.is : Item → Token → Bool
  | .kw k, t => t.matchesKw k.str
  | .sym s, t => t.isSym s
  | .word, t => t.word?.isSome
  | .number, t => match t.tok with | .number _ => true | _ => false
  | .string, t => match t.tok with | .single _ => true | .national _ => true | _ => false

/-- The parser may take the token for the item: it also recognises keywords by the field `Keyword`. -/
def Item.like : Item → Token → Bool
  | .kw k, t => t.matchesKw k.str || t.kw? = some k
  | a, t => a.is t

/-- A place in the grammar where the parser panics unless the next token is one of `need`: the possible items just
before (no condition if the list is empty), an item that was read at some time before that, and what is required. -/
structure Site where
  seen : Option Item
  prev : List Item
  need : List Item
  deriving DecidableEq, Repr

/-- The tokens read so far (latest first) and the tokens to come are at that place, and none of the required
items comes next. -/
def Site.holds (c : Site) (before after : List Token) : Prop :=
  (∀ a, c.seen = some a → ∃ t ∈ (if c.prev = [] then before else before.tail), a.like t = true) ∧
  (c.prev = [] ∨ ∃ a ∈ c.prev, ∃ t, before.head? = some t ∧ a.like t = true) ∧
  ∃ t, after.head? = some t ∧ ∀ a ∈ c.need, a.is t = false

/-- The next token, or the one just read, is a word whose field `Keyword` is one of the keywords, but which
`parseKeyword` does not accept as that keyword.  (In tokenized text, the word contains a dotless i:
`strings.ToUpper` makes it an `I`, but `strings.EqualFold` does not identify the two.) -/
def mismatch (ks : List KW) (s : PState) : Prop :=
  ∃ t k, (s.after.head? = some t ∨ s.before.head? = some t) ∧ k ∈ ks ∧ t.kw? = some k ∧ t.matchesKw k.str = false

/-- The keywords that the parser recognises by the field `Keyword` and then tries to read with `parseKeyword`
(parser.go:129-170, 303-304, 345-364, 1655-1780, 2042-2057). -/
def twice : List KW := [.SELECT, .WITH, .NOT, .IN, .BETWEEN, .JOIN]

/-- What an expression can begin with. -/
def exprStart : List Item := [.word, .number, .string, .sym .Mult, .sym .Plus, .sym .Minus, .sym .LParen]

/-- What can stand before an expression. -/
def exprPrev : List Item := [
  .kw .SELECT, .kw .DISTINCT, .kw .WHERE, .kw .BY, .kw .HAVING, .kw .ON, .kw .CASE, .kw .WHEN, .kw .THEN, .kw .ELSE,
  .kw .DEFAULT, .kw .NOT, .kw .AND, .kw .OR, .kw .LIKE, .kw .BETWEEN, .sym .Comma, .sym .LParen, .sym .Eq, .sym .Neq,
  .sym .Lt, .sym .LtEq, .sym .Gt, .sym .GtEq, .sym .Plus, .sym .Minus, .sym .Mult, .sym .Div, .sym .Mod]

/-- The table of the places where the parser looks at the next token and panics. -/
def sites : List Site := [
  -- a statement (parser.go:517-544, 1095-1411)
  ⟨none, [.kw .CREATE], [.kw .TABLE, .kw .MATERIALIZED, .kw .VIEW, .kw .INDEX]⟩,
  ⟨none, [.kw .MATERIALIZED], [.kw .VIEW]⟩,
  ⟨some (.kw .VIEW), [.word], [.kw .AS]⟩,
  ⟨some (.kw .INDEX), [.word], [.kw .ON]⟩,
  ⟨none, [.kw .DELETE], [.kw .FROM]⟩,
  ⟨none, [.kw .INSERT], [.kw .INTO]⟩,
  ⟨none, [.kw .ALTER], [.kw .TABLE]⟩,
  ⟨none, [.kw .DROP], [.kw .TABLE, .kw .INDEX]⟩,
  ⟨some (.kw .UPDATE), [.word], [.kw .SET]⟩,
  ⟨some (.kw .UPDATE), [.word], [.sym .Eq]⟩,
  -- an element of a table definition (parser.go:648-988)
  ⟨some (.kw .CONSTRAINT), [.word], [.word]⟩,
  ⟨none, [.kw .UNIQUE], [.kw .KEY, .sym .LParen]⟩,
  ⟨none, [.kw .PRIMARY, .kw .FOREIGN], [.kw .KEY]⟩,
  ⟨none, [.kw .KEY, .kw .CHECK], [.sym .LParen]⟩,
  ⟨some (.kw .FOREIGN), [.sym .RParen], [.kw .REFERENCES]⟩,
  ⟨some (.kw .REFERENCES), [.word], [.sym .LParen]⟩,
  -- a data type (parser.go:172-297)
  ⟨none, [.kw .DOUBLE], [.kw .PRECISION]⟩,
  ⟨none, [.kw .WITH, .kw .WITHOUT], [.kw .TIME]⟩,
  ⟨none, [.kw .TIME], [.kw .ZONE]⟩,
  ⟨none, [.sym .LBracket], [.sym .RBracket]⟩,
  -- the beginning of a query (parser.go:303-398)
  ⟨none, [.sym .LParen], [.kw .WITH, .kw .SELECT, .sym .LParen]⟩,
  ⟨some (.kw .VIEW), [.kw .AS], [.kw .WITH, .kw .SELECT, .sym .LParen]⟩,
  ⟨some (.kw .INTO), [.word, .sym .RParen], [.kw .VALUES, .kw .WITH, .kw .SELECT, .sym .LParen]⟩,
  ⟨some (.kw .WITH), [.sym .RParen], [.sym .Comma, .kw .SELECT, .sym .LParen]⟩,
  ⟨none, [.kw .UNION, .kw .EXCEPT, .kw .INTERSECT], [.kw .ALL, .kw .SELECT, .sym .LParen]⟩,
  ⟨none, [.kw .ALL], [.kw .SELECT, .sym .LParen]⟩,
  -- a query (parser.go:1524-1866)
  ⟨some (.kw .WITH), [.word], [.kw .AS]⟩,
  ⟨some (.kw .WITH), [.kw .AS], [.sym .LParen]⟩,
  ⟨none, [.kw .CROSS, .kw .INNER, .kw .OUTER], [.kw .JOIN]⟩,
  ⟨none, [.kw .LEFT, .kw .RIGHT, .kw .FULL], [.kw .OUTER, .kw .JOIN]⟩,
  ⟨none, [.kw .USING], [.sym .LParen]⟩,
  ⟨some (.sym .LParen), [], [.sym .RParen]⟩,
  -- an expression (parser.go:1941-2131, 2176-2565, 2739-2859)
  ⟨none, [.kw .NOT], [.kw .IN, .kw .BETWEEN, .kw .LIKE]⟩,
  ⟨none, [.kw .IN, .kw .CAST, .kw .EXISTS, .kw .OVER], [.sym .LParen]⟩,
  ⟨some (.kw .BETWEEN), [], [.kw .AND]⟩,
  ⟨some (.kw .CASE), [], [.kw .WHEN]⟩,
  ⟨some (.kw .WHEN), [], [.kw .THEN]⟩,
  ⟨some (.kw .CAST), [], [.kw .AS]⟩,
  ⟨none, [.kw .PARTITION, .kw .ORDER], [.kw .BY]⟩,
  ⟨some (.kw .OVER), [.kw .UNBOUNDED, .number], [.kw .PRECEDING, .kw .FOLLOWING]⟩]

/-- The table of the places where the parser has read the token before it panics: a column definition after COLUMN, a
table element, the table after REFERENCES, an alias, and an expression (parser.go:691-693, 648-689, 792-794,
1524-1548, 2176-2372). -/
def readSites : List Site := [
  ⟨none, [.kw .COLUMN], [.word]⟩,
  ⟨some (.kw .TABLE), [], [.sym .RParen, .sym .Comma]⟩,
  ⟨none, [.kw .REFERENCES], [.word]⟩,
  ⟨none, [.kw .AS], [.word]⟩,
  ⟨none, exprPrev, exprStart⟩]

/-- The state is at a place of the tables and the token that follows, or has just been read, is not one of those
required. -/
def PState.misplaced (s : PState) : Prop :=
  (∃ c ∈ sites, c.holds s.before s.after) ∨
  ∃ c ∈ readSites, ∃ t rest, s.before = t :: rest ∧ c.holds rest (t :: s.after)

/-- The reasons for a panic that are not the end of the input. -/
def PState.explained (s : PState) : Prop := mismatch twice s ∨ s.misplaced

end Verif
