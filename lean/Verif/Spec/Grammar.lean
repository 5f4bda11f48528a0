import Verif.Model.Ast
import Verif.Model.ParserMonad
import Verif.Spec.Brackets
import Verif.Spec.Decimal
import Verif.Spec.WellFormed
/-
The SQL grammar of the parser, independent of how the parser works: for every tree the set of the sequences of
(significant) tokens that are read as this tree.  The tokens carry their positions, and a rule says of every position
in the tree which token begins or ends there.

A grammar rule is an equation `X.lang fns (.node …) = …` whose right side is built from single tokens
(`kwd`, `sym`, `word`, …) by sequence, choice and option.  `a ⬝ b` is `a` followed by `b`, `a ⊹ b` is `a` or `b`.
`p ▹ a` is an `a` that begins at position `p`, `a ◃ p` one that ends there, and `unset p` says that the parser leaves the
position `p` of the tree unset although the code has a field for it.

The rules describe the parser that exists.  Where it accepts or loses something it should not, the rule says so
and is marked QUIRK.  Some quirks are switched on and off by the parameter `q : Quirks`: two because there are conditions on the
input under which they do not occur, the others because without them (`q.odd = false`) a sequence of tokens has one
reading only.
-/
namespace Verif.Spec
open Verif

/-- A set of token sequences. -/
abbrev Lang := List Token → Prop

/-- No token. -/
def eps : Lang := fun ts => ts = []

/-- Nothing at all. -/
def never : Lang := fun _ => False

/-- The tokens that occur in statements: words, numbers, strings and 18 of the 24 punctuation tokens. -/
def inStatement : Tok → Bool
  | .word _ | .number _ | .single _ | .national _ => true
  | .sym k _ => !([.Semicolon, .Colon, .Backslash, .Ampersand, .LBrace, .RBrace].contains k)
  | _ => false

/-- Any of these tokens, with brackets that are closed in the right order (up to a `(` behind a word). -/
def anything : Lang := fun ts => (∀ t ∈ ts, inStatement t.tok = true) ∧ ∀ s, Nested true s ts s

/-- One after the other. -/
def cat (a b : Lang) : Lang := fun ts => ∃ us vs, ts = us ++ vs ∧ a us ∧ b vs

/-- One of the two. -/
def alt (a b : Lang) : Lang := fun ts => a ts ∨ b ts

@[inherit_doc] infixr:65 " ⬝ " => cat
@[inherit_doc] infixr:60 " ⊹ " => alt

/-- The first token begins at the position. -/
def startsAt (p : Pos) (a : Lang) : Lang := fun ts => a ts ∧ ∃ t us, ts = t :: us ∧ t.from_ = p

/-- The last token ends at the position. -/
def endsAt (a : Lang) (p : Pos) : Lang := fun ts => a ts ∧ ∃ us t, ts = us ++ [t] ∧ t.to_ = p

@[inherit_doc] infixr:70 " ▹ " => startsAt
@[inherit_doc] infixl:71 " ◃ " => endsAt

/-- From the first position to the second. -/
def spans (p p' : Pos) (a : Lang) : Lang := p ▹ a ◃ p'

/-- No token, and the position is not set. -/
def unset (p : Pos) : Lang := fun ts => ts = [] ∧ p = Pos.zero

/-- No token, and none of the two positions is set. -/
def unset2 (p p' : Pos) : Lang := unset p ⬝ unset p'

/-- The tokens are there or not. -/
def opt (a : Lang) : Lang := eps ⊹ a

/-- The tokens are there if and only if the flag is set. -/
def flag (b : Bool) (a : Lang) : Lang := if b then a else eps

/-- The tokens are there and begin at the position, or neither is there. -/
def flagFrom (b : Bool) (p : Pos) (a : Lang) : Lang := if b then p ▹ a else unset p

/-- The tokens are there and end at the position, or neither is there. -/
def flagTo (b : Bool) (p : Pos) (a : Lang) : Lang := if b then a ◃ p else unset p

/-- The text is the keyword up to the case of letters.  The code has two ways to say this, `strings.EqualFold`
and `strings.ToUpper`; they differ for the Kelvin sign and the dotless i only. -/
def spells (s : Str) (k : KW) : Prop := equalFold s k.str = true ∨ upper s = k.str

/-- The keyword in any case of letters.  (QUIRK: also if it is quoted, see C12.) -/
def kwd (k : KW) : Lang := fun ts => ∃ t w, ts = [t] ∧ t.tok = .word w ∧ spells w.value k

/-- Several keywords. -/
def kwds : List KW → Lang
  | [] => eps
  | [k] => kwd k
  | k :: ks => kwd k ⬝ kwds ks

/-- A punctuation token. -/
def sym (k : Sym) : Lang := fun ts => ∃ t s, ts = [t] ∧ t.tok = .sym k s

/-- A word with the text and the place of the identifier, but not one of the given keywords. -/
def word (bad : List KW) (i : Ident) : Lang := fun ts =>
  ∃ t w, ts = [t] ∧ t.tok = .word w ∧ w.string = i.value ∧ t.from_ = i.from_ ∧ t.to_ = i.to_ ∧
    ∀ k ∈ bad, upper w.value ≠ k.str

/-- A nonempty list with a separator. -/
def sepBy (s : Sym) : List Lang → Lang
  | [] => never
  | [a] => a
  | a :: as => a ⬝ sym s ⬝ sepBy s as

/-- One after the other. -/
def concat : List Lang → Lang
  | [] => eps
  | a :: as => a ⬝ concat as

/-- A list that is replaced together with what surrounds it if it is empty. -/
def clauseOr (other : Lang) (wrap : Lang → Lang) (as : List Lang) : Lang :=
  match as with
  | [] => other
  | _ :: _ => wrap (sepBy .Comma as)

/-- A list that is left out together with what surrounds it if it is empty. -/
def clause (wrap : Lang → Lang) (as : List Lang) : Lang := clauseOr eps wrap as

/-- A part that is left out together with what surrounds it. -/
def optional (wrap : Lang → Lang) : Option Lang → Lang
  | none => eps
  | some a => wrap a

def parens (a : Lang) : Lang := sym .LParen ⬝ a ⬝ sym .RParen

/-- The closing parenthesis ends at the position. -/
def parensTo (p : Pos) (a : Lang) : Lang := sym .LParen ⬝ a ⬝ sym .RParen ◃ p

/-- A decimal number that is an `int`. -/
def number (n : Nat) : Lang := fun ts => ∃ t s, ts = [t] ∧ t.tok = .number s ∧ Denotes s n ∧ n < 2 ^ 63

/-- The same, as an integer. -/
def numberZ (v : Int) : Lang := fun ts => ∃ n : Nat, v = n ∧ number n ts

/-- An integer literal.  QUIRK: it is cut off at the largest `int`, and 0 if it is not a decimal number. -/
def integer (v : Int) : Lang := fun ts => ∃ t s, ts = [t] ∧ t.tok = .number s ∧ '.' ∉ s ∧
  ((∃ n, Denotes s n ∧ v = min n (2 ^ 63 - 1)) ∨ ((∀ n, ¬ Denotes s n) ∧ v = 0))

def idents (s : Sym) (is : List Ident) : Lang := sepBy s (is.map (word []))

/-- A dotted name. -/
def objectName (o : ObjectName) : Lang := idents .Period o.idents

/-- The keywords that begin an expression and are not names there. -/
def exprKeywords : List KW := [.TRUE, .FALSE, .NULL, .CASE, .CAST, .EXISTS, .NOT]

/-- A dotted name in an expression. -/
def exprName : List Ident → Lang
  | [] => never
  | [i] => word exprKeywords i
  | i :: is => word exprKeywords i ⬝ sym .Period ⬝ idents .Period is

/-- Which quirks may occur. -/
structure Quirks where
  /-- the joins before CROSS JOIN are lost (C29) -/
  cross : Bool
  /-- AS at the end of the input is lost -/
  as : Bool
  /-- sentences that have another reading as well, or that no user would write on purpose: an operand of `::` or of NOT or a bound
  of BETWEEN that needs parentheses, the call of a table function, constraints of a column that are lost -/
  odd : Bool

/-- No token, and the condition holds. -/
def only (c : Prop) : Lang := fun ts => ts = [] ∧ c

/-- Tokens that are lost, if the quirk may occur. -/
def lost (b : Bool) (a : Lang) : Lang := if b then eps ⊹ a else eps

/-! ### Types -/

def sizeLang (rparen : Pos) : Option Nat → Lang
  | none => unset rparen
  | some n => parensTo rparen (number n)

def precisionLang (rparen : Pos) (p : Nat) : Option Nat → Lang
  | none => parensTo rparen (number p)
  | some s => parensTo rparen (number p ⬝ sym .Comma ⬝ number s)

/-- The keywords that are the name of a type or begin one. -/
def typeKeywords : List KW := [.BOOLEAN, .FLOAT, .REAL, .DOUBLE, .SMALLINT, .INTEGER, .INT, .BIGINT, .VARCHAR, .CHAR,
  .CHARACTER, .UUID, .DATE, .TIMESTAMP, .TIME, .REGCLASS, .TEXT, .BYTEA, .NUMERIC]

def typeName : List Ident → Lang
  | [] => never
  | [i] => word typeKeywords i
  | i :: is => word typeKeywords i ⬝ sym .Period ⬝ idents .Period is

def unsignedLang (u : Bool) (p : Pos) : Lang := flagTo u p (kwd .UNSIGNED)

/-- QUIRK: of the type BIGINT the position of UNSIGNED is that of the next token (which is not part of the type) if UNSIGNED
is missing. -/
def bigUnsignedLang (u : Bool) (p : Pos) : Lang := if u then kwd .UNSIGNED ◃ p else eps

/-- QUIRK: WITH WITHOUT TIME ZONE is WITH TIME ZONE. -/
def timeZoneLang (with_ : Bool) : Lang :=
  if with_ then kwd .WITH ⬝ opt (kwd .WITHOUT) ⬝ kwd .TIME ⬝ kwd .ZONE
  else opt (kwd .WITHOUT ⬝ kwd .TIME ⬝ kwd .ZONE)

def _root_.Verif.DataType.lang : DataType → Lang
  | .char size f t rp => spans f t (kwd .CHAR ⊹ kwd .CHARACTER) ⬝ sizeLang rp size
  | .varchar size c v rp =>
    (c ▹ kwd .VARCHAR ⬝ unset v ⊹ c ▹ (kwd .CHAR ⊹ kwd .CHARACTER) ⬝ kwd .VARYING ◃ v) ⬝ sizeLang rp size
  | .uuid f t => spans f t (kwd .UUID)
  | .decimal (some p) scale n rp u up => n ▹ kwd .NUMERIC ⬝ precisionLang rp p scale ⬝ unsignedLang u up
  | .decimal none _ _ _ _ _ => never
  | .float size f t rp u up => spans f t (kwd .FLOAT) ⬝ sizeLang rp size ⬝ unsignedLang u up
  | .smallInt f t u up => spans f t (kwd .SMALLINT) ⬝ unsignedLang u up
  | .int f t u up => spans f t (kwd .INT ⊹ kwd .INTEGER) ⬝ unsignedLang u up
  | .bigInt f t u up => spans f t (kwd .BIGINT) ⬝ bigUnsignedLang u up
  | .real f t u up => spans f t (kwd .REAL) ⬝ unsignedLang u up
  | .double f t => f ▹ kwd .DOUBLE ⬝ kwd .PRECISION ◃ t
  | .boolean f t => spans f t (kwd .BOOLEAN)
  | .date f t => kwd .DATE ⬝ unset2 f t
  -- QUIRK: the time zone of TIME is lost
  | .time f t => kwd .TIME ⬝ (timeZoneLang true ⊹ timeZoneLang false) ⬝ unset2 f t
  | .timestamp with_ f z => f ▹ kwd .TIMESTAMP ⬝ timeZoneLang with_ ⬝ unset z
  | .regclass f t => kwd .REGCLASS ⬝ unset2 f t
  | .text f t => kwd .TEXT ⬝ unset2 f t
  | .bytea f t => kwd .BYTEA ⬝ unset2 f t
  | .array (.text f t) rb => kwd .TEXT ⬝ sym .LBracket ⬝ sym .RBracket ⬝ unset2 f t ⬝ unset rb
  | .array _ _ => never
  | .custom name => typeName name.idents
  -- the parser has no syntax for the other types
  | .clob _ _ _ => never
  | .binary _ _ _ => never
  | .varbinary _ _ _ => never
  | .blob _ _ _ => never

/-! ### Parts of expressions and queries -/

def binaryOp (op : Operator) : Lang :=
  match op.type with
  | .Plus => spans op.from_ op.to_ (sym .Plus)
  | .Minus => spans op.from_ op.to_ (sym .Minus)
  | .Multiply => spans op.from_ op.to_ (sym .Mult)
  | .Divide => spans op.from_ op.to_ (sym .Div)
  | .Modulus => spans op.from_ op.to_ (sym .Mod)
  | .Gt => spans op.from_ op.to_ (sym .Gt)
  | .Lt => spans op.from_ op.to_ (sym .Lt)
  | .GtEq => spans op.from_ op.to_ (sym .GtEq)
  | .LtEq => spans op.from_ op.to_ (sym .LtEq)
  | .Eq => spans op.from_ op.to_ (sym .Eq)
  | .NotEq => spans op.from_ op.to_ (sym .Neq)
  | .And => spans op.from_ op.to_ (kwd .AND)
  | .Or => spans op.from_ op.to_ (kwd .OR)
  | .Like => spans op.from_ op.to_ (kwd .LIKE)
  -- QUIRK: the operator NOT LIKE ends after NOT
  | .NotLike => spans op.from_ op.to_ (kwd .NOT) ⬝ kwd .LIKE
  | .Not => never
  | .None => never

/-- The operator together with the position where the expression begins. -/
def unaryOp (p : Pos) (op : Operator) : Lang :=
  match op.type with
  | .Plus => p ▹ spans op.from_ op.to_ (sym .Plus)
  | .Minus => p ▹ spans op.from_ op.to_ (sym .Minus)
  | .Not => p ▹ kwd .NOT ⬝ unset2 op.from_ op.to_
  | _ => never

def boundLang : FrameBound → Lang
  | .currentRow p p' => kwd .CURRENT ⬝ kwd .ROW ⬝ unset2 p p'
  | .unboundedPreceding p p' => kwd .UNBOUNDED ⬝ kwd .PRECEDING ⬝ unset2 p p'
  | .unboundedFollowing p p' => kwd .UNBOUNDED ⬝ kwd .FOLLOWING ⬝ unset2 p p'
  | .preceding n p p' => number n ⬝ kwd .PRECEDING ⬝ unset2 p p'
  | .following n p p' => number n ⬝ kwd .FOLLOWING ⬝ unset2 p p'

def unitLang (u : WindowFrameUnit) : Lang :=
  (match u.type with
    | .Rows => kwd .ROWS
    | .Range => kwd .RANGE
    | .Groups => kwd .GROUPS) ⬝ unset2 u.from_ u.to_

def frameLang : Option WindowFrame → Lang
  | none => eps
  | some ⟨u, s, none⟩ => unitLang u ⬝ boundLang s
  | some ⟨u, s, some e⟩ => unitLang u ⬝ kwd .BETWEEN ⬝ boundLang s ⬝ kwd .AND ⬝ boundLang e

def directionLang : Option Bool → Lang
  | none => eps
  | some true => kwd .ASC
  | some false => kwd .DESC

def limitLang : Option LimitExpr → Lang
  | none => eps
  | some ⟨none, ap, lp, none⟩ => kwd .LIMIT ⬝ kwd .ALL ⬝ unset2 ap lp
  | some ⟨none, _, _, some _⟩ => never
  | some ⟨some n, ap, lp, none⟩ => kwd .LIMIT ⬝ spans n.from_ n.to_ (numberZ n.long) ⬝ unset2 ap lp
  -- QUIRK: the number after OFFSET has the position of the keyword
  | some ⟨some n, ap, lp, some o⟩ =>
    kwd .LIMIT ⬝ spans n.from_ n.to_ (numberZ n.long) ⬝ spans o.from_ o.to_ (kwd .OFFSET) ⬝ numberZ o.long ⬝ unset2 ap lp

def setOpLang : SetOp → Lang
  | .union f t => kwd .UNION ⬝ unset2 f t
  | .except f t => kwd .EXCEPT ⬝ unset2 f t
  | .intersect f t => kwd .INTERSECT ⬝ unset2 f t

/-- The type of a join.  QUIRK: INNER has a position after NATURAL only, RIGHT and FULL never; LEFT OUTER ends after LEFT. -/
def joinTypeLang (natural : Bool) (ty : JoinType) : Lang :=
  match ty.cond with
  | .INNER => if natural then spans ty.from_ ty.to_ (kwd .INNER) else kwd .INNER ⬝ unset2 ty.from_ ty.to_
  | .LEFT => spans ty.from_ ty.to_ (kwd .LEFT)
  | .RIGHT => kwd .RIGHT ⬝ unset2 ty.from_ ty.to_
  | .FULL => kwd .FULL ⬝ unset2 ty.from_ ty.to_
  | .LEFTOUTER => spans ty.from_ ty.to_ (kwd .LEFT) ⬝ kwd .OUTER
  | .RIGHTOUTER => kwd .RIGHT ⬝ kwd .OUTER ⬝ unset2 ty.from_ ty.to_
  | .FULLOUTER => kwd .FULL ⬝ kwd .OUTER ⬝ unset2 ty.from_ ty.to_
  | .IMPLICIT => unset2 ty.from_ ty.to_

/-- The words that are no alias without AS: of a table … -/
def tableKeywords : List KW := [.WITH, .SELECT, .WHERE, .GROUP, .ORDER, .UNION, .EXCEPT, .INTERSECT, .ON, .JOIN, .INNER,
  .CROSS, .FULL, .LEFT, .RIGHT, .NATURAL, .USING]

/-- … and of a column. -/
def columnKeywords : List KW := [.WITH, .SELECT, .WHERE, .GROUP, .ORDER, .UNION, .EXCEPT, .INTERSECT, .FROM]

def aliasLang (bad : List KW) (a : Ident) : Lang := kwd .AS ⬝ word [] a ⊹ word bad a

def tableAliasLang (q : Quirks) : Option Ident → Lang
  -- QUIRK: AS may be lost
  | none => lost q.as (kwd .AS)
  | some a => aliasLang tableKeywords a

/-- WHEN … THEN … and so on; as many results as conditions. -/
def whens : List Lang → List Lang → Lang
  | [], [] => eps
  | c :: cs, r :: rs => kwd .WHEN ⬝ c ⬝ kwd .THEN ⬝ r ⬝ whens cs rs
  | _, _ => never

/-- A query in parentheses at the place of an expression.  QUIRK: `(SELECT WITH …)` is `(WITH …)`. -/
def subqueryLang (hasWith : Bool) (rparen : Pos) (a : Lang) : Lang :=
  sym .LParen ⬝ (if hasWith then opt (kwd .SELECT) else eps) ⬝ a ⬝ sym .RParen ◃ rparen

def _root_.Verif.QueryStmt.hasWith : QueryStmt → Bool
  | .mk _ ctes _ _ _ => !ctes.isEmpty

/-- A cast written with `::`, for which the parser sets no positions. -/
def _root_.Verif.Expr.isColonCast : Expr → Bool
  | .cast _ _ c _ => c == Pos.zero
  | _ => false

/-- The expression begins with EXISTS, which NOT would belong to. -/
def _root_.Verif.Expr.beginsExists : Expr → Bool
  | .binary l _ _ => l.beginsExists
  | .isNull x => x.beginsExists
  | .isNotNull x => x.beginsExists
  | .inList x _ _ _ => x.beginsExists
  | .inSubQuery x _ _ _ => x.beginsExists
  | .between x _ _ _ => x.beginsExists
  | .cast x _ c _ => c == Pos.zero && x.beginsExists
  | .exists_ neg _ _ _ _ => !neg
  | _ => false

/-- `::` has the level 50. -/
def colonLevel : Nat := 50

/-! ### Expressions and queries -/

mutual

def _root_.Verif.Expr.lang (fns : FloatFns) (q : Quirks) : Expr → Lang
  | .ident i => word exprKeywords i
  | .wildcard p => p ▹ sym .Mult
  | .qualifiedWildcard is => exprName is ⬝ sym .Period ⬝ sym .Mult
  | .compoundIdent is => exprName is ⬝ only (2 ≤ is.length)
  | .isNull x => x.lang fns q ⬝ kwd .IS ⬝ kwd .NULL
  | .isNotNull x => x.lang fns q ⬝ kwd .IS ⬝ kwd .NOT ⬝ kwd .NULL
  | .inList x l neg rp =>
    x.lang fns q ⬝ flag neg (kwd .NOT) ⬝ kwd .IN ⬝ parensTo rp (sepBy .Comma (Expr.langs fns q l))
  | .inSubQuery x s neg rp =>
    x.lang fns q ⬝ flag neg (kwd .NOT) ⬝ kwd .IN ⬝ subqueryLang s.hasWith rp (s.lang fns q)
  | .between x neg low high =>
    x.lang fns q ⬝ flag neg (kwd .NOT) ⬝ kwd .BETWEEN ⬝ low.lang fns q ⬝ kwd .AND ⬝ high.lang fns q
      ⬝ only (q.odd = true ∨ low.isColonCast = false ∧ high.isColonCast = false)
  | .binary l op r => l.lang fns q ⬝ binaryOp op ⬝ r.lang fns q
  | .cast x ty c rp =>
    c ▹ kwd .CAST ⬝ sym .LParen ⬝ x.lang fns q ⬝ kwd .AS ⬝ ty.lang ⬝ sym .RParen ◃ rp
      ⊹ x.lang fns q ⬝ sym .DoubleColon ⬝ ty.lang ⬝ unset2 c rp
        ⬝ only (q.odd = true ∨ colonLevel ≤ x.lp ∧ colonLevel ≤ x.rp)
  | .nested x lp rp => lp ▹ sym .LParen ⬝ x.lang fns q ⬝ sym .RParen ◃ rp
  | .unary p op x => unaryOp p op ⬝ x.lang fns q ⬝ only (q.odd = true ∨ op.type ≠ .Not ∨ x.beginsExists = false)
  | .function name args rp none orp =>
    exprName name.idents ⬝ parensTo rp (clause id (Expr.langs fns q args)) ⬝ unset orp
  | .function name args rp (some over) orp =>
    exprName name.idents ⬝ parensTo rp (clause id (Expr.langs fns q args)) ⬝ kwd .OVER ⬝ over.lang fns q ⬝ unset orp
  | .caseExpr c e operand conditions results elseResult =>
    c ▹ kwd .CASE ⬝ optional id (Expr.langO fns q operand)
      ⬝ whens (Expr.langs fns q conditions) (Expr.langs fns q results)
      ⬝ optional (kwd .ELSE ⬝ ·) (Expr.langO fns q elseResult) ⬝ kwd .END ◃ e
  | .exists_ neg s n e rp => flagFrom neg n (kwd .NOT) ⬝ e ▹ kwd .EXISTS ⬝ parensTo rp (s.lang fns q)
  | .subQuery rp lp s => lp ▹ subqueryLang s.hasWith rp (s.lang fns q)
  | .long v => spans v.from_ v.to_ (integer v.long)
  | .double f t v => spans f t fun ts => ∃ t s, ts = [t] ∧ t.tok = .number s ∧ '.' ∈ s ∧ fns.parse s = some v
  | .singleQuoted f t s => spans f t fun ts => ∃ t, ts = [t] ∧ t.tok = .single s
  | .national f t s => spans f t fun ts => ∃ t, ts = [t] ∧ t.tok = .national s
  | .boolean f t b => spans f t (if b then kwd .TRUE else kwd .FALSE)
  | .null f t => spans f t (kwd .NULL)
  | .timeValue _ _ _ _ => never

def _root_.Verif.Expr.langs (fns : FloatFns) (q : Quirks) : List Expr → List Lang
  | [] => []
  | x :: xs => x.lang fns q :: Expr.langs fns q xs

def _root_.Verif.Expr.langO (fns : FloatFns) (q : Quirks) : Option Expr → Option Lang
  | none => none
  | some x => some (x.lang fns q)

def _root_.Verif.WindowSpec.lang (fns : FloatFns) (q : Quirks) : WindowSpec → Lang
  | .mk partitionBy orderBy frame p o =>
    sym .LParen ⬝ clauseOr (unset p) (p ▹ kwd .PARTITION ⬝ kwd .BY ⬝ ·) (Expr.langs fns q partitionBy)
      ⬝ clauseOr (unset o) (o ▹ kwd .ORDER ⬝ kwd .BY ⬝ ·) (OrderByExpr.langs fns q orderBy)
      ⬝ frameLang frame ⬝ sym .RParen

def _root_.Verif.OrderByExpr.lang (fns : FloatFns) (q : Quirks) : OrderByExpr → Lang
  | .mk x p asc => x.lang fns q ⬝ directionLang asc ⬝ unset p

def _root_.Verif.OrderByExpr.langs (fns : FloatFns) (q : Quirks) : List OrderByExpr → List Lang
  | [] => []
  | x :: xs => x.lang fns q :: OrderByExpr.langs fns q xs

def _root_.Verif.QueryStmt.lang (fns : FloatFns) (q : Quirks) : QueryStmt → Lang
  | .mk w ctes body orderBy limit =>
    clause (kwd .WITH ⬝ ·) (CTE.langs fns q ctes) ⬝ body.lang fns q
      ⬝ clause (kwd .ORDER ⬝ kwd .BY ⬝ ·) (OrderByExpr.langs fns q orderBy) ⬝ limitLang limit ⬝ unset w

def _root_.Verif.CTE.lang (fns : FloatFns) (q : Quirks) : CTE → Lang
  | .mk alias s rp => word [] alias ⬝ kwd .AS ⬝ parens (s.lang fns q) ⬝ unset rp

def _root_.Verif.CTE.langs (fns : FloatFns) (q : Quirks) : List CTE → List Lang
  | [] => []
  | x :: xs => x.lang fns q :: CTE.langs fns q xs

def _root_.Verif.SetExpr.lang (fns : FloatFns) (q : Quirks) : SetExpr → Lang
  | .selectExpr _ => never
  | .select s => s.lang fns q
  | .query lp rp s => parens (s.lang fns q) ⬝ unset2 lp rp
  | .setOp op all l r => l.lang fns q ⬝ setOpLang op ⬝ flag all (kwd .ALL) ⬝ r.lang fns q

def _root_.Verif.SQLSelect.lang (fns : FloatFns) (q : Quirks) : SQLSelect → Lang
  | .mk distinct projection from_ where_ groupBy having p =>
    p ▹ kwd .SELECT ⬝ flag distinct (kwd .DISTINCT) ⬝ sepBy .Comma (SelectItem.langs fns q projection)
      ⬝ clause (kwd .FROM ⬝ ·) (TableRef.langs fns q from_)
      ⬝ optional (kwd .WHERE ⬝ ·) (Expr.langO fns q where_)
      ⬝ clause (kwd .GROUP ⬝ kwd .BY ⬝ ·) (Expr.langs fns q groupBy)
      ⬝ optional (kwd .HAVING ⬝ ·) (Expr.langO fns q having)

def _root_.Verif.SelectItem.lang (fns : FloatFns) (q : Quirks) : SelectItem → Lang
  | .unnamed x => x.lang fns q
  | .alias x a => x.lang fns q ⬝ aliasLang columnKeywords a
  | .qualifiedWildcard p => exprName p.idents ⬝ sym .Period ⬝ sym .Mult
  | .wildcard _ _ => never

def _root_.Verif.SelectItem.langs (fns : FloatFns) (q : Quirks) : List SelectItem → List Lang
  | [] => []
  | x :: xs => x.lang fns q :: SelectItem.langs fns q xs

def _root_.Verif.TableFactor.lang (fns : FloatFns) (q : Quirks) : TableFactor → Lang
  -- QUIRK: the parenthesis after the arguments of a table function is not part of the call
  | .table name alias [] arp hints hrp =>
    objectName name ⬝ lost q.odd (sym .LParen) ⬝ tableAliasLang q alias
      ⬝ clause (kwd .WITH ⬝ parens ·) (Expr.langs fns q hints) ⬝ unset2 arp hrp
  | .table name alias args arp hints hrp =>
    objectName name ⬝ sym .LParen ⬝ sepBy .Comma (Expr.langs fns q args) ⬝ tableAliasLang q alias
      ⬝ clause (kwd .WITH ⬝ parens ·) (Expr.langs fns q hints) ⬝ unset2 arp hrp ⬝ only (q.odd = true)
  | .derived lateral p lp rp s alias =>
    flag lateral (kwd .LATERAL) ⬝ parens (s.lang fns q) ⬝ tableAliasLang q alias ⬝ unset p ⬝ unset2 lp rp

def _root_.Verif.TableRef.lang (fns : FloatFns) (q : Quirks) : TableRef → Lang
  | .factor f => f.lang fns q
  -- QUIRK: what stands between the first table and CROSS JOIN may be lost
  | .cross r f => r.lang fns q ⬝ lost q.cross anything ⬝ kwd .CROSS ⬝ kwd .JOIN ⬝ f.lang fns q
  | .partitioned _ _ _ => never
  | .qualified l ty r spec =>
    l.lang fns q ⬝ joinTypeLang false ty ⬝ kwd .JOIN ⬝ r.lang fns q ⬝ spec.lang fns q
  | .natural l ty r => l.lang fns q ⬝ kwd .NATURAL ⬝ joinTypeLang true ty ⬝ kwd .JOIN ⬝ r.lang fns q

def _root_.Verif.TableRef.langs (fns : FloatFns) (q : Quirks) : List TableRef → List Lang
  | [] => []
  | x :: xs => x.lang fns q :: TableRef.langs fns q xs

def _root_.Verif.JoinSpec.lang (fns : FloatFns) (q : Quirks) : JoinSpec → Lang
  | .namedColumns is u rp => kwd .USING ⬝ parens (idents .Comma is) ⬝ unset2 u rp
  | .condition x p => p ▹ kwd .ON ⬝ x.lang fns q

end

/-! ### Statements -/

/-- Columns in parentheses, or nothing. -/
def columnsLang (is : List Ident) : Lang := clause parens (is.map (word []))

def whereLang (fns : FloatFns) (q : Quirks) (x : Option Expr) : Lang := optional (kwd .WHERE ⬝ ·) (Expr.langO fns q x)

def _root_.Verif.Assignment.lang (fns : FloatFns) (q : Quirks) (a : Assignment) : Lang :=
  word [] a.id ⬝ sym .Eq ⬝ a.value.lang fns q

def _root_.Verif.RowValueExpr.lang (fns : FloatFns) (q : Quirks) (r : RowValueExpr) : Lang :=
  r.lparen ▹ sym .LParen ⬝ sepBy .Comma (Expr.langs fns q r.values) ⬝ sym .RParen ◃ r.rparen

def _root_.Verif.InsertSource.lang (fns : FloatFns) (q : Quirks) : InsertSource → Lang
  | .subQuery s => s.lang fns q
  | .constructor v rows => kwd .VALUES ⬝ sepBy .Comma (rows.map (RowValueExpr.lang fns q)) ⬝ unset v

/-- An identifier and a comma, any number of times. -/
inductive DroppedIdents : Lang
  | nil : DroppedIdents []
  | cons (t t' : Token) (w : SQLWord) (s : Str) (ts : List Token) : t.tok = .word w → t'.tok = .sym .Comma s →
      DroppedIdents ts → DroppedIdents (t :: t' :: ts)

/-- The columns after REFERENCES in a table constraint.  QUIRK: a list that ends with a comma is lost, and so may be
empty. -/
def referencedLang (q : Quirks) : List Ident → Lang
  | [] => DroppedIdents ⬝ only (q.odd = true)
  | is => idents .Comma is

def _root_.Verif.TableConstraintSpec.lang (fns : FloatFns) (q : Quirks) : TableConstraintSpec → Lang
  | .unique true p u rp is => p ▹ kwd .PRIMARY ⬝ kwd .KEY ⬝ parensTo rp (idents .Comma is) ⬝ unset u
  | .unique false p u rp is => u ▹ kwd .UNIQUE ⬝ opt (kwd .KEY) ⬝ parensTo rp (idents .Comma is) ⬝ unset p
  | .referential p is key =>
    p ▹ kwd .FOREIGN ⬝ kwd .KEY ⬝ parens (idents .Comma is) ⬝ kwd .REFERENCES ⬝ word [] key.tableName
      ⬝ parensTo key.rparen (referencedLang q key.columns)
  | .check p rp x => p ▹ kwd .CHECK ⬝ parensTo rp (x.lang fns q)

/-- The name of a constraint of a table. -/
def nameLang (p : Pos) : Option Ident → Lang
  | none => unset p
  | some n => p ▹ kwd .CONSTRAINT ⬝ word [] n

def _root_.Verif.TableConstraint.lang (fns : FloatFns) (q : Quirks) (c : TableConstraint) : Lang :=
  nameLang c.constraint c.name ⬝ c.spec.lang fns q

def _root_.Verif.ColumnSpec.lang (fns : FloatFns) (q : Quirks) : ColumnSpec → Lang
  | .notNull n n' => n ▹ kwd .NOT ⬝ kwd .NULL ◃ n'
  | .unique true p k u => p ▹ kwd .PRIMARY ⬝ kwd .KEY ◃ k ⬝ unset u
  | .unique false p k u => u ▹ kwd .UNIQUE ⬝ unset2 p k
  | .references p rp name is => p ▹ kwd .REFERENCES ⬝ objectName name ⬝ parensTo rp (idents .Comma is)
  | .check x p rp => p ▹ kwd .CHECK ⬝ parensTo rp (x.lang fns q)

/-- The name of a constraint of a column. -/
def columnNameLang : Option Ident → Lang
  | none => eps
  | some n => kwd .CONSTRAINT ⬝ word [] n

def _root_.Verif.ColumnConstraint.lang (fns : FloatFns) (q : Quirks) (c : ColumnConstraint) : Lang :=
  columnNameLang c.name ⬝ c.spec.lang fns q ⬝ unset c.constraint

/-- What may follow the type of a column. -/
inductive ColumnItem where
  | default_ (x : Expr)
  | constraints (cs : List ColumnConstraint)
  | autoIncrement (a : AutoIncrement)

def ColumnItem.lang (fns : FloatFns) (q : Quirks) : ColumnItem → Lang
  | .default_ x => kwd .DEFAULT ⬝ x.lang fns q
  -- QUIRK: the name of a constraint that does not follow is lost
  | .constraints cs => concat (cs.map (ColumnConstraint.lang fns q)) ⬝ lost q.odd (fun ts => ∃ n, columnNameLang (some n) ts)
  | .autoIncrement a => spans a.auto a.increment (kwd .AUTO_INCREMENT)

def ColumnItem.default? : ColumnItem → Option Expr
  | .default_ x => some x
  | _ => none

def ColumnItem.constraints? : ColumnItem → Option (List ColumnConstraint)
  | .constraints cs => some cs
  | _ => none

def ColumnItem.autoIncrement? : ColumnItem → Option AutoIncrement
  | .autoIncrement a => some a
  | _ => none

/-- The items give the parts of the column definition.  QUIRK: of several defaults only the last counts, of several
groups of constraints (separated by other items) only the last. -/
structure ColumnItems (items : List ColumnItem) (default_ : Option Expr) (constraints : List ColumnConstraint)
    (decorations : List AutoIncrement) : Prop where
  default_ : default_ = (items.filterMap ColumnItem.default?).getLast?
  constraints : constraints = ((items.filterMap ColumnItem.constraints?).getLast?).getD []
  decorations : decorations = items.filterMap ColumnItem.autoIncrement?

/-- The constraints begin with NOT. -/
def ColumnItem.startsNot : ColumnItem → Bool
  | .constraints (⟨none, _, .notNull _ _⟩ :: _) => true
  | _ => false

/-- No group of constraints is empty or follows another, and a default value that NOT could extend is not followed by NOT. -/
def ColumnItem.separated : List ColumnItem → Bool
  | [] => true
  | .constraints cs :: items => !cs.isEmpty && (match items with
    | .constraints _ :: _ => false
    | _ => true) && ColumnItem.separated items
  | .default_ x :: items => (match items with
    | i :: _ => !i.startsNot || 15 ≤ x.rp
    | [] => true) && ColumnItem.separated items
  | .autoIncrement _ :: items => ColumnItem.separated items

/-- Not more than one default value and one group of constraints. -/
def ColumnItem.single (items : List ColumnItem) : Bool :=
  (items.filterMap ColumnItem.default?).length ≤ 1 && (items.filterMap ColumnItem.constraints?).length ≤ 1

def _root_.Verif.ColumnDef.lang (fns : FloatFns) (q : Quirks) (c : ColumnDef) : Lang :=
  word [] c.name ⬝ c.dataType.lang ⬝ fun ts => ∃ items, concat (items.map (ColumnItem.lang fns q)) ts ∧
    ColumnItems items c.default_ c.constraints c.decorations ∧ (q.odd = true ∨ (ColumnItem.separated items && ColumnItem.single items) = true)

def _root_.Verif.TableElement.lang (fns : FloatFns) (q : Quirks) : TableElement → Lang
  | .constraint c => c.lang fns q
  | .column c => c.lang fns q

def _root_.Verif.TableOption.lang : TableOption → Lang
  | .engine p equal name => p ▹ kwd .ENGINE ⬝ flag equal (sym .Eq) ⬝ word [] name
  | .charset isDefault d c equal name =>
    flagFrom isDefault d (kwd .DEFAULT) ⬝ c ▹ kwd .CHARSET ⬝ flag equal (sym .Eq) ⬝ word [] name

def _root_.Verif.AlterColumnAction.lang (fns : FloatFns) (q : Quirks) : AlterColumnAction → Lang
  | .setDefault p x => p ▹ kwd .SET ⬝ kwd .DEFAULT ⬝ x.lang fns q
  | .dropDefault p p' => p ▹ kwd .DROP ⬝ kwd .DEFAULT ◃ p'
  | .pgAlterDataType p ty => p ▹ kwd .TYPE ⬝ ty.lang
  | .pgSetNotNull p p' => p ▹ kwd .SET ⬝ kwd .NOT ⬝ kwd .NULL ◃ p'
  | .pgDropNotNull p p' => p ▹ kwd .DROP ⬝ kwd .NOT ⬝ kwd .NULL ◃ p'

def _root_.Verif.AlterTableAction.lang (fns : FloatFns) (q : Quirks) : AlterTableAction → Lang
  | .addColumn p c => p ▹ kwd .ADD ⬝ kwd .COLUMN ⬝ c.lang fns q
  | .alterColumn name p action => p ▹ kwd .ALTER ⬝ kwd .COLUMN ⬝ word [] name ⬝ action.lang fns q
  | .removeColumn name cascade cp p =>
    p ▹ kwd .DROP ⬝ kwd .COLUMN ⬝ word [] name ⬝ flagTo cascade cp (kwd .CASCADE)
  | .addConstraint p c => p ▹ kwd .ADD ⬝ c.lang fns q
  | .dropConstraint name p cascade cp =>
    p ▹ kwd .DROP ⬝ kwd .CONSTRAINT ⬝ word [] name ⬝ flagTo cascade cp (kwd .CASCADE)

def _root_.Verif.Stmt.lang (fns : FloatFns) (q : Quirks) : Stmt → Lang
  | .query s => s.lang fns q
  | .insert p name is source assigns =>
    p ▹ kwd .INSERT ⬝ kwd .INTO ⬝ objectName name ⬝ columnsLang is ⬝ source.lang fns q
      ⬝ clause (kwd .ON ⬝ kwd .DUPLICATE ⬝ kwd .KEY ⬝ kwd .UPDATE ⬝ ·) (assigns.map (Assignment.lang fns q))
  | .update p name assigns cond =>
    p ▹ kwd .UPDATE ⬝ objectName name ⬝ kwd .SET ⬝ sepBy .Comma (assigns.map (Assignment.lang fns q))
      ⬝ whereLang fns q cond
  | .delete p name cond => p ▹ kwd .DELETE ⬝ kwd .FROM ⬝ objectName name ⬝ whereLang fns q cond
  -- QUIRK: MATERIALIZED is lost (C30)
  | .createView p name s false =>
    p ▹ kwd .CREATE ⬝ opt (kwd .MATERIALIZED) ⬝ kwd .VIEW ⬝ objectName name ⬝ kwd .AS ⬝ s.lang fns q
  | .createView _ _ _ true => never
  -- QUIRK: a comma after the last option is lost
  | .createTable p name elements notExists options =>
    p ▹ kwd .CREATE ⬝ kwd .TABLE ⬝ flag notExists (kwd .IF ⬝ kwd .NOT ⬝ kwd .EXISTS) ⬝ objectName name
      ⬝ clause parens (elements.map (TableElement.lang fns q))
      ⬝ concat (options.map TableOption.lang) ⬝ opt (sym .Comma)
  | .alterTable p name action => p ▹ kwd .ALTER ⬝ kwd .TABLE ⬝ objectName name ⬝ action.lang fns q
  | .dropTable names cascade cp ifExists p =>
    p ▹ kwd .DROP ⬝ kwd .TABLE ⬝ flag ifExists (kwd .IF ⬝ kwd .EXISTS) ⬝ sepBy .Comma (names.map objectName)
      ⬝ flagTo cascade cp (kwd .CASCADE)
  -- QUIRK: CREATE INDEX UNIQUE INDEX is CREATE UNIQUE INDEX
  | .createIndex p name unique indexName methodName is rp cond =>
    kwd .CREATE ⬝ (if unique then opt (kwd .INDEX) ⬝ kwd .UNIQUE ⬝ kwd .INDEX else kwd .INDEX)
      ⬝ optional id (indexName.map (word [.ON])) ⬝ kwd .ON ⬝ objectName name
      ⬝ optional (kwd .USING ⬝ ·) (methodName.map (word [])) ⬝ columnsLang is ⬝ whereLang fns q cond ⬝ unset2 p rp
  | .dropIndex p is => p ▹ kwd .DROP ⬝ kwd .INDEX ⬝ idents .Comma is
  | .explain s p => kwd .EXPLAIN ⬝ s.lang fns q ⬝ unset p
  | .copy _ _ _ _ => never

/-- A list of statements, each followed by a semicolon; one more semicolon may come first. -/
def scriptLang (fns : FloatFns) (q : Quirks) (ss : List Stmt) : Lang :=
  opt (sym .Semicolon) ⬝ concat (ss.map fun s => s.lang fns q ⬝ sym .Semicolon)

end Verif.Spec
