import Verif.Model.Ast
import Verif.Model.Kw
import Verif.Model.Writer
/-
The tokens of printed syntax trees, whitespace included: an independent, token-level description of what the
`WriteTo` methods of package sqlast write.  Nothing here refers to the writers of Model/Print.lean;
Proofs/PrintText.lean proves that the texts agree.
-/
namespace Verif

/-- One blank. -/
def sp : Tok := .whitespace [' ']
def lpar : Tok := .sym .LParen ['(']
def rpar : Tok := .sym .RParen [')']
def comma : Tok := .sym .Comma [',']
def dot : Tok := .sym .Period ['.']
def star : Tok := .sym .Mult ['*']
def semi : Tok := .sym .Semicolon [';']
def eqT : Tok := .sym .Eq ['=']

/-- A keyword in capitals. -/
def kT (k : KW) : Tok := .word ⟨k.str, none, k.str⟩
/-- A keyword in small letters (type names, `true` and `false`). -/
def klT (k : KW) : Tok := .word ⟨lower k.str, none, k.str⟩

/-- The word token of an identifier as it is stored in an `Ident`, that is, with its quotes. -/
def identTok (v : Str) : Tok :=
  match v with
  | q :: rest =>
    if q = '"' ∨ q = '[' ∨ q = '`' then .word ⟨rest.dropLast, some q, upper rest.dropLast⟩
    else .word ⟨v, none, upper v⟩
  | [] => .word ⟨[], none, []⟩

def numTok (n : Nat) : Tok := .number (natStr n)

/-- The separator between the elements of a list: a comma and a blank if there is a next element. -/
def sepT : List α → List Tok
  | [] => []
  | _ :: _ => [comma, sp]

/-- Identifiers separated by commas. -/
def identsT : List Ident → List Tok
  | [] => []
  | i :: is => identTok i.value :: (sepT is ++ identsT is)

/-- Identifiers separated by periods. -/
def dotTail : List Ident → List Tok
  | [] => []
  | i :: is => dot :: identTok i.value :: dotTail is
def dottedT : List Ident → List Tok
  | [] => []
  | i :: is => identTok i.value :: dotTail is

def ObjectName.toks (o : ObjectName) : List Tok := dottedT o.idents

/-- An optional size in parentheses. -/
def sizeT : Option Nat → List Tok
  | some n => [lpar, numTok n, rpar]
  | none => []

def unsignedT (b : Bool) : List Tok := if b then [sp, klT .UNSIGNED] else []

def DataType.toks : DataType → List Tok
  | .char size _ _ _ => klT .CHAR :: sizeT size
  | .varchar size _ _ _ => klT .CHARACTER :: sp :: klT .VARYING :: sizeT size
  | .uuid _ _ => [klT .UUID]
  | .decimal precision scale _ _ u _ =>
    klT .NUMERIC :: (match precision with
      | some p => lpar :: numTok p :: ((match scale with
        | some s => [comma, numTok s]
        | none => []) ++ [rpar])
      | none => []) ++ unsignedT u
  | .float size _ _ _ u _ => klT .FLOAT :: (sizeT size ++ unsignedT u)
  | .smallInt _ _ u _ => klT .SMALLINT :: unsignedT u
  | .int _ _ u _ => klT .INT :: unsignedT u
  | .bigInt _ _ u _ => klT .BIGINT :: unsignedT u
  | .real _ _ u _ => klT .REAL :: unsignedT u
  | .double _ _ => [klT .DOUBLE, sp, klT .PRECISION]
  | .boolean _ _ => [klT .BOOLEAN]
  | .date _ _ => [klT .DATE]
  | .time _ _ => [klT .TIME]
  | .timestamp tz _ _ =>
    klT .TIMESTAMP :: (if tz then [sp, klT .WITH, sp, klT .TIME, sp, klT .ZONE] else [])
  | .regclass _ _ => [klT .REGCLASS]
  | .text _ _ => [klT .TEXT]
  | .bytea _ _ => [klT .BYTEA]
  | .array ty _ => ty.toks ++ [.sym .LBracket ['['], .sym .RBracket [']']]
  | .custom ty => ty.toks
  /- the parser has no such types -/
  | .clob _ _ _ => []
  | .binary _ _ _ => []
  | .varbinary _ _ _ => []
  | .blob _ _ _ => []

/-- The token or tokens of an operator. -/
def OpType.toks : OpType → List Tok
  | .Plus => [.sym .Plus ['+']]
  | .Minus => [.sym .Minus ['-']]
  | .Multiply => [star]
  | .Divide => [.sym .Div ['/']]
  | .Modulus => [.sym .Mod ['%']]
  | .Gt => [.sym .Gt ['>']]
  | .Lt => [.sym .Lt ['<']]
  | .GtEq => [.sym .GtEq ['>', '=']]
  | .LtEq => [.sym .LtEq ['<', '=']]
  | .Eq => [eqT]
  | .NotEq => [.sym .Neq ['!', '=']]
  | .And => [kT .AND]
  | .Or => [kT .OR]
  | .Not => [kT .NOT]
  | .Like => [kT .LIKE]
  | .NotLike => [kT .NOT, sp, kT .LIKE]
  | .None => []

def WindowUnit.kw : WindowUnit → KW
  | .Rows => .ROWS
  | .Range => .RANGE
  | .Groups => .GROUPS

def FrameBound.toks : FrameBound → List Tok
  | .currentRow _ _ => [kT .CURRENT, sp, kT .ROW]
  | .unboundedPreceding _ _ => [kT .UNBOUNDED, sp, kT .PRECEDING]
  | .unboundedFollowing _ _ => [kT .UNBOUNDED, sp, kT .FOLLOWING]
  | .preceding n _ _ => [numTok n, sp, kT .PRECEDING]
  | .following n _ _ => [numTok n, sp, kT .FOLLOWING]

def WindowFrame.toks (f : WindowFrame) : List Tok :=
  match f.endBound with
  | some e => kT f.units.type.kw :: sp :: kT .BETWEEN :: sp :: (f.startBound.toks ++ sp :: kT .AND :: sp :: e.toks)
  | none => kT f.units.type.kw :: sp :: f.startBound.toks

/-- The keywords of a join type, each followed by a blank. -/
def JoinCond.toks : JoinCond → List Tok
  | .INNER => [kT .INNER, sp]
  | .LEFT => [kT .LEFT, sp]
  | .RIGHT => [kT .RIGHT, sp]
  | .FULL => [kT .FULL, sp]
  | .LEFTOUTER => [kT .LEFT, sp, kT .OUTER, sp]
  | .RIGHTOUTER => [kT .RIGHT, sp, kT .OUTER, sp]
  | .FULLOUTER => [kT .FULL, sp, kT .OUTER, sp]
  | .IMPLICIT => []

def SetOp.kw : SetOp → KW
  | .union _ _ => .UNION
  | .except _ _ => .EXCEPT
  | .intersect _ _ => .INTERSECT

def LimitExpr.toks (l : LimitExpr) : List Tok :=
  kT .LIMIT :: sp :: ((match l.count with
    | none => [kT .ALL]
    | some v => [numTok v.long.toNat]) ++
  (match l.offset with
    | some v => [sp, kT .OFFSET, sp, numTok v.long.toNat]
    | none => []))

def notT (b : Bool) : List Tok := if b then [kT .NOT, sp] else []

/-- An optional alias. -/
def aliasT : Option Ident → List Tok
  | some a => [sp, kT .AS, sp, identTok a.value]
  | none => []

mutual

def Expr.toks (fns : FloatFns) : Expr → List Tok
  | .ident i => [identTok i.value]
  | .wildcard _ => [star]
  | .qualifiedWildcard is => dottedT is ++ [dot, star]
  | .compoundIdent is => dottedT is
  | .isNull x => x.toks fns ++ [sp, kT .IS, sp, kT .NULL]
  | .isNotNull x => x.toks fns ++ [sp, kT .IS, sp, kT .NOT, sp, kT .NULL]
  | .inList e l neg _ => e.toks fns ++ sp :: (notT neg ++ kT .IN :: sp :: lpar :: (Expr.toksL fns l ++ [rpar]))
  | .inSubQuery e q neg _ => e.toks fns ++ sp :: (notT neg ++ kT .IN :: sp :: lpar :: (q.toks fns ++ [rpar]))
  | .between e neg low high =>
    e.toks fns ++ sp :: (notT neg ++ kT .BETWEEN :: sp :: (low.toks fns ++ sp :: kT .AND :: sp :: high.toks fns))
  | .binary l op r => l.toks fns ++ sp :: (op.type.toks ++ sp :: r.toks fns)
  | .cast e ty _ _ => kT .CAST :: lpar :: (e.toks fns ++ sp :: kT .AS :: sp :: (ty.toks ++ [rpar]))
  | .nested e _ _ => lpar :: (e.toks fns ++ [rpar])
  | .unary _ op e => op.type.toks ++ sp :: e.toks fns
  | .function name args _ over _ => name.toks ++ lpar :: (Expr.toksL fns args ++ rpar :: WindowSpec.toksO fns over)
  | .caseExpr _ _ operand conds results else_ =>
    kT .CASE :: (Expr.toksO fns [sp] operand ++ (Expr.toksW fns conds (Expr.toksS fns results) ++
      (Expr.toksO fns [sp, kT .ELSE, sp] else_ ++ [sp, kT .END])))
  | .exists_ neg q _ _ _ => notT neg ++ kT .EXISTS :: sp :: lpar :: (q.toks fns ++ [rpar])
  | .subQuery _ _ q => lpar :: (q.toks fns ++ [rpar])
  | .long v => [numTok v.long.toNat]
  | .double _ _ v => [.number (fns.format v)]
  | .singleQuoted _ _ s => [.single s]
  | .national _ _ s => [.national s]
  | .boolean _ _ b => [klT (if b then .TRUE else .FALSE)]
  | .null _ _ => [kT .NULL]
  | .timeValue _ _ _ _ => []

/-- An optional expression after some tokens. -/
def Expr.toksO (fns : FloatFns) (pre : List Tok) : Option Expr → List Tok
  | some e => pre ++ e.toks fns
  | none => []

/-- Expressions separated by commas. -/
def Expr.toksL (fns : FloatFns) : List Expr → List Tok
  | [] => []
  | e :: es => e.toks fns ++ (sepT es ++ Expr.toksL fns es)

def Expr.toksS (fns : FloatFns) : List Expr → List (List Tok)
  | [] => []
  | e :: es => e.toks fns :: Expr.toksS fns es

/-- The WHEN branches of a CASE expression; the second argument are the results. -/
def Expr.toksW (fns : FloatFns) : List Expr → List (List Tok) → List Tok
  | [], _ => []
  | _ :: _, [] => []
  | c :: cs, r :: rs =>
    sp :: kT .WHEN :: sp :: (c.toks fns ++ sp :: kT .THEN :: sp :: (r ++ Expr.toksW fns cs rs))

def WindowSpec.toksO (fns : FloatFns) : Option WindowSpec → List Tok
  | some w => sp :: kT .OVER :: sp :: lpar :: (w.toks fns ++ [rpar])
  | none => []

def WindowSpec.toks (fns : FloatFns) : WindowSpec → List Tok
  | .mk partitionBy orderBy frame _ _ =>
    (if partitionBy.isEmpty then [] else kT .PARTITION :: sp :: kT .BY :: sp :: Expr.toksL fns partitionBy) ++
    ((if orderBy.isEmpty then []
      else (if partitionBy.isEmpty then [] else [sp]) ++ kT .ORDER :: sp :: kT .BY :: sp :: OrderByExpr.toksL fns orderBy) ++
    (match frame with
      | some f => (if partitionBy.isEmpty && orderBy.isEmpty then [] else [sp]) ++ f.toks
      | none => []))

def OrderByExpr.toks (fns : FloatFns) : OrderByExpr → List Tok
  | .mk e _ asc => e.toks fns ++ (match asc with
      | some true => [sp, kT .ASC]
      | some false => [sp, kT .DESC]
      | none => [])

def OrderByExpr.toksL (fns : FloatFns) : List OrderByExpr → List Tok
  | [] => []
  | e :: es => e.toks fns ++ (sepT es ++ OrderByExpr.toksL fns es)

def QueryStmt.toks (fns : FloatFns) : QueryStmt → List Tok
  | .mk _ ctes body orderBy limit =>
    (if ctes.isEmpty then [] else kT .WITH :: sp :: (CTE.toksL fns ctes ++ [sp])) ++
    (body.toks fns ++
    ((if orderBy.isEmpty then [] else sp :: kT .ORDER :: sp :: kT .BY :: sp :: OrderByExpr.toksL fns orderBy) ++
    (match limit with
      | some l => sp :: l.toks
      | none => [])))

def CTE.toks (fns : FloatFns) : CTE → List Tok
  | .mk alias q _ => identTok alias.value :: sp :: kT .AS :: sp :: lpar :: (q.toks fns ++ [rpar])

def CTE.toksL (fns : FloatFns) : List CTE → List Tok
  | [] => []
  | e :: es => e.toks fns ++ (sepT es ++ CTE.toksL fns es)

def SetExpr.toks (fns : FloatFns) : SetExpr → List Tok
  | .selectExpr s => s.toks fns
  | .select s => s.toks fns
  | .query _ _ q => lpar :: (q.toks fns ++ [rpar])
  | .setOp op all l r =>
    l.toks fns ++ sp :: kT op.kw :: sp :: ((if all then [kT .ALL, sp] else []) ++ r.toks fns)

def SQLSelect.toks (fns : FloatFns) : SQLSelect → List Tok
  | .mk distinct projection from_ where_ groupBy having _ =>
    kT .SELECT :: sp :: ((if distinct then [kT .DISTINCT, sp] else []) ++
    (SelectItem.toksL fns projection ++
    ((if from_.isEmpty then [] else sp :: kT .FROM :: sp :: TableRef.toksL fns from_) ++
    (Expr.toksO fns [sp, kT .WHERE, sp] where_ ++
    ((if groupBy.isEmpty then [] else sp :: kT .GROUP :: sp :: kT .BY :: sp :: Expr.toksL fns groupBy) ++
    Expr.toksO fns [sp, kT .HAVING, sp] having)))))

def SelectItem.toks (fns : FloatFns) : SelectItem → List Tok
  | .unnamed e => e.toks fns
  | .alias e a => e.toks fns ++ [sp, kT .AS, sp, identTok a.value]
  | .qualifiedWildcard p => p.toks ++ [dot, star]
  | .wildcard _ _ => [star]

def SelectItem.toksL (fns : FloatFns) : List SelectItem → List Tok
  | [] => []
  | e :: es => e.toks fns ++ (sepT es ++ SelectItem.toksL fns es)

def TableFactor.toks (fns : FloatFns) : TableFactor → List Tok
  | .table name alias args _ hints _ =>
    name.toks ++ ((if args.isEmpty then [] else lpar :: (Expr.toksL fns args ++ [rpar])) ++ (aliasT alias ++
    (if hints.isEmpty then [] else sp :: kT .WITH :: sp :: lpar :: (Expr.toksL fns hints ++ [rpar]))))
  | .derived lateral _ _ _ q alias =>
    (if lateral then [kT .LATERAL, sp] else []) ++ lpar :: (q.toks fns ++ rpar :: aliasT alias)

def TableRef.toks (fns : FloatFns) : TableRef → List Tok
  | .factor f => f.toks fns
  | .cross l f => l.toks fns ++ sp :: kT .CROSS :: sp :: kT .JOIN :: sp :: f.toks fns
  | .partitioned _ _ _ => []
  | .qualified l ty r spec =>
    l.toks fns ++ sp :: (ty.cond.toks ++ kT .JOIN :: sp :: (r.toks fns ++ sp :: spec.toks fns))
  | .natural l ty r => l.toks fns ++ sp :: kT .NATURAL :: sp :: (ty.cond.toks ++ kT .JOIN :: sp :: r.toks fns)

def TableRef.toksL (fns : FloatFns) : List TableRef → List Tok
  | [] => []
  | e :: es => e.toks fns ++ (sepT es ++ TableRef.toksL fns es)

def JoinSpec.toks (fns : FloatFns) : JoinSpec → List Tok
  | .namedColumns cols _ _ => kT .USING :: sp :: lpar :: (identsT cols ++ [rpar])
  | .condition e _ => kT .ON :: sp :: e.toks fns

end

def RowValueExpr.toks (fns : FloatFns) (r : RowValueExpr) : List Tok := lpar :: (Expr.toksL fns r.values ++ [rpar])

def rowsT (fns : FloatFns) : List RowValueExpr → List Tok
  | [] => []
  | e :: es => e.toks fns ++ (sepT es ++ rowsT fns es)

def InsertSource.toks (fns : FloatFns) : InsertSource → List Tok
  | .subQuery q => q.toks fns
  | .constructor _ rows => kT .VALUES :: sp :: rowsT fns rows

def Assignment.toks (fns : FloatFns) (a : Assignment) : List Tok :=
  identTok a.id.value :: sp :: eqT :: sp :: a.value.toks fns

def assignmentsT (fns : FloatFns) : List Assignment → List Tok
  | [] => []
  | e :: es => e.toks fns ++ (sepT es ++ assignmentsT fns es)

/-- Column names in parentheses. -/
def colsT (cols : List Ident) : List Tok := lpar :: (identsT cols ++ [rpar])

def TableConstraintSpec.toks (fns : FloatFns) : TableConstraintSpec → List Tok
  | .unique isPrimary _ _ _ cols => (if isPrimary then [kT .PRIMARY, sp, kT .KEY] else [kT .UNIQUE]) ++ colsT cols
  | .referential _ cols key =>
    kT .FOREIGN :: sp :: kT .KEY :: (colsT cols ++ sp :: kT .REFERENCES :: sp :: identTok key.tableName.value ::
      colsT key.columns)
  | .check _ _ e => kT .CHECK :: lpar :: (e.toks fns ++ [rpar])

def constraintNameT : Option Ident → List Tok
  | some n => [kT .CONSTRAINT, sp, identTok n.value, sp]
  | none => []

def TableConstraint.toks (fns : FloatFns) (t : TableConstraint) : List Tok :=
  constraintNameT t.name ++ t.spec.toks fns

def ColumnSpec.toks (fns : FloatFns) : ColumnSpec → List Tok
  | .notNull _ _ => [kT .NOT, sp, kT .NULL]
  | .unique isPrimary _ _ _ => if isPrimary then [kT .PRIMARY, sp, kT .KEY] else [kT .UNIQUE]
  | .references _ _ name cols => kT .REFERENCES :: sp :: (name.toks ++ colsT cols)
  | .check e _ _ => kT .CHECK :: lpar :: (e.toks fns ++ [rpar])

def columnConstraintsT (fns : FloatFns) : List ColumnConstraint → List Tok
  | [] => []
  | c :: cs => sp :: (constraintNameT c.name ++ (c.spec.toks fns ++ columnConstraintsT fns cs))

def decorationsT : List AutoIncrement → List Tok
  | [] => []
  | _ :: ds => sp :: kT .AUTO_INCREMENT :: decorationsT ds

def ColumnDef.toks (fns : FloatFns) (c : ColumnDef) : List Tok :=
  identTok c.name.value :: sp :: (c.dataType.toks ++ (Expr.toksO fns [sp, kT .DEFAULT, sp] c.default_ ++
    (decorationsT c.decorations ++ columnConstraintsT fns c.constraints)))

def TableElement.toks (fns : FloatFns) : TableElement → List Tok
  | .constraint c => c.toks fns
  | .column c => c.toks fns

def elementsT (fns : FloatFns) : List TableElement → List Tok
  | [] => []
  | e :: es => e.toks fns ++ (sepT es ++ elementsT fns es)

def TableOption.toks : TableOption → List Tok
  | .engine _ equal name => kT .ENGINE :: sp :: ((if equal then [eqT, sp] else []) ++ [identTok name.value])
  | .charset isDefault _ _ equal name =>
    (if isDefault then [kT .DEFAULT, sp] else []) ++ kT .CHARSET :: sp :: ((if equal then [eqT, sp] else []) ++
      [identTok name.value])

def optionsT : List TableOption → List Tok
  | [] => []
  | e :: es => e.toks ++ (sepT es ++ optionsT es)

def AlterColumnAction.toks (fns : FloatFns) : AlterColumnAction → List Tok
  | .setDefault _ e => kT .SET :: sp :: kT .DEFAULT :: sp :: e.toks fns
  | .dropDefault _ _ => [kT .DROP, sp, kT .DEFAULT]
  | .pgAlterDataType _ ty => kT .TYPE :: sp :: ty.toks
  | .pgSetNotNull _ _ => [kT .SET, sp, kT .NOT, sp, kT .NULL]
  | .pgDropNotNull _ _ => [kT .DROP, sp, kT .NOT, sp, kT .NULL]

def cascadeT (b : Bool) : List Tok := if b then [sp, kT .CASCADE] else []

def AlterTableAction.toks (fns : FloatFns) : AlterTableAction → List Tok
  | .addColumn _ c => kT .ADD :: sp :: kT .COLUMN :: sp :: c.toks fns
  | .alterColumn name _ action => kT .ALTER :: sp :: kT .COLUMN :: sp :: identTok name.value :: sp :: action.toks fns
  | .removeColumn name cascade _ _ => kT .DROP :: sp :: kT .COLUMN :: sp :: identTok name.value :: cascadeT cascade
  | .addConstraint _ c => kT .ADD :: sp :: c.toks fns
  | .dropConstraint name _ cascade _ =>
    kT .DROP :: sp :: kT .CONSTRAINT :: sp :: identTok name.value :: cascadeT cascade

def Stmt.toks (fns : FloatFns) : Stmt → List Tok
  | .query q => q.toks fns
  | .insert _ name cols source assigns =>
    kT .INSERT :: sp :: kT .INTO :: sp :: (name.toks ++ sp :: ((if cols.isEmpty then [] else colsT cols ++ [sp]) ++
      (source.toks fns ++ (if assigns.isEmpty then []
        else sp :: kT .ON :: sp :: kT .DUPLICATE :: sp :: kT .KEY :: sp :: kT .UPDATE :: sp :: assignmentsT fns assigns))))
  | .copy _ _ _ _ => []
  | .update _ name assigns selection =>
    kT .UPDATE :: sp :: (name.toks ++ sp :: kT .SET :: sp :: (assignmentsT fns assigns ++
      Expr.toksO fns [sp, kT .WHERE, sp] selection))
  | .delete _ name selection =>
    kT .DELETE :: sp :: kT .FROM :: sp :: (name.toks ++ Expr.toksO fns [sp, kT .WHERE, sp] selection)
  | .createView _ name q materialized =>
    kT .CREATE :: ((if materialized then [sp, kT .MATERIALIZED] else []) ++ sp :: kT .VIEW :: sp ::
      (name.toks ++ sp :: kT .AS :: sp :: q.toks fns))
  | .createTable _ name elements notExists options =>
    kT .CREATE :: sp :: kT .TABLE :: sp :: ((if notExists then [kT .IF, sp, kT .NOT, sp, kT .EXISTS, sp] else []) ++
      (name.toks ++ sp :: lpar :: (elementsT fns elements ++ rpar :: optionsT options)))
  | .alterTable _ name action => kT .ALTER :: sp :: kT .TABLE :: sp :: (name.toks ++ sp :: action.toks fns)
  | .dropTable names cascade _ ifExists _ =>
    kT .DROP :: sp :: kT .TABLE :: sp :: ((if ifExists then [kT .IF, sp, kT .EXISTS, sp] else []) ++
      (namesT names ++ cascadeT cascade))
  | .createIndex _ name isUnique indexName methodName cols _ selection =>
    kT .CREATE :: sp :: ((if isUnique then [kT .UNIQUE, sp] else []) ++ kT .INDEX :: ((match indexName with
      | some i => [sp, identTok i.value]
      | none => []) ++ sp :: kT .ON :: sp :: (name.toks ++ ((match methodName with
      | some i => [sp, kT .USING, sp, identTok i.value]
      | none => []) ++ sp :: (colsT cols ++ Expr.toksO fns [sp, kT .WHERE, sp] selection)))))
  | .dropIndex _ names => kT .DROP :: sp :: kT .INDEX :: sp :: identsT names
  | .explain s _ => kT .EXPLAIN :: sp :: s.toks fns
where
  namesT : List ObjectName → List Tok
    | [] => []
    | e :: es => e.toks ++ (sepT es ++ namesT es)

end Verif
