import Verif.Spec.Erase
import Verif.Model.Kw
/-
Renaming the identifiers of a tree and replacing the texts of its string literals, up to positions:
`rename ρ` applies `ρ.ident` to the text of every identifier, `ρ.text` to the text of every string literal,
and replaces every position by zero.
-/
namespace Verif

/-- What happens to the text of an identifier and to the text of a string literal. -/
structure Renaming where
  ident : Str → Str
  text : Str → Str

def Ident.rename (ρ : Renaming) (i : Ident) : Ident := ⟨ρ.ident i.value, Pos.zero, Pos.zero⟩

def ObjectName.rename (ρ : Renaming) (o : ObjectName) : ObjectName := ⟨o.idents.map (Ident.rename ρ)⟩

def DataType.rename (ρ : Renaming) : DataType → DataType
  | .char size _ _ _ => .char size Pos.zero Pos.zero Pos.zero
  | .varchar size _ _ _ => .varchar size Pos.zero Pos.zero Pos.zero
  | .uuid _ _ => .uuid Pos.zero Pos.zero
  | .clob size _ _ => .clob size Pos.zero Pos.zero
  | .binary size _ _ => .binary size Pos.zero Pos.zero
  | .varbinary size _ _ => .varbinary size Pos.zero Pos.zero
  | .blob size _ _ => .blob size Pos.zero Pos.zero
  | .decimal precision scale _ _ isUnsigned _ => .decimal precision scale Pos.zero Pos.zero isUnsigned Pos.zero
  | .float size _ _ _ isUnsigned _ => .float size Pos.zero Pos.zero Pos.zero isUnsigned Pos.zero
  | .smallInt _ _ isUnsigned _ => .smallInt Pos.zero Pos.zero isUnsigned Pos.zero
  | .int _ _ isUnsigned _ => .int Pos.zero Pos.zero isUnsigned Pos.zero
  | .bigInt _ _ isUnsigned _ => .bigInt Pos.zero Pos.zero isUnsigned Pos.zero
  | .real _ _ isUnsigned _ => .real Pos.zero Pos.zero isUnsigned Pos.zero
  | .double _ _ => .double Pos.zero Pos.zero
  | .boolean _ _ => .boolean Pos.zero Pos.zero
  | .date _ _ => .date Pos.zero Pos.zero
  | .time _ _ => .time Pos.zero Pos.zero
  | .timestamp withTimeZone _ _ => .timestamp withTimeZone Pos.zero Pos.zero
  | .regclass _ _ => .regclass Pos.zero Pos.zero
  | .text _ _ => .text Pos.zero Pos.zero
  | .bytea _ _ => .bytea Pos.zero Pos.zero
  | .array ty _ => .array (ty.rename ρ) Pos.zero
  | .custom ty => .custom (ty.rename ρ)

mutual

def Expr.rename (ρ : Renaming) : Expr → Expr
  | .ident i => .ident (i.rename ρ)
  | .wildcard _ => .wildcard Pos.zero
  | .qualifiedWildcard is => .qualifiedWildcard (is.map (Ident.rename ρ))
  | .compoundIdent is => .compoundIdent (is.map (Ident.rename ρ))
  | .isNull x => .isNull (x.rename ρ)
  | .isNotNull x => .isNotNull (x.rename ρ)
  | .inList e l neg _ => .inList (e.rename ρ) (Expr.renames ρ l) neg Pos.zero
  | .inSubQuery e q neg _ => .inSubQuery (e.rename ρ) (q.rename ρ) neg Pos.zero
  | .between e neg low high => .between (e.rename ρ) neg (low.rename ρ) (high.rename ρ)
  | .binary l op r => .binary (l.rename ρ) op.erase (r.rename ρ)
  | .cast e ty _ _ => .cast (e.rename ρ) (ty.rename ρ) Pos.zero Pos.zero
  | .nested e _ _ => .nested (e.rename ρ) Pos.zero Pos.zero
  | .unary _ op e => .unary Pos.zero op.erase (e.rename ρ)
  | .function name args _ over _ =>
    .function (name.rename ρ) (Expr.renames ρ args) Pos.zero (WindowSpec.renameOpt ρ over) Pos.zero
  | .caseExpr _ _ operand conds results else_ =>
    .caseExpr Pos.zero Pos.zero (Expr.renameOpt ρ operand) (Expr.renames ρ conds) (Expr.renames ρ results)
      (Expr.renameOpt ρ else_)
  | .exists_ neg q _ _ _ => .exists_ neg (q.rename ρ) Pos.zero Pos.zero Pos.zero
  | .subQuery _ _ q => .subQuery Pos.zero Pos.zero (q.rename ρ)
  | .long v => .long v.erase
  | .double _ _ v => .double Pos.zero Pos.zero v
  | .singleQuoted _ _ s => .singleQuoted Pos.zero Pos.zero (ρ.text s)
  | .national _ _ s => .national Pos.zero Pos.zero (ρ.text s)
  | .boolean _ _ b => .boolean Pos.zero Pos.zero b
  | .null _ _ => .null Pos.zero Pos.zero
  | .timeValue kind _ _ text => .timeValue kind Pos.zero Pos.zero text

def Expr.renameOpt (ρ : Renaming) : Option Expr → Option Expr
  | none => none
  | some e => some (e.rename ρ)

def Expr.renames (ρ : Renaming) : List Expr → List Expr
  | [] => []
  | e :: es => (e.rename ρ) :: Expr.renames ρ es

def WindowSpec.rename (ρ : Renaming) : WindowSpec → WindowSpec
  | .mk partitionBy orderBy frame _ _ =>
    .mk (Expr.renames ρ partitionBy) (OrderByExpr.renames ρ orderBy) (frame.map WindowFrame.erase) Pos.zero Pos.zero

def WindowSpec.renameOpt (ρ : Renaming) : Option WindowSpec → Option WindowSpec
  | none => none
  | some w => some (w.rename ρ)

def OrderByExpr.rename (ρ : Renaming) : OrderByExpr → OrderByExpr
  | .mk e _ asc => .mk (e.rename ρ) Pos.zero asc

def OrderByExpr.renames (ρ : Renaming) : List OrderByExpr → List OrderByExpr
  | [] => []
  | e :: es => (e.rename ρ) :: OrderByExpr.renames ρ es

def QueryStmt.rename (ρ : Renaming) : QueryStmt → QueryStmt
  | .mk _ ctes body orderBy limit =>
    .mk Pos.zero (CTE.renames ρ ctes) (body.rename ρ) (OrderByExpr.renames ρ orderBy) (limit.map LimitExpr.erase)

def CTE.rename (ρ : Renaming) : CTE → CTE
  | .mk alias q _ => .mk (alias.rename ρ) (q.rename ρ) Pos.zero

def CTE.renames (ρ : Renaming) : List CTE → List CTE
  | [] => []
  | e :: es => (e.rename ρ) :: CTE.renames ρ es

def SetExpr.rename (ρ : Renaming) : SetExpr → SetExpr
  | .selectExpr s => .selectExpr (s.rename ρ)
  | .select s => .select (s.rename ρ)
  | .query _ _ q => .query Pos.zero Pos.zero (q.rename ρ)
  | .setOp op all l r => .setOp op.erase all (l.rename ρ) (r.rename ρ)

def SQLSelect.rename (ρ : Renaming) : SQLSelect → SQLSelect
  | .mk distinct projection from_ where_ groupBy having _ =>
    .mk distinct (SelectItem.renames ρ projection) (TableRef.renames ρ from_) (Expr.renameOpt ρ where_)
      (Expr.renames ρ groupBy) (Expr.renameOpt ρ having) Pos.zero

def SelectItem.rename (ρ : Renaming) : SelectItem → SelectItem
  | .unnamed e => .unnamed (e.rename ρ)
  | .alias e a => .alias (e.rename ρ) (a.rename ρ)
  | .qualifiedWildcard p => .qualifiedWildcard (p.rename ρ)
  | .wildcard _ _ => .wildcard Pos.zero Pos.zero

def SelectItem.renames (ρ : Renaming) : List SelectItem → List SelectItem
  | [] => []
  | e :: es => (e.rename ρ) :: SelectItem.renames ρ es

def TableFactor.rename (ρ : Renaming) : TableFactor → TableFactor
  | .table name alias args _ withHints _ =>
    .table (name.rename ρ) (alias.map (Ident.rename ρ)) (Expr.renames ρ args) Pos.zero (Expr.renames ρ withHints) Pos.zero
  | .derived lateral _ _ _ q alias =>
    .derived lateral Pos.zero Pos.zero Pos.zero (q.rename ρ) (alias.map (Ident.rename ρ))

def TableRef.rename (ρ : Renaming) : TableRef → TableRef
  | .factor f => .factor (f.rename ρ)
  | .cross l f => .cross (l.rename ρ) (f.rename ρ)
  | .partitioned f cols _ => .partitioned (f.rename ρ) (cols.map (Ident.rename ρ)) Pos.zero
  | .qualified l ty r spec => .qualified (l.rename ρ) ty.erase (r.rename ρ) (spec.rename ρ)
  | .natural l ty r => .natural (l.rename ρ) ty.erase (r.rename ρ)

def TableRef.renames (ρ : Renaming) : List TableRef → List TableRef
  | [] => []
  | e :: es => (e.rename ρ) :: TableRef.renames ρ es

def JoinSpec.rename (ρ : Renaming) : JoinSpec → JoinSpec
  | .namedColumns cols _ _ => .namedColumns (cols.map (Ident.rename ρ)) Pos.zero Pos.zero
  | .condition e _ => .condition (e.rename ρ) Pos.zero

end

def RowValueExpr.rename (ρ : Renaming) (r : RowValueExpr) : RowValueExpr := ⟨Expr.renames ρ r.values, Pos.zero, Pos.zero⟩

def InsertSource.rename (ρ : Renaming) : InsertSource → InsertSource
  | .subQuery q => .subQuery (q.rename ρ)
  | .constructor _ rows => .constructor Pos.zero (rows.map (RowValueExpr.rename ρ))

def Assignment.rename (ρ : Renaming) (a : Assignment) : Assignment := ⟨(a.id.rename ρ), (a.value.rename ρ)⟩

def ReferenceKeyExpr.rename (ρ : Renaming) (r : ReferenceKeyExpr) : ReferenceKeyExpr :=
  ⟨(r.tableName.rename ρ), r.columns.map (Ident.rename ρ), Pos.zero⟩

def TableConstraintSpec.rename (ρ : Renaming) : TableConstraintSpec → TableConstraintSpec
  | .unique isPrimary _ _ _ cols => .unique isPrimary Pos.zero Pos.zero Pos.zero (cols.map (Ident.rename ρ))
  | .referential _ cols key => .referential Pos.zero (cols.map (Ident.rename ρ)) (key.rename ρ)
  | .check _ _ e => .check Pos.zero Pos.zero (e.rename ρ)

def TableConstraint.rename (ρ : Renaming) (t : TableConstraint) : TableConstraint :=
  ⟨Pos.zero, t.name.map (Ident.rename ρ), (t.spec.rename ρ)⟩

def ColumnSpec.rename (ρ : Renaming) : ColumnSpec → ColumnSpec
  | .notNull _ _ => .notNull Pos.zero Pos.zero
  | .unique isPrimaryKey _ _ _ => .unique isPrimaryKey Pos.zero Pos.zero Pos.zero
  | .references _ _ name cols => .references Pos.zero Pos.zero (name.rename ρ) (cols.map (Ident.rename ρ))
  | .check e _ _ => .check (e.rename ρ) Pos.zero Pos.zero

def ColumnConstraint.rename (ρ : Renaming) (c : ColumnConstraint) : ColumnConstraint :=
  ⟨c.name.map (Ident.rename ρ), Pos.zero, (c.spec.rename ρ)⟩

def ColumnDef.rename (ρ : Renaming) (c : ColumnDef) : ColumnDef :=
  ⟨(c.name.rename ρ), (c.dataType.rename ρ), c.default_.map (Expr.rename ρ), c.decorations.map AutoIncrement.erase,
    c.constraints.map (ColumnConstraint.rename ρ)⟩

def TableElement.rename (ρ : Renaming) : TableElement → TableElement
  | .constraint c => .constraint (c.rename ρ)
  | .column c => .column (c.rename ρ)

def TableOption.rename (ρ : Renaming) : TableOption → TableOption
  | .engine _ equal name => .engine Pos.zero equal (name.rename ρ)
  | .charset isDefault _ _ equal name => .charset isDefault Pos.zero Pos.zero equal (name.rename ρ)

def AlterColumnAction.rename (ρ : Renaming) : AlterColumnAction → AlterColumnAction
  | .setDefault _ e => .setDefault Pos.zero (e.rename ρ)
  | .dropDefault _ _ => .dropDefault Pos.zero Pos.zero
  | .pgAlterDataType _ ty => .pgAlterDataType Pos.zero (ty.rename ρ)
  | .pgSetNotNull _ _ => .pgSetNotNull Pos.zero Pos.zero
  | .pgDropNotNull _ _ => .pgDropNotNull Pos.zero Pos.zero

def AlterTableAction.rename (ρ : Renaming) : AlterTableAction → AlterTableAction
  | .addColumn _ c => .addColumn Pos.zero (c.rename ρ)
  | .alterColumn name _ action => .alterColumn (name.rename ρ) Pos.zero (action.rename ρ)
  | .removeColumn name cascade _ _ => .removeColumn (name.rename ρ) cascade Pos.zero Pos.zero
  | .addConstraint _ c => .addConstraint Pos.zero (c.rename ρ)
  | .dropConstraint name _ cascade _ => .dropConstraint (name.rename ρ) Pos.zero cascade Pos.zero

def Stmt.rename (ρ : Renaming) : Stmt → Stmt
  | .query q => .query (q.rename ρ)
  | .insert _ name cols source assignments =>
    .insert Pos.zero (name.rename ρ) (cols.map (Ident.rename ρ)) (source.rename ρ) (assignments.map (Assignment.rename ρ))
  | .copy _ name cols values => .copy Pos.zero (name.rename ρ) (cols.map (Ident.rename ρ)) values
  | .update _ name assignments selection =>
    .update Pos.zero (name.rename ρ) (assignments.map (Assignment.rename ρ)) (selection.map (Expr.rename ρ))
  | .delete _ name selection => .delete Pos.zero (name.rename ρ) (selection.map (Expr.rename ρ))
  | .createView _ name q materialized => .createView Pos.zero (name.rename ρ) (q.rename ρ) materialized
  | .createTable _ name elements notExists options =>
    .createTable Pos.zero (name.rename ρ) (elements.map (TableElement.rename ρ)) notExists
      (options.map (TableOption.rename ρ))
  | .alterTable _ name action => .alterTable Pos.zero (name.rename ρ) (action.rename ρ)
  | .dropTable names cascade _ ifExists _ =>
    .dropTable (names.map (ObjectName.rename ρ)) cascade Pos.zero ifExists Pos.zero
  | .createIndex _ name isUnique indexName methodName cols _ selection =>
    .createIndex Pos.zero (name.rename ρ) isUnique (indexName.map (Ident.rename ρ)) (methodName.map (Ident.rename ρ))
      (cols.map (Ident.rename ρ)) Pos.zero (selection.map (Expr.rename ρ))
  | .dropIndex _ names => .dropIndex Pos.zero (names.map (Ident.rename ρ))
  | .explain s _ => .explain (s.rename ρ) Pos.zero

/-! ### Token lists that correspond -/

/-- The lists have the same length and corresponding elements are related. -/
inductive Pairwise₂ (R : α → β → Prop) : List α → List β → Prop
  | nil : Pairwise₂ R [] []
  | cons {a b as bs} : R a b → Pairwise₂ R as bs → Pairwise₂ R (a :: as) (b :: bs)

/-- The renaming that changes nothing. -/
def Renaming.id : Renaming := ⟨fun s => s, fun s => s⟩

/-- The word is no keyword, in either of the two ways the parser looks for keywords: by the `Keyword` field
and by comparing the value ignoring case. -/
def SQLWord.plain (w : SQLWord) : Prop := kwOf w.keyword = none ∧ ∀ k : KW, equalFold w.value k.str = false

/-- The second token is the first one after the renaming: words that are no keywords become the renamed word,
which must not be a keyword either; string literals get the new text; keywords and all other tokens stay. -/
inductive Renaming.Tok (ρ : Renaming) : Verif.Tok → Verif.Tok → Prop
  | word {w w' : SQLWord} : w.plain → w'.plain → w'.string = ρ.ident w.string → ρ.Tok (.word w) (.word w')
  | keyword {w : SQLWord} : ρ.ident w.string = w.string → ρ.Tok (.word w) (.word w)
  | single {s : Str} : ρ.Tok (.single s) (.single (ρ.text s))
  | national {s : Str} : ρ.Tok (.national s) (.national (ρ.text s))
  | number {s : Str} : ρ.Tok (.number s) (.number s)
  | char {c : Char} : ρ.Tok (.char c) (.char c)
  | sym {k : Sym} {s : Str} : ρ.Tok (.sym k s) (.sym k s)

/-- The ASCII letters a–z become A–Z. -/
def asciiUpper (c : Char) : Char := if 'a' ≤ c ∧ c ≤ 'z' then Char.ofNat (c.toNat - 32) else c

/-- The same token, or two unquoted spellings of one keyword that differ in the case of ASCII letters. -/
inductive CaseVariant : Verif.Tok → Verif.Tok → Prop
  | same {k : Verif.Tok} : CaseVariant k k
  | keyword {k : KW} {v v' : Str} : v.map asciiUpper = k.str → v'.map asciiUpper = k.str →
      CaseVariant (.word ⟨v, none, k.str⟩) (.word ⟨v', none, k.str⟩)

/-- Identifiers that spell a keyword are put in upper case, everything else stays. -/
def Renaming.keywordCase : Renaming :=
  ⟨fun s => if (kwOf (s.map asciiUpper)).isSome then s.map asciiUpper else s, fun s => s⟩

end Verif
