import Verif.Spec.Grammar
import Verif.Spec.NodePos
/-
The nodes inside a tree.

`Child c n`: `n` has the node `c` as a field or as an element of a field.  `Within c n`: `c` is `n` or stands anywhere
below it.  For every node: the grammar rule (Verif/Spec/Grammar.lean), `Pos` and `End` (Verif/Model/NodePos.lean), and
where these are right (Verif/Spec/NodePos.lean).

Left out are the nodes that only stand for a keyword or punctuation (operators, join types, frames, set operators,
LIMIT); their tokens are given by the rule of the node above.
-/
namespace Verif.Spec
open Verif

inductive Piece where
  | ident (i : Ident)
  | expr (e : Expr)
  | dataType (t : DataType)
  | window (w : WindowSpec)
  | orderBy (o : OrderByExpr)
  | query (s : QueryStmt)
  | cte (c : CTE)
  | body (s : SetExpr)
  | select (s : SQLSelect)
  | item (i : SelectItem)
  | factor (f : TableFactor)
  | tableRef (r : TableRef)
  | join (s : JoinSpec)
  | assignment (a : Assignment)
  | row (r : RowValueExpr)
  | source (s : InsertSource)
  | constraintSpec (s : TableConstraintSpec)
  | constraint (c : TableConstraint)
  | columnSpec (s : ColumnSpec)
  | columnConstraint (c : ColumnConstraint)
  | column (c : ColumnDef)
  | element (e : TableElement)
  | option (o : TableOption)
  | alterColumn (a : AlterColumnAction)
  | alter (a : AlterTableAction)
  | stmt (s : Stmt)

/-- The sentences for a node. -/
def Piece.lang (fns : FloatFns) (q : Quirks) : Piece → Lang
  | .ident i => word [] i
  | .expr e => e.lang fns q
  | .dataType t => t.lang
  | .window w => w.lang fns q
  | .orderBy o => o.lang fns q
  | .query s => s.lang fns q
  | .cte c => c.lang fns q
  | .body s => s.lang fns q
  | .select s => s.lang fns q
  | .item i => i.lang fns q
  | .factor f => f.lang fns q
  | .tableRef r => r.lang fns q
  | .join s => s.lang fns q
  | .assignment a => a.lang fns q
  | .row r => r.lang fns q
  | .source s => s.lang fns q
  | .constraintSpec s => s.lang fns q
  | .constraint c => c.lang fns q
  | .columnSpec s => s.lang fns q
  | .columnConstraint c => c.lang fns q
  | .column c => c.lang fns q
  | .element e => e.lang fns q
  | .option o => o.lang
  | .alterColumn a => a.lang fns q
  | .alter a => a.lang fns q
  | .stmt s => s.lang fns q

/-- One step down. -/
inductive Child : Piece → Piece → Prop
  -- expressions
  | ident : Child (.ident i) (.expr (.ident i))
  | qualifiedWildcard : i ∈ is → Child (.ident i) (.expr (.qualifiedWildcard is))
  | compoundIdent : i ∈ is → Child (.ident i) (.expr (.compoundIdent is))
  | isNull : Child (.expr x) (.expr (.isNull x))
  | isNotNull : Child (.expr x) (.expr (.isNotNull x))
  | inListExpr : Child (.expr x) (.expr (.inList x l neg rp))
  | inListList : y ∈ l → Child (.expr y) (.expr (.inList x l neg rp))
  | inSubQueryExpr : Child (.expr x) (.expr (.inSubQuery x s neg rp))
  | inSubQueryQuery : Child (.query s) (.expr (.inSubQuery x s neg rp))
  | betweenExpr : Child (.expr x) (.expr (.between x neg low high))
  | betweenLow : Child (.expr low) (.expr (.between x neg low high))
  | betweenHigh : Child (.expr high) (.expr (.between x neg low high))
  | binaryLeft : Child (.expr l) (.expr (.binary l op r))
  | binaryRight : Child (.expr r) (.expr (.binary l op r))
  | castExpr : Child (.expr x) (.expr (.cast x ty c rp))
  | castType : Child (.dataType ty) (.expr (.cast x ty c rp))
  | nested : Child (.expr x) (.expr (.nested x lp rp))
  | unary : Child (.expr x) (.expr (.unary p op x))
  | functionName : i ∈ name.idents → Child (.ident i) (.expr (.function name args rp over orp))
  | functionArgs : x ∈ args → Child (.expr x) (.expr (.function name args rp over orp))
  | functionOver : Child (.window over) (.expr (.function name args rp (some over) orp))
  | caseOperand : Child (.expr x) (.expr (.caseExpr c e (some x) conditions results elseResult))
  | caseConditions : x ∈ conditions → Child (.expr x) (.expr (.caseExpr c e operand conditions results elseResult))
  | caseResults : x ∈ results → Child (.expr x) (.expr (.caseExpr c e operand conditions results elseResult))
  | caseElse : Child (.expr x) (.expr (.caseExpr c e operand conditions results (some x)))
  | exists_ : Child (.query s) (.expr (.exists_ neg s n e rp))
  | subQuery : Child (.query s) (.expr (.subQuery rp lp s))
  | windowPartition : x ∈ partitionBy → Child (.expr x) (.window (.mk partitionBy orderBy frame p o))
  | windowOrder : y ∈ orderBy → Child (.orderBy y) (.window (.mk partitionBy orderBy frame p o))
  | orderBy : Child (.expr x) (.orderBy (.mk x p asc))
  | customType : i ∈ name.idents → Child (.ident i) (.dataType (.custom name))
  -- queries
  | queryCtes : c ∈ ctes → Child (.cte c) (.query (.mk w ctes body orderBy limit))
  | queryBody : Child (.body body) (.query (.mk w ctes body orderBy limit))
  | queryOrderBy : o ∈ orderBy → Child (.orderBy o) (.query (.mk w ctes body orderBy limit))
  | cteAlias : Child (.ident alias) (.cte (.mk alias s rp))
  | cteQuery : Child (.query s) (.cte (.mk alias s rp))
  | bodySelect : Child (.select s) (.body (.select s))
  | bodyQuery : Child (.query s) (.body (.query lp rp s))
  | setOpLeft : Child (.body l) (.body (.setOp op all l r))
  | setOpRight : Child (.body r) (.body (.setOp op all l r))
  | projection : i ∈ projection → Child (.item i) (.select (.mk distinct projection from_ where_ groupBy having p))
  | selectFrom : r ∈ from_ → Child (.tableRef r) (.select (.mk distinct projection from_ where_ groupBy having p))
  | selectWhere : Child (.expr x) (.select (.mk distinct projection from_ (some x) groupBy having p))
  | groupBy : x ∈ groupBy → Child (.expr x) (.select (.mk distinct projection from_ where_ groupBy having p))
  | having : Child (.expr x) (.select (.mk distinct projection from_ where_ groupBy (some x) p))
  | itemUnnamed : Child (.expr x) (.item (.unnamed x))
  | itemExpr : Child (.expr x) (.item (.alias x a))
  | itemAlias : Child (.ident a) (.item (.alias x a))
  | itemWildcard : i ∈ name.idents → Child (.ident i) (.item (.qualifiedWildcard name))
  | tableName : i ∈ name.idents → Child (.ident i) (.factor (.table name alias args arp hints hrp))
  | tableAlias : Child (.ident a) (.factor (.table name (some a) args arp hints hrp))
  | tableArgs : x ∈ args → Child (.expr x) (.factor (.table name alias args arp hints hrp))
  | tableHints : x ∈ hints → Child (.expr x) (.factor (.table name alias args arp hints hrp))
  | derivedQuery : Child (.query s) (.factor (.derived lateral p lp rp s alias))
  | derivedAlias : Child (.ident a) (.factor (.derived lateral p lp rp s (some a)))
  | factor : Child (.factor f) (.tableRef (.factor f))
  | crossLeft : Child (.tableRef r) (.tableRef (.cross r f))
  | crossRight : Child (.factor f) (.tableRef (.cross r f))
  | qualifiedLeft : Child (.tableRef l) (.tableRef (.qualified l ty r spec))
  | qualifiedRight : Child (.tableRef r) (.tableRef (.qualified l ty r spec))
  | qualifiedSpec : Child (.join spec) (.tableRef (.qualified l ty r spec))
  | naturalLeft : Child (.tableRef l) (.tableRef (.natural l ty r))
  | naturalRight : Child (.tableRef r) (.tableRef (.natural l ty r))
  | joinColumns : i ∈ is → Child (.ident i) (.join (.namedColumns is u rp))
  | joinCondition : Child (.expr x) (.join (.condition x p))
  -- statements
  | assignmentId : Child (.ident a.id) (.assignment a)
  | assignmentValue : Child (.expr a.value) (.assignment a)
  | row : x ∈ r.values → Child (.expr x) (.row r)
  | sourceQuery : Child (.query s) (.source (.subQuery s))
  | sourceRows : r ∈ rows → Child (.row r) (.source (.constructor v rows))
  | specUnique : i ∈ is → Child (.ident i) (.constraintSpec (.unique isPrimary p u rp is))
  | specColumns : i ∈ is → Child (.ident i) (.constraintSpec (.referential p is key))
  | specTable : Child (.ident key.tableName) (.constraintSpec (.referential p is key))
  | specReferenced : i ∈ key.columns → Child (.ident i) (.constraintSpec (.referential p is key))
  | specCheck : Child (.expr x) (.constraintSpec (.check p rp x))
  | constraintName : c.name = some i → Child (.ident i) (.constraint c)
  | constraintSpec : Child (.constraintSpec c.spec) (.constraint c)
  | columnReferences : i ∈ name.idents → Child (.ident i) (.columnSpec (.references p rp name is))
  | columnReferenced : i ∈ is → Child (.ident i) (.columnSpec (.references p rp name is))
  | columnCheck : Child (.expr x) (.columnSpec (.check x p rp))
  | columnConstraintName : c.name = some i → Child (.ident i) (.columnConstraint c)
  | columnConstraintSpec : Child (.columnSpec c.spec) (.columnConstraint c)
  | columnName : Child (.ident c.name) (.column c)
  | columnType : Child (.dataType c.dataType) (.column c)
  | columnDefault : c.default_ = some x → Child (.expr x) (.column c)
  | columnConstraints : k ∈ c.constraints → Child (.columnConstraint k) (.column c)
  | elementConstraint : Child (.constraint c) (.element (.constraint c))
  | elementColumn : Child (.column c) (.element (.column c))
  | engine : Child (.ident name) (.option (.engine p equal name))
  | charset : Child (.ident name) (.option (.charset isDefault d c equal name))
  | setDefault : Child (.expr x) (.alterColumn (.setDefault p x))
  | alterType : Child (.dataType ty) (.alterColumn (.pgAlterDataType p ty))
  | addColumn : Child (.column c) (.alter (.addColumn p c))
  | alterColumnName : Child (.ident name) (.alter (.alterColumn name p action))
  | alterColumnAction : Child (.alterColumn action) (.alter (.alterColumn name p action))
  | removeColumn : Child (.ident name) (.alter (.removeColumn name cascade cp p))
  | addConstraint : Child (.constraint c) (.alter (.addConstraint p c))
  | dropConstraint : Child (.ident name) (.alter (.dropConstraint name p cascade cp))
  | stmtQuery : Child (.query s) (.stmt (.query s))
  | insertName : i ∈ name.idents → Child (.ident i) (.stmt (.insert p name is source assigns))
  | insertColumns : i ∈ is → Child (.ident i) (.stmt (.insert p name is source assigns))
  | insertSource : Child (.source source) (.stmt (.insert p name is source assigns))
  | insertAssigns : a ∈ assigns → Child (.assignment a) (.stmt (.insert p name is source assigns))
  | updateName : i ∈ name.idents → Child (.ident i) (.stmt (.update p name assigns where_))
  | updateAssigns : a ∈ assigns → Child (.assignment a) (.stmt (.update p name assigns where_))
  | updateWhere : Child (.expr x) (.stmt (.update p name assigns (some x)))
  | deleteName : i ∈ name.idents → Child (.ident i) (.stmt (.delete p name where_))
  | deleteWhere : Child (.expr x) (.stmt (.delete p name (some x)))
  | viewName : i ∈ name.idents → Child (.ident i) (.stmt (.createView p name s m))
  | viewQuery : Child (.query s) (.stmt (.createView p name s m))
  | createTableName : i ∈ name.idents → Child (.ident i) (.stmt (.createTable p name elements notExists options))
  | elements : e ∈ elements → Child (.element e) (.stmt (.createTable p name elements notExists options))
  | options : o ∈ options → Child (.option o) (.stmt (.createTable p name elements notExists options))
  | alterTableName : i ∈ name.idents → Child (.ident i) (.stmt (.alterTable p name action))
  | alterAction : Child (.alter action) (.stmt (.alterTable p name action))
  | dropTable : name ∈ names → i ∈ name.idents → Child (.ident i) (.stmt (.dropTable names cascade cp ifExists p))
  | indexTable : i ∈ name.idents →
      Child (.ident i) (.stmt (.createIndex p name unique indexName methodName is rp where_))
  | indexName : Child (.ident i) (.stmt (.createIndex p name unique (some i) methodName is rp where_))
  | indexMethod : Child (.ident i) (.stmt (.createIndex p name unique indexName (some i) is rp where_))
  | indexColumns : i ∈ is → Child (.ident i) (.stmt (.createIndex p name unique indexName methodName is rp where_))
  | indexWhere : Child (.expr x) (.stmt (.createIndex p name unique indexName methodName is rp (some x)))
  | dropIndex : i ∈ is → Child (.ident i) (.stmt (.dropIndex p is))
  | explain : Child (.stmt s) (.stmt (.explain s p))

/-- Any number of steps down. -/
inductive Within : Piece → Piece → Prop
  | refl : Within n n
  | step : Child c m → Within m n → Within c n

/-! ### Where `Pos` and `End` are right -/

def Piece.pos : Piece → Option Pos
  | .ident i => some i.from_
  | .expr e => e.pos
  | .dataType t => t.pos
  | .window w => w.pos
  | .orderBy o => o.pos
  | .query s => s.pos
  | .cte c => some c.pos
  | .body s => s.pos
  | .select s => s.pos
  | .item i => i.pos
  | .factor f => f.pos
  | .tableRef r => r.pos
  | .join s => some s.pos
  | .assignment a => some a.pos
  | .row r => some r.lparen
  | .source s => s.pos
  | .constraintSpec s => some s.pos
  | .constraint c => some c.pos
  | .columnSpec s => some s.pos
  | .columnConstraint c => some c.pos
  | .column c => some c.pos
  | .element e => some e.pos
  | .option o => some o.pos
  | .alterColumn a => some a.pos
  | .alter a => some a.pos
  | .stmt s => s.pos

def Piece.end_ : Piece → Option Pos
  | .ident i => some i.to_
  | .expr e => e.end_
  | .dataType t => t.end_
  | .window w => w.end_
  | .orderBy o => o.end_
  | .query s => s.end_
  | .cte c => some c.end_
  | .body s => s.end_
  | .select s => s.end_
  | .item i => i.end_
  | .factor f => f.end_
  | .tableRef r => r.end_
  | .join s => s.end_
  | .assignment a => a.end_
  | .row r => some r.rparen
  | .source s => s.end_
  | .constraintSpec s => some s.end_
  | .constraint c => some c.end_
  | .columnSpec s => some s.end_
  | .columnConstraint c => some c.end_
  | .column c => c.end_
  | .element e => e.end_
  | .option o => some o.end_
  | .alterColumn a => a.end_
  | .alter a => a.end_
  | .stmt s => s.end_

/-- `Pos` is the beginning of the node. -/
def Piece.leftOk : Piece → Bool
  | .expr e => e.leftOk
  | .dataType t => t.leftOk
  -- the left parenthesis of a window does not count
  | .window _ => false
  | .orderBy (.mk x _ _) => x.leftOk
  | .query s => s.leftOk
  | .body s => s.leftOk
  | .item (.unnamed x) => x.leftOk
  | .item (.alias x _) => x.leftOk
  | .factor f => f.leftOk
  | .tableRef r => r.leftOk
  | .join (.namedColumns ..) => false
  | .source (.subQuery s) => s.leftOk
  | .source (.constructor ..) => false
  -- CONSTRAINT has no position here
  | .columnConstraint _ => false
  | .stmt s => s.leftOk
  | _ => true

/-- `End` is the end of the node, if it does not end with a lost token. -/
def Piece.rightOk : Piece → Bool
  | .expr e => e.rightOk
  | .dataType t => t.rightOk
  | .window _ => false
  | .orderBy o => o.rightOk
  | .query s => s.rightOk
  | .cte _ => false
  | .body s => s.rightOk
  | .select s => s.rightOk
  | .item i => i.rightOk
  | .factor f => f.rightOk
  | .tableRef r => r.rightOk
  | .join s => s.rightOk
  | .assignment a => a.value.rightOk
  | .source s => s.rightOk
  -- `End` of UNIQUE is six columns after its beginning
  | .columnSpec (.unique false ..) => false
  | .columnConstraint ⟨_, _, .unique false ..⟩ => false
  | .column _ => false
  | .element (.column _) => false
  | .alterColumn a => a.rightOk
  | .alter a => a.rightOk
  | .stmt s => s.rightOk
  | _ => true

end Verif.Spec
