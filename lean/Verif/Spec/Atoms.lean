import Verif.Spec.Grammar
/-
The names and literals of a tree, in the order in which they are written in SQL, and what it means that a sequence of
tokens has them in this order.
-/
namespace Verif.Spec
open Verif

/-- A name or a literal, with its place where the tree has one. -/
inductive Atom where
  | name (i : Ident)
  | single (f t : Pos) (s : Str)
  | national (f t : Pos) (s : Str)
  | integer (f t : Pos) (v : Int)
  | float (f t : Pos) (v : F64)
  /-- a number after LIMIT -/
  | limit (f t : Pos) (v : Int)
  /-- a number for which the tree has no place, or a wrong one: sizes of types, bounds of frames, OFFSET -/
  | count (v : Int)
  /-- a text that the parser never reads: a date or time, a value of COPY -/
  | raw (s : Str)

/-- The token that the atom is read from. -/
def Atom.of (fns : FloatFns) : Atom → Token → Prop
  | .name i, t => ∃ w, t = ⟨.word w, i.from_, i.to_⟩ ∧ w.string = i.value
  | .single f e s, t => t = ⟨.single s, f, e⟩
  | .national f e s, t => t = ⟨.national s, f, e⟩
  | .integer f e v, t => ∃ s, t = ⟨.number s, f, e⟩ ∧
      ((∃ n : Nat, Denotes s n ∧ v = (min n (2 ^ 63 - 1) : Nat)) ∨ ((∀ n, ¬ Denotes s n) ∧ v = 0))
  | .float f e v, t => ∃ s, t = ⟨.number s, f, e⟩ ∧ fns.parse s = some v
  | .limit f e v, t => ∃ (s : Str) (n : Nat), t = ⟨.number s, f, e⟩ ∧ Denotes s n ∧ v = n ∧ n < 2 ^ 63
  | .count v, t => ∃ (s : Str) (n : Nat), t.tok = .number s ∧ Denotes s n ∧ v = n ∧ n < 2 ^ 63
  | .raw _, _ => False

/-- A string or a number. -/
def isLiteral (t : Token) : Bool :=
  match t.tok with
  | .single _ => true
  | .national _ => true
  | .number _ => true
  | _ => false

/-- The tokens are those of the atoms, in this order, and others between them; a literal is between them only if `lossy`. -/
inductive Covers (fns : FloatFns) (lossy : Bool) : List Atom → List Token → Prop
  | nil : Covers fns lossy [] []
  | skip (t : Token) {as : List Atom} {ts : List Token} : (lossy = true ∨ isLiteral t = false) →
      Covers fns lossy as ts → Covers fns lossy as (t :: ts)
  | take (a : Atom) (t : Token) {as : List Atom} {ts : List Token} : a.of fns t → Covers fns lossy as ts →
      Covers fns lossy (a :: as) (t :: ts)

/-! ### The atoms of a tree -/

def names (is : List Ident) : List Atom := is.map .name

def nameO : Option Ident → List Atom
  | none => []
  | some i => [.name i]

def sizeO : Option Nat → List Atom
  | none => []
  | some n => [.count n]

def _root_.Verif.DataType.atoms : DataType → List Atom
  | .char size _ _ _ => sizeO size
  | .varchar size _ _ _ => sizeO size
  | .decimal precision scale _ _ _ _ => sizeO precision ++ sizeO scale
  | .float size _ _ _ _ _ => sizeO size
  | .clob size _ _ => [.count size]
  | .binary size _ _ => [.count size]
  | .varbinary size _ _ => [.count size]
  | .blob size _ _ => [.count size]
  | .array ty _ => ty.atoms
  | .custom ty => names ty.idents
  | _ => []

def _root_.Verif.FrameBound.atoms : FrameBound → List Atom
  | .preceding n _ _ => [.count n]
  | .following n _ _ => [.count n]
  | _ => []

def frameAtoms : Option WindowFrame → List Atom
  | none => []
  | some ⟨_, s, none⟩ => s.atoms
  | some ⟨_, s, some e⟩ => s.atoms ++ e.atoms

def limitAtoms : Option LimitExpr → List Atom
  | none => []
  | some ⟨count, _, _, offset⟩ =>
    (match count with
      | none => []
      | some n => [.limit n.from_ n.to_ n.long]) ++
    (match offset with
      | none => []
      | some n => [.count n.long])

/-- The atoms of conditions and results, by turns. -/
def byTurns : List (List Atom) → List (List Atom) → List Atom
  | a :: as, b :: bs => a ++ b ++ byTurns as bs
  | _, _ => []

mutual

def _root_.Verif.Expr.atoms : Expr → List Atom
  | .ident i => [.name i]
  | .wildcard _ => []
  | .qualifiedWildcard is => names is
  | .compoundIdent is => names is
  | .isNull x => x.atoms
  | .isNotNull x => x.atoms
  | .inList x l _ _ => x.atoms ++ (Expr.atomsL l).flatten
  | .inSubQuery x s _ _ => x.atoms ++ s.atoms
  | .between x _ low high => x.atoms ++ low.atoms ++ high.atoms
  | .binary l _ r => l.atoms ++ r.atoms
  | .cast x ty _ _ => x.atoms ++ ty.atoms
  | .nested x _ _ => x.atoms
  | .unary _ _ x => x.atoms
  | .function name args _ none _ => names name.idents ++ (Expr.atomsL args).flatten
  | .function name args _ (some over) _ => names name.idents ++ (Expr.atomsL args).flatten ++ over.atoms
  | .caseExpr _ _ operand conditions results elseResult =>
    Expr.atomsO operand ++ byTurns (Expr.atomsL conditions) (Expr.atomsL results) ++ Expr.atomsO elseResult
  | .exists_ _ s _ _ _ => s.atoms
  | .subQuery _ _ s => s.atoms
  | .long v => [.integer v.from_ v.to_ v.long]
  | .double f t v => [.float f t v]
  | .singleQuoted f t s => [.single f t s]
  | .national f t s => [.national f t s]
  | .boolean _ _ _ => []
  | .null _ _ => []
  | .timeValue _ _ _ text => [.raw text]

def _root_.Verif.Expr.atomsL : List Expr → List (List Atom)
  | [] => []
  | x :: xs => x.atoms :: Expr.atomsL xs

def _root_.Verif.Expr.atomsO : Option Expr → List Atom
  | none => []
  | some x => x.atoms

def _root_.Verif.WindowSpec.atoms : WindowSpec → List Atom
  | .mk partitionBy orderBy frame _ _ =>
    (Expr.atomsL partitionBy).flatten ++ (OrderByExpr.atomsL orderBy).flatten ++ frameAtoms frame

def _root_.Verif.OrderByExpr.atoms : OrderByExpr → List Atom
  | .mk x _ _ => x.atoms

def _root_.Verif.OrderByExpr.atomsL : List OrderByExpr → List (List Atom)
  | [] => []
  | x :: xs => x.atoms :: OrderByExpr.atomsL xs

def _root_.Verif.QueryStmt.atoms : QueryStmt → List Atom
  | .mk _ ctes body orderBy limit =>
    (CTE.atomsL ctes).flatten ++ body.atoms ++ (OrderByExpr.atomsL orderBy).flatten ++ limitAtoms limit

def _root_.Verif.CTE.atoms : CTE → List Atom
  | .mk alias s _ => .name alias :: s.atoms

def _root_.Verif.CTE.atomsL : List CTE → List (List Atom)
  | [] => []
  | x :: xs => x.atoms :: CTE.atomsL xs

def _root_.Verif.SetExpr.atoms : SetExpr → List Atom
  | .selectExpr s => s.atoms
  | .select s => s.atoms
  | .query _ _ s => s.atoms
  | .setOp _ _ l r => l.atoms ++ r.atoms

def _root_.Verif.SQLSelect.atoms : SQLSelect → List Atom
  | .mk _ projection from_ where_ groupBy having _ =>
    (SelectItem.atomsL projection).flatten ++ (TableRef.atomsL from_).flatten ++ Expr.atomsO where_ ++
      (Expr.atomsL groupBy).flatten ++ Expr.atomsO having

def _root_.Verif.SelectItem.atoms : SelectItem → List Atom
  | .unnamed x => x.atoms
  | .alias x a => x.atoms ++ [.name a]
  | .qualifiedWildcard p => names p.idents
  | .wildcard _ _ => []

def _root_.Verif.SelectItem.atomsL : List SelectItem → List (List Atom)
  | [] => []
  | x :: xs => x.atoms :: SelectItem.atomsL xs

def _root_.Verif.TableFactor.atoms : TableFactor → List Atom
  | .table name alias args _ hints _ =>
    names name.idents ++ (Expr.atomsL args).flatten ++ nameO alias ++ (Expr.atomsL hints).flatten
  | .derived _ _ _ _ s alias => s.atoms ++ nameO alias

def _root_.Verif.TableRef.atoms : TableRef → List Atom
  | .factor f => f.atoms
  | .cross r f => r.atoms ++ f.atoms
  | .partitioned f is _ => f.atoms ++ names is
  | .qualified l _ r spec => l.atoms ++ r.atoms ++ spec.atoms
  | .natural l _ r => l.atoms ++ r.atoms

def _root_.Verif.TableRef.atomsL : List TableRef → List (List Atom)
  | [] => []
  | x :: xs => x.atoms :: TableRef.atomsL xs

def _root_.Verif.JoinSpec.atoms : JoinSpec → List Atom
  | .namedColumns is _ _ => names is
  | .condition x _ => x.atoms

end

/-! Statements.  The default value and the constraints of a column can be written in either order, which the tree does
not keep; so a statement has a list of arrangements of its atoms. -/

/-- One of the arrangements of each part, one after the other. -/
def arrange : List (List (List Atom)) → List (List Atom)
  | [] => [[]]
  | p :: ps => p.flatMap fun a => (arrange ps).map (a ++ ·)

def _root_.Verif.Assignment.atoms (a : Assignment) : List Atom := .name a.id :: a.value.atoms

def _root_.Verif.InsertSource.atoms : InsertSource → List Atom
  | .subQuery s => s.atoms
  | .constructor _ rows => rows.flatMap fun r => (Expr.atomsL r.values).flatten

def _root_.Verif.TableConstraintSpec.atoms : TableConstraintSpec → List Atom
  | .unique _ _ _ _ is => names is
  | .referential _ is key => names is ++ .name key.tableName :: names key.columns
  | .check _ _ x => x.atoms

def _root_.Verif.TableConstraint.atoms (c : TableConstraint) : List Atom := nameO c.name ++ c.spec.atoms

def _root_.Verif.ColumnSpec.atoms : ColumnSpec → List Atom
  | .notNull _ _ => []
  | .unique _ _ _ _ => []
  | .references _ _ name is => names name.idents ++ names is
  | .check x _ _ => x.atoms

def _root_.Verif.ColumnConstraint.atoms (c : ColumnConstraint) : List Atom := nameO c.name ++ c.spec.atoms

def _root_.Verif.ColumnDef.arrangements (c : ColumnDef) : List (List Atom) :=
  [.name c.name :: c.dataType.atoms ++ (Expr.atomsO c.default_ ++ c.constraints.flatMap ColumnConstraint.atoms),
   .name c.name :: c.dataType.atoms ++ (c.constraints.flatMap ColumnConstraint.atoms ++ Expr.atomsO c.default_)]

def _root_.Verif.TableElement.arrangements : TableElement → List (List Atom)
  | .constraint c => [c.atoms]
  | .column c => c.arrangements

def _root_.Verif.TableOption.atoms : TableOption → List Atom
  | .engine _ _ name => [.name name]
  | .charset _ _ _ _ name => [.name name]

def _root_.Verif.AlterColumnAction.atoms : AlterColumnAction → List Atom
  | .setDefault _ x => x.atoms
  | .pgAlterDataType _ ty => ty.atoms
  | _ => []

def _root_.Verif.AlterTableAction.arrangements : AlterTableAction → List (List Atom)
  | .addColumn _ c => c.arrangements
  | .alterColumn name _ action => [.name name :: action.atoms]
  | .removeColumn name _ _ _ => [[.name name]]
  | .addConstraint _ c => [c.atoms]
  | .dropConstraint name _ _ _ => [[.name name]]

def _root_.Verif.Stmt.arrangements : Stmt → List (List Atom)
  | .query s => [s.atoms]
  | .insert _ name is source assigns => [names name.idents ++ names is ++ source.atoms ++ assigns.flatMap Assignment.atoms]
  | .update _ name assigns cond => [names name.idents ++ assigns.flatMap Assignment.atoms ++ Expr.atomsO cond]
  | .delete _ name cond => [names name.idents ++ Expr.atomsO cond]
  | .createView _ name s _ => [names name.idents ++ s.atoms]
  | .createTable _ name elements _ options =>
    (arrange (elements.map TableElement.arrangements)).map
      (names name.idents ++ · ++ options.flatMap TableOption.atoms)
  | .alterTable _ name action => action.arrangements.map (names name.idents ++ ·)
  | .dropTable ns _ _ _ _ => [ns.flatMap fun n => names n.idents]
  | .createIndex _ name _ indexName methodName is _ cond =>
    [nameO indexName ++ names name.idents ++ nameO methodName ++ names is ++ Expr.atomsO cond]
  | .dropIndex _ is => [names is]
  | .explain s _ => s.arrangements
  | .copy _ name is values => [names name.idents ++ names is ++ values.filterMap (·.map .raw)]

/-- The arrangements of a list of statements. -/
def scriptArrangements (ss : List Stmt) : List (List Atom) := arrange (ss.map Stmt.arrangements)

/-! ### Statements with column definitions, in which a second DEFAULT or group of constraints replaces the first -/

def _root_.Verif.TableElement.isColumn : TableElement → Bool
  | .column _ => true
  | .constraint _ => false

def _root_.Verif.AlterTableAction.hasColumns : AlterTableAction → Bool
  | .addColumn _ _ => true
  | _ => false

def _root_.Verif.Stmt.hasColumns : Stmt → Bool
  | .createTable _ _ elements _ _ => elements.any TableElement.isColumn
  | .alterTable _ _ action => action.hasColumns
  | .explain s _ => s.hasColumns
  | _ => false

/-! ### What the atoms and tokens show -/

/-- The place of an atom. -/
def Atom.place : Atom → Option (Pos × Pos)
  | .name i => some (i.from_, i.to_)
  | .single f t _ => some (f, t)
  | .national f t _ => some (f, t)
  | .integer f t _ => some (f, t)
  | .float f t _ => some (f, t)
  | .limit f t _ => some (f, t)
  | .count _ => none
  | .raw _ => none

/-- The text of a string literal in the tree. -/
def Atom.text : Atom → Option Str
  | .single _ _ s => some s
  | .national _ _ s => some s
  | _ => none

/-- The text of a string token. -/
def stringOf (t : Token) : Option Str :=
  match t.tok with
  | .single s => some s
  | .national s => some s
  | _ => none

/-- The text of a name in the tree. -/
def Atom.named : Atom → Option Str
  | .name i => some i.value
  | _ => none

/-- The text of a word. -/
def wordOf (t : Token) : Option Str :=
  match t.tok with
  | .word w => some w.string
  | _ => none

end Verif.Spec
