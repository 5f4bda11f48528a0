import Verif.Model.Base
/-
The keywords that parser.go compares words with.
-/
namespace Verif

/-- Every keyword text that occurs in parser.go as an argument of `parseKeyword`, `parseKeywords`,
`expectKeyword`, in a `switch word.Keyword`, in `WindowFrameUnit.FromStr` (sqlast/ast.go:700-715) or in
the reserved-word tables (dialect/keywords.go:357-385).  A Go string comparison `word.Keyword ==
"SELECT"` is modelled as `kwOf word.Keyword = some .SELECT`. -/
inductive KW where
  | ADD | ALL | ALTER | AND | AS | ASC | AUTO_INCREMENT | BETWEEN
  | BIGINT | BOOLEAN | BY | BYTEA | CASCADE | CASE | CAST | CHAR
  | CHARACTER | CHARSET | CHECK | COLUMN | CONSTRAINT | CREATE | CROSS | CURRENT
  | DATE | DEFAULT | DELETE | DESC | DISTINCT | DOUBLE | DROP | DUPLICATE
  | ELSE | END | ENGINE | EXCEPT | EXISTS | EXPLAIN | FALSE | FLOAT
  | FOLLOWING | FOREIGN | FROM | FULL | GROUP | GROUPS | HAVING | IF
  | IN | INDEX | INNER | INSERT | INT | INTEGER | INTERSECT | INTO
  | IS | JOIN | KEY | LATERAL | LEFT | LIKE | LIMIT | MATERIALIZED
  | NATURAL | NOT | NULL | NUMERIC | OFFSET | ON | OR | ORDER
  | OUTER | OVER | PARTITION | PRECEDING | PRECISION | PRIMARY | RANGE | REAL
  | REFERENCES | REGCLASS | RIGHT | ROW | ROWS | SELECT | SET | SMALLINT
  | TABLE | TEXT | THEN | TIME | TIMESTAMP | TRUE | TYPE | UNBOUNDED
  | UNION | UNIQUE | UNSIGNED | UPDATE | USING | UUID | VALUES | VARCHAR
  | VARYING | VIEW | WHEN | WHERE | WITH | WITHOUT | ZONE
  deriving DecidableEq, Repr

/-- The keyword's text. -/
def KW.str : KW → Str
  | .ADD => str% "ADD"
  | .ALL => str% "ALL"
  | .ALTER => str% "ALTER"
  | .AND => str% "AND"
  | .AS => str% "AS"
  | .ASC => str% "ASC"
  | .AUTO_INCREMENT => str% "AUTO_INCREMENT"
  | .BETWEEN => str% "BETWEEN"
  | .BIGINT => str% "BIGINT"
  | .BOOLEAN => str% "BOOLEAN"
  | .BY => str% "BY"
  | .BYTEA => str% "BYTEA"
  | .CASCADE => str% "CASCADE"
  | .CASE => str% "CASE"
  | .CAST => str% "CAST"
  | .CHAR => str% "CHAR"
  | .CHARACTER => str% "CHARACTER"
  | .CHARSET => str% "CHARSET"
  | .CHECK => str% "CHECK"
  | .COLUMN => str% "COLUMN"
  | .CONSTRAINT => str% "CONSTRAINT"
  | .CREATE => str% "CREATE"
  | .CROSS => str% "CROSS"
  | .CURRENT => str% "CURRENT"
  | .DATE => str% "DATE"
  | .DEFAULT => str% "DEFAULT"
  | .DELETE => str% "DELETE"
  | .DESC => str% "DESC"
  | .DISTINCT => str% "DISTINCT"
  | .DOUBLE => str% "DOUBLE"
  | .DROP => str% "DROP"
  | .DUPLICATE => str% "DUPLICATE"
  | .ELSE => str% "ELSE"
  | .END => str% "END"
  | .ENGINE => str% "ENGINE"
  | .EXCEPT => str% "EXCEPT"
  | .EXISTS => str% "EXISTS"
  | .EXPLAIN => str% "EXPLAIN"
  | .FALSE => str% "FALSE"
  | .FLOAT => str% "FLOAT"
  | .FOLLOWING => str% "FOLLOWING"
  | .FOREIGN => str% "FOREIGN"
  | .FROM => str% "FROM"
  | .FULL => str% "FULL"
  | .GROUP => str% "GROUP"
  | .GROUPS => str% "GROUPS"
  | .HAVING => str% "HAVING"
  | .IF => str% "IF"
  | .IN => str% "IN"
  | .INDEX => str% "INDEX"
  | .INNER => str% "INNER"
  | .INSERT => str% "INSERT"
  | .INT => str% "INT"
  | .INTEGER => str% "INTEGER"
  | .INTERSECT => str% "INTERSECT"
  | .INTO => str% "INTO"
  | .IS => str% "IS"
  | .JOIN => str% "JOIN"
  | .KEY => str% "KEY"
  | .LATERAL => str% "LATERAL"
  | .LEFT => str% "LEFT"
  | .LIKE => str% "LIKE"
  | .LIMIT => str% "LIMIT"
  | .MATERIALIZED => str% "MATERIALIZED"
  | .NATURAL => str% "NATURAL"
  | .NOT => str% "NOT"
  | .NULL => str% "NULL"
  | .NUMERIC => str% "NUMERIC"
  | .OFFSET => str% "OFFSET"
  | .ON => str% "ON"
  | .OR => str% "OR"
  | .ORDER => str% "ORDER"
  | .OUTER => str% "OUTER"
  | .OVER => str% "OVER"
  | .PARTITION => str% "PARTITION"
  | .PRECEDING => str% "PRECEDING"
  | .PRECISION => str% "PRECISION"
  | .PRIMARY => str% "PRIMARY"
  | .RANGE => str% "RANGE"
  | .REAL => str% "REAL"
  | .REFERENCES => str% "REFERENCES"
  | .REGCLASS => str% "REGCLASS"
  | .RIGHT => str% "RIGHT"
  | .ROW => str% "ROW"
  | .ROWS => str% "ROWS"
  | .SELECT => str% "SELECT"
  | .SET => str% "SET"
  | .SMALLINT => str% "SMALLINT"
  | .TABLE => str% "TABLE"
  | .TEXT => str% "TEXT"
  | .THEN => str% "THEN"
  | .TIME => str% "TIME"
  | .TIMESTAMP => str% "TIMESTAMP"
  | .TRUE => str% "TRUE"
  | .TYPE => str% "TYPE"
  | .UNBOUNDED => str% "UNBOUNDED"
  | .UNION => str% "UNION"
  | .UNIQUE => str% "UNIQUE"
  | .UNSIGNED => str% "UNSIGNED"
  | .UPDATE => str% "UPDATE"
  | .USING => str% "USING"
  | .UUID => str% "UUID"
  | .VALUES => str% "VALUES"
  | .VARCHAR => str% "VARCHAR"
  | .VARYING => str% "VARYING"
  | .VIEW => str% "VIEW"
  | .WHEN => str% "WHEN"
  | .WHERE => str% "WHERE"
  | .WITH => str% "WITH"
  | .WITHOUT => str% "WITHOUT"
  | .ZONE => str% "ZONE"

def KW.all : List KW := [
  .ADD, .ALL, .ALTER, .AND, .AS, .ASC, .AUTO_INCREMENT, .BETWEEN, .BIGINT, .BOOLEAN,
  .BY, .BYTEA, .CASCADE, .CASE, .CAST, .CHAR, .CHARACTER, .CHARSET, .CHECK, .COLUMN,
  .CONSTRAINT, .CREATE, .CROSS, .CURRENT, .DATE, .DEFAULT, .DELETE, .DESC, .DISTINCT, .DOUBLE,
  .DROP, .DUPLICATE, .ELSE, .END, .ENGINE, .EXCEPT, .EXISTS, .EXPLAIN, .FALSE, .FLOAT,
  .FOLLOWING, .FOREIGN, .FROM, .FULL, .GROUP, .GROUPS, .HAVING, .IF, .IN, .INDEX,
  .INNER, .INSERT, .INT, .INTEGER, .INTERSECT, .INTO, .IS, .JOIN, .KEY, .LATERAL,
  .LEFT, .LIKE, .LIMIT, .MATERIALIZED, .NATURAL, .NOT, .NULL, .NUMERIC, .OFFSET, .ON,
  .OR, .ORDER, .OUTER, .OVER, .PARTITION, .PRECEDING, .PRECISION, .PRIMARY, .RANGE, .REAL,
  .REFERENCES, .REGCLASS, .RIGHT, .ROW, .ROWS, .SELECT, .SET, .SMALLINT, .TABLE, .TEXT,
  .THEN, .TIME, .TIMESTAMP, .TRUE, .TYPE, .UNBOUNDED, .UNION, .UNIQUE, .UNSIGNED, .UPDATE,
  .USING, .UUID, .VALUES, .VARCHAR, .VARYING, .VIEW, .WHEN, .WHERE, .WITH, .WITHOUT,
  .ZONE]

/-- The keyword with the given text, if any. -/
def kwOf (s : Str) : Option KW := KW.all.find? fun k => k.str == s

end Verif
