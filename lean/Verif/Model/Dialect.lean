import Verif.Model.Base
/-
Model of package dialect (/repo/dialect): dialect.go, mysql.go, postgres.go, keywords.go.
-/
namespace Verif

/-- dialect/dialect.go:3-7, interface `Dialect`.  The rune EOF (-1) is not a `Char`; a dialect is
modelled as rejecting it (the three built-in dialects do). -/
structure Dialect where
  isIdentStart : Char → Bool
  isIdentPart : Char → Bool
  isDelimStart : Char → Bool

def isLetter (c : Char) : Bool := ('a' ≤ c && c ≤ 'z') || ('A' ≤ c && c ≤ 'Z')
def isDigit (c : Char) : Bool := '0' ≤ c && c ≤ '9'

/-- dialect/dialect.go:9-22, `GenericSQLDialect`. -/
def genericDialect : Dialect where
  isIdentStart c := isLetter c || c == '@'
  isIdentPart c := isLetter c || isDigit c || c == '@' || c == '_'
  isDelimStart c := c == '"'

/-- dialect/mysql.go:3-9, `MySQLDialect` (embeds `GenericSQLDialect`). -/
def mysqlDialect : Dialect :=
  { genericDialect with isDelimStart := fun c => c == '"' || c == '`' }

/-- dialect/postgres.go:3-16, `PostgresqlDialect`. -/
def postgresDialect : Dialect where
  isIdentStart c := isLetter c || c == '_'
  isIdentPart c := isLetter c || isDigit c || c == '$' || c == '_'
  isDelimStart c := c == '"' || c == '`'

/-- dialect/keywords.go:9-355, the map `Keywords` (as the list of its keys). -/
def keywords : List Str := [
  str% "ABS", str% "ADD", str% "ASC", str% "ALL", str% "ALLOCATE", str% "ALTER",
  str% "AND", str% "ANY", str% "ARE", str% "ARRAY", str% "ARRAY_AGG", str% "ARRAY_MAX_CARDINALITY",
  str% "AS", str% "ASENSITIVE", str% "ASYMMETRIC", str% "AT", str% "ATOMIC", str% "AUTHORIZATION",
  str% "AVG", str% "BEGIN", str% "BEGIN_FRAME", str% "BEGIN_PARTITION", str% "BETWEEN", str% "BIGINT",
  str% "BINARY", str% "BLOB", str% "BOOLEAN", str% "BOTH", str% "BY", str% "BYTEA",
  str% "CALL", str% "CALLED", str% "CARDINALITY", str% "CASCADED", str% "CASE", str% "CAST",
  str% "CEIL", str% "CEILING", str% "CHR", str% "CHAR", str% "CHAR_LENGTH", str% "CHARACTER",
  str% "CHARACTER_LENGTH", str% "CHECK", str% "CLOB", str% "CLOSE", str% "COALESCE", str% "COLLATE",
  str% "COLLECT", str% "COLUMN", str% "COMMIT", str% "CONDITION", str% "CONNECT", str% "CONSTRAINT",
  str% "CONTAINS", str% "CONVERT", str% "COPY", str% "CORR", str% "CORRESPONDING", str% "COUNT",
  str% "COVAR_POP", str% "COVAR_SAMP", str% "CREATE", str% "CROSS", str% "CSV", str% "CUBE",
  str% "CUME_DIST", str% "CURRENT", str% "CURRENT_CATALOG", str% "CURRENT_DATE", str% "CURRENT_DEFAULT_TRANSFORM_GROUP", str% "CURRENT_PATH",
  str% "CURRENT_ROLE", str% "CURRENT_ROW", str% "CURRENT_SCHEMA", str% "CURRENT_TIME", str% "CURRENT_TIMESTAMP", str% "CURRENT_TRANSFORM_GROUP_FOR_TYPE",
  str% "CURRENT_USER", str% "CURSOR", str% "CYCLE", str% "DATE", str% "DAY", str% "DEALLOCATE",
  str% "DEC", str% "DECIMAL", str% "DECLARE", str% "DEFAULT", str% "DELETE", str% "DENSE_RANK",
  str% "DEREF", str% "DESC", str% "DESCRIBE", str% "DETERMINISTIC", str% "DISCONNECT", str% "DISTINCT",
  str% "DOUBLE", str% "DROP", str% "DYNAMIC", str% "EACH", str% "ELEMENT", str% "ELSE",
  str% "END", str% "END_FRAME", str% "END_PARTITION", str% "EQUALS", str% "ESCAPE", str% "EVERY",
  str% "EXCEPT", str% "EXEC", str% "EXECUTE", str% "EXISTS", str% "EXP", str% "EXTERNAL",
  str% "EXTRACT", str% "FALSE", str% "FETCH", str% "FILTER", str% "FIRST_VALUE", str% "FLOAT",
  str% "FLOOR", str% "FOLLOWING", str% "FOR", str% "FOREIGN", str% "FRAME_ROW", str% "FREE",
  str% "FROM", str% "FULL", str% "FUNCTION", str% "FUSION", str% "GET", str% "GLOBAL",
  str% "GRANT", str% "GROUP", str% "GROUPING", str% "GROUPS", str% "HAVING", str% "HEADER",
  str% "HOLD", str% "HOUR", str% "IDENTITY", str% "IN", str% "INDICATOR", str% "INNER",
  str% "INOUT", str% "INSENSITIVE", str% "INSERT", str% "INT", str% "INTEGER", str% "INTERSECT",
  str% "INTERSECTION", str% "INTERVAL", str% "INTO", str% "IS", str% "JOIN", str% "KEY",
  str% "LAG", str% "LANGUAGE", str% "LARGE", str% "LAST_VALUE", str% "LATERAL", str% "LEAD",
  str% "LEADING", str% "LEFT", str% "LIKE", str% "LIKE_REGEX", str% "LIMIT", str% "LN",
  str% "LOCAL", str% "LOCALTIME", str% "LOCALTIMESTAMP", str% "LOCATION", str% "LOWER", str% "MATCH",
  str% "MATERIALIZED", str% "MAX", str% "MEMBER", str% "MERGE", str% "METHOD", str% "MIN",
  str% "MINUTE", str% "MOD", str% "MODIFIES", str% "MODULE", str% "MONTH", str% "MULTISET",
  str% "NATIONAL", str% "NATURAL", str% "NCHAR", str% "NCLOB", str% "NEW", str% "NO",
  str% "NONE", str% "NORMALIZE", str% "NOT", str% "NTH_VALUE", str% "NTILE", str% "NULL",
  str% "NULLIF", str% "NUMERIC", str% "OBJECT", str% "OCTET_LENGTH", str% "OCCURRENCES_REGEX", str% "OF",
  str% "OFFSET", str% "OLD", str% "ON", str% "ONLY", str% "OPEN", str% "OR",
  str% "ORDER", str% "OUT", str% "OUTER", str% "OVER", str% "OVERLAPS", str% "OVERLAY",
  str% "PARAMETER", str% "PARTITION", str% "PARQUET", str% "PERCENT", str% "PERCENT_RANK", str% "PERCENTILE_CONT",
  str% "PERCENTILE_DISC", str% "PERIOD", str% "PORTION", str% "POSITION", str% "POSITION_REGEX", str% "POWER",
  str% "PRECEDES", str% "PRECEDING", str% "PRECISION", str% "PREPARE", str% "PRIMARY", str% "PROCEDURE",
  str% "RANGE", str% "RANK", str% "READS", str% "REAL", str% "RECURSIVE", str% "REF",
  str% "REFERENCES", str% "REFERENCING", str% "REGCLASS", str% "REGR_AVGX", str% "REGR_AVGY", str% "REGR_COUNT",
  str% "REGR_INTERCEPT", str% "REGR_R2", str% "REGR_SLOPE", str% "REGR_SXX", str% "REGR_SXY", str% "REGR_SYY",
  str% "RELEASE", str% "RESULT", str% "RETURN", str% "RETURNS", str% "REVOKE", str% "RIGHT",
  str% "ROLLBACK", str% "ROLLUP", str% "ROW", str% "ROW_NUMBER", str% "ROWS", str% "SAVEPOINT",
  str% "SCOPE", str% "SCROLL", str% "SEARCH", str% "SECOND", str% "SELECT", str% "SENSITIVE",
  str% "SESSION_USER", str% "SET", str% "SIMILAR", str% "SMALLINT", str% "SOME", str% "SPECIFIC",
  str% "SPECIFICTYPE", str% "SQL", str% "SQLEXCEPTION", str% "SQLSTATE", str% "SQLWARNING", str% "SQRT",
  str% "START", str% "STATIC", str% "STDDEV_POP", str% "STDDEV_SAMP", str% "STDIN", str% "STORED",
  str% "SUBMULTISET", str% "SUBSTRING", str% "SUBSTRING_REGEX", str% "SUCCEEDS", str% "SUM", str% "SYMMETRIC",
  str% "SYSTEM", str% "SYSTEM_TIME", str% "SYSTEM_USER", str% "TABLE", str% "TABLESAMPLE", str% "TEXT",
  str% "THEN", str% "TIME", str% "TIMESTAMP", str% "TIMEZONE_HOUR", str% "TIMEZONE_MINUTE", str% "TO",
  str% "TRAILING", str% "TRANSLATE", str% "TRANSLATE_REGEX", str% "TRANSLATION", str% "TREAT", str% "TRIGGER",
  str% "TRUNCATE", str% "TRIM", str% "TRIM_ARRAY", str% "TRUE", str% "UESCAPE", str% "UNBOUNDED",
  str% "UNION", str% "UNIQUE", str% "UNKNOWN", str% "UNNEST", str% "UPDATE", str% "UPPER",
  str% "USER", str% "USING", str% "UUID", str% "VALUE", str% "VALUES", str% "VALUE_OF",
  str% "VAR_POP", str% "VAR_SAMP", str% "VARBINARY", str% "VARCHAR", str% "VARYING", str% "VERSIONING",
  str% "VIEW", str% "WHEN", str% "WHENEVER", str% "WHERE", str% "WIDTH_BUCKET", str% "WINDOW",
  str% "WITH", str% "WITHIN", str% "WITHOUT", str% "YEAR", str% "ZONE"]

end Verif
