import Verif.Tests.Tokenizer
import Verif.Model.Session
/-
The cases of parser_test.go, evaluated in the model.

These are tests of the model, not theorems about it: they show that on these inputs the model computes what the
authors of the code expect of the code.  Inputs and expected results are those of the test files, translated field by
field; a field that a Go literal leaves out has the zero value.
-/
namespace Verif.RepoTests

/-- `NewParser(src, &dialect.GenericSQLDialect{})` and `ParseStatement`. -/
def statement (src : Str) : Res Unit Stmt :=
  match toks src with
  | .ok ts => runStatement goFloats (src.length + 20) false ts
  | _ => .err

/-- `NewParser(src, &dialect.GenericSQLDialect{})` and `ParseSQL`, the number of statements. -/
def count (src : Str) : Option Nat :=
  match toks src with
  | .ok ts =>
    match runSQL goFloats (src.length + 20) false ts with
    | .ok ss _ => some ss.length
    | _ => none
  | _ => none

/-- `NewParser(src, &dialect.GenericSQLDialect{}, ParseComment())` and `ParseFile`. -/
def file (src : Str) : Option File :=
  match toks src with
  | .ok ts =>
    match parseFile goFloats (src.length + 20) true (newParser ts) with
    | .ok f _ => some f
    | _ => none
  | _ => none

/-! ### parser_test.go:14-1904, `TestParser_ParseStatement` -/

/-- parser_test.go:24, "simple select" -/
example : statement
    (str% "SELECT test FROM test_table") =
    .ok (
    .query (.mk .zero [] (.select (.mk false [(.unnamed (.ident ⟨(str% "test"), ⟨1, 8⟩, ⟨1, 12⟩⟩))] [(.factor (.table
      ⟨[⟨(str% "test_table"), ⟨1, 18⟩, ⟨1, 28⟩⟩]⟩ none [] .zero [] .zero))] none [] none ⟨1, 1⟩)) [] none)) () := by kernel_rfl

/-- parser_test.go:55, "where" -/
example : statement
    (str% "SELECT test FROM test_table WHERE test_table.column1 = 'test'") =
    .ok (
    .query (.mk .zero [] (.select (.mk false [(.unnamed (.ident ⟨(str% "test"), ⟨1, 8⟩, ⟨1, 12⟩⟩))] [(.factor (.table
      ⟨[⟨(str% "test_table"), ⟨1, 18⟩, ⟨1, 28⟩⟩]⟩ none [] .zero [] .zero))] (some (.binary (.compoundIdent [⟨(str%
      "test_table"), ⟨1, 35⟩, ⟨1, 45⟩⟩, ⟨(str% "column1"), ⟨1, 46⟩, ⟨1, 53⟩⟩]) ⟨.Eq, ⟨1, 54⟩, ⟨1, 55⟩⟩ (.singleQuoted
      ⟨1, 56⟩ ⟨1, 62⟩ (str% "test")))) [] none ⟨1, 1⟩)) [] none)) () := by kernel_rfl

/-- parser_test.go:112, "count and join" -/
example : statement
    (str% "SELECT COUNT(t1.id) AS c FROM test_table AS t1 LEFT JOIN test_table2 AS t2 ON t1.id = t2.test_table_id") =
    .ok (
    .query (.mk .zero [] (.select (.mk false [(.alias (.function ⟨[⟨(str% "COUNT"), ⟨1, 8⟩, ⟨1, 13⟩⟩]⟩
      [(.compoundIdent [⟨(str% "t1"), ⟨1, 14⟩, ⟨1, 16⟩⟩, ⟨(str% "id"), ⟨1, 17⟩, ⟨1, 19⟩⟩])] ⟨1, 20⟩ none .zero)
      ⟨(str% "c"), ⟨1, 24⟩, ⟨1, 25⟩⟩)] [(.qualified (.factor (.table ⟨[⟨(str% "test_table"), ⟨1, 31⟩, ⟨1, 41⟩⟩]⟩
      (some ⟨(str% "t1"), ⟨1, 45⟩, ⟨1, 47⟩⟩) [] .zero [] .zero)) ⟨.LEFT, ⟨1, 48⟩, ⟨1, 52⟩⟩ (.factor (.table ⟨[⟨(str%
      "test_table2"), ⟨1, 58⟩, ⟨1, 69⟩⟩]⟩ (some ⟨(str% "t2"), ⟨1, 73⟩, ⟨1, 75⟩⟩) [] .zero [] .zero)) (.condition
      (.binary (.compoundIdent [⟨(str% "t1"), ⟨1, 79⟩, ⟨1, 81⟩⟩, ⟨(str% "id"), ⟨1, 82⟩, ⟨1, 84⟩⟩]) ⟨.Eq, ⟨1, 85⟩, ⟨1,
      86⟩⟩ (.compoundIdent [⟨(str% "t2"), ⟨1, 87⟩, ⟨1, 89⟩⟩, ⟨(str% "test_table_id"), ⟨1, 90⟩, ⟨1, 103⟩⟩])) ⟨1,
      76⟩))] none [] none ⟨1, 1⟩)) [] none)) () := by kernel_rfl

/-- parser_test.go:239, "group by" -/
example : statement
    (str% "SELECT COUNT(customer_id), country.* FROM customers GROUP BY country") =
    .ok (
    .query (.mk .zero [] (.select (.mk false [(.unnamed (.function ⟨[⟨(str% "COUNT"), ⟨1, 8⟩, ⟨1, 13⟩⟩]⟩ [(.ident
      ⟨(str% "customer_id"), ⟨1, 14⟩, ⟨1, 25⟩⟩)] ⟨1, 26⟩ none .zero)), (.qualifiedWildcard ⟨[⟨(str% "country"), ⟨1,
      28⟩, ⟨1, 35⟩⟩]⟩)] [(.factor (.table ⟨[⟨(str% "customers"), ⟨1, 43⟩, ⟨1, 52⟩⟩]⟩ none [] .zero [] .zero))] none
      [(.ident ⟨(str% "country"), ⟨1, 62⟩, ⟨1, 69⟩⟩)] none ⟨1, 1⟩)) [] none)) () := by kernel_rfl

/-- parser_test.go:302, "having" -/
example : statement
    (str% "SELECT COUNT(customer_id), country \nFROM customers \nGROUP BY country \nHAVING COUNT(customer_id) > 3") =
    .ok (
    .query (.mk .zero [] (.select (.mk false [(.unnamed (.function ⟨[⟨(str% "COUNT"), ⟨1, 8⟩, ⟨1, 13⟩⟩]⟩ [(.ident
      ⟨(str% "customer_id"), ⟨1, 14⟩, ⟨1, 25⟩⟩)] ⟨1, 26⟩ none .zero)), (.unnamed (.ident ⟨(str% "country"), ⟨1, 28⟩,
      ⟨1, 35⟩⟩))] [(.factor (.table ⟨[⟨(str% "customers"), ⟨2, 6⟩, ⟨2, 15⟩⟩]⟩ none [] .zero [] .zero))] none [(.ident
      ⟨(str% "country"), ⟨3, 10⟩, ⟨3, 17⟩⟩)] (some (.binary (.function ⟨[⟨(str% "COUNT"), ⟨4, 8⟩, ⟨4, 13⟩⟩]⟩ [(.ident
      ⟨(str% "customer_id"), ⟨4, 14⟩, ⟨4, 25⟩⟩)] ⟨4, 26⟩ none .zero) ⟨.Gt, ⟨4, 27⟩, ⟨4, 28⟩⟩ (.long ⟨⟨4, 29⟩, ⟨4,
      30⟩, 3⟩))) ⟨1, 1⟩)) [] none)) () := by kernel_rfl

/-- parser_test.go:395, "order by and limit" -/
example : statement
    (str% "SELECT product, SUM(quantity) AS product_units\nFROM orders \nWHERE region IN (SELECT region FROM top_regions) \nORDER BY product_units LIMIT 100") =
    .ok (
    .query (.mk .zero [] (.select (.mk false [(.unnamed (.ident ⟨(str% "product"), ⟨1, 8⟩, ⟨1, 15⟩⟩)), (.alias
      (.function ⟨[⟨(str% "SUM"), ⟨1, 17⟩, ⟨1, 20⟩⟩]⟩ [(.ident ⟨(str% "quantity"), ⟨1, 21⟩, ⟨1, 29⟩⟩)] ⟨1, 30⟩ none
      .zero) ⟨(str% "product_units"), ⟨1, 34⟩, ⟨1, 47⟩⟩)] [(.factor (.table ⟨[⟨(str% "orders"), ⟨2, 6⟩, ⟨2, 12⟩⟩]⟩
      none [] .zero [] .zero))] (some (.inSubQuery (.ident ⟨(str% "region"), ⟨3, 7⟩, ⟨3, 13⟩⟩) (.mk .zero [] (.select
      (.mk false [(.unnamed (.ident ⟨(str% "region"), ⟨3, 25⟩, ⟨3, 31⟩⟩))] [(.factor (.table ⟨[⟨(str% "top_regions"),
      ⟨3, 37⟩, ⟨3, 48⟩⟩]⟩ none [] .zero [] .zero))] none [] none ⟨3, 18⟩)) [] none) false ⟨3, 49⟩)) [] none ⟨1, 1⟩))
      [(.mk (.ident ⟨(str% "product_units"), ⟨4, 10⟩, ⟨4, 23⟩⟩) .zero none)] (some ⟨(some ⟨⟨4, 30⟩, ⟨4, 33⟩, 100⟩),
      .zero, .zero, none⟩))) () := by kernel_rfl

/-- parser_test.go:507, "with cte" -/
example : statement
    (str% "WITH regional_sales AS (SELECT region, SUM(amount) AS total_sales FROM orders GROUP BY region)\nSELECT product, SUM(quantity) AS product_units\nFROM orders\nWHERE region IN (SELECT region FROM top_regions)\nGROUP BY region, product") =
    .ok (
    .query (.mk .zero [(.mk ⟨(str% "regional_sales"), ⟨1, 6⟩, ⟨1, 20⟩⟩ (.mk .zero [] (.select (.mk false [(.unnamed
      (.ident ⟨(str% "region"), ⟨1, 32⟩, ⟨1, 38⟩⟩)), (.alias (.function ⟨[⟨(str% "SUM"), ⟨1, 40⟩, ⟨1, 43⟩⟩]⟩ [(.ident
      ⟨(str% "amount"), ⟨1, 44⟩, ⟨1, 50⟩⟩)] ⟨1, 51⟩ none .zero) ⟨(str% "total_sales"), ⟨1, 55⟩, ⟨1, 66⟩⟩)] [(.factor
      (.table ⟨[⟨(str% "orders"), ⟨1, 72⟩, ⟨1, 78⟩⟩]⟩ none [] .zero [] .zero))] none [(.ident ⟨(str% "region"), ⟨1,
      88⟩, ⟨1, 94⟩⟩)] none ⟨1, 25⟩)) [] none) .zero)] (.select (.mk false [(.unnamed (.ident ⟨(str% "product"), ⟨2,
      8⟩, ⟨2, 15⟩⟩)), (.alias (.function ⟨[⟨(str% "SUM"), ⟨2, 17⟩, ⟨2, 20⟩⟩]⟩ [(.ident ⟨(str% "quantity"), ⟨2, 21⟩,
      ⟨2, 29⟩⟩)] ⟨2, 30⟩ none .zero) ⟨(str% "product_units"), ⟨2, 34⟩, ⟨2, 47⟩⟩)] [(.factor (.table ⟨[⟨(str%
      "orders"), ⟨3, 6⟩, ⟨3, 12⟩⟩]⟩ none [] .zero [] .zero))] (some (.inSubQuery (.ident ⟨(str% "region"), ⟨4, 7⟩,
      ⟨4, 13⟩⟩) (.mk .zero [] (.select (.mk false [(.unnamed (.ident ⟨(str% "region"), ⟨4, 25⟩, ⟨4, 31⟩⟩))] [(.factor
      (.table ⟨[⟨(str% "top_regions"), ⟨4, 37⟩, ⟨4, 48⟩⟩]⟩ none [] .zero [] .zero))] none [] none ⟨4, 18⟩)) [] none)
      false ⟨4, 49⟩)) [(.ident ⟨(str% "region"), ⟨5, 10⟩, ⟨5, 16⟩⟩), (.ident ⟨(str% "product"), ⟨5, 18⟩, ⟨5, 25⟩⟩)]
      none ⟨2, 1⟩)) [] none)) () := by kernel_rfl

/-- parser_test.go:682, "exists" -/
example : statement
    (str% "SELECT * FROM user WHERE NOT EXISTS \n(SELECT * \nFROM user_sub \nWHERE user.id = user_sub.id AND user_sub.job = 'job');") =
    .ok (
    .query (.mk .zero [] (.select (.mk false [(.unnamed (.wildcard ⟨1, 8⟩))] [(.factor (.table ⟨[⟨(str% "user"), ⟨1,
      15⟩, ⟨1, 19⟩⟩]⟩ none [] .zero [] .zero))] (some (.exists_ true (.mk .zero [] (.select (.mk false [(.unnamed
      (.wildcard ⟨2, 9⟩))] [(.factor (.table ⟨[⟨(str% "user_sub"), ⟨3, 6⟩, ⟨3, 14⟩⟩]⟩ none [] .zero [] .zero))] (some
      (.binary (.binary (.compoundIdent [⟨(str% "user"), ⟨4, 7⟩, ⟨4, 11⟩⟩, ⟨(str% "id"), ⟨4, 12⟩, ⟨4, 14⟩⟩]) ⟨.Eq,
      ⟨4, 15⟩, ⟨4, 16⟩⟩ (.compoundIdent [⟨(str% "user_sub"), ⟨4, 17⟩, ⟨4, 25⟩⟩, ⟨(str% "id"), ⟨4, 26⟩, ⟨4, 28⟩⟩]))
      ⟨.And, ⟨4, 29⟩, ⟨4, 32⟩⟩ (.binary (.compoundIdent [⟨(str% "user_sub"), ⟨4, 33⟩, ⟨4, 41⟩⟩, ⟨(str% "job"), ⟨4,
      42⟩, ⟨4, 45⟩⟩]) ⟨.Eq, ⟨4, 46⟩, ⟨4, 47⟩⟩ (.singleQuoted ⟨4, 48⟩ ⟨4, 53⟩ (str% "job"))))) [] none ⟨2, 2⟩)) []
      none) ⟨1, 26⟩ ⟨1, 30⟩ ⟨4, 54⟩)) [] none ⟨1, 1⟩)) [] none)) () := by kernel_rfl

/-- parser_test.go:801, "between / case" -/
example : statement
    (str% "SELECT \nCASE\n WHEN expr1 = '1' THEN 'test1' \n WHEN expr2 = '2' THEN 'test2' \n ELSE 'other' \nEND AS alias\nFROM user WHERE id BETWEEN 1 AND 2") =
    .ok (
    .query (.mk .zero [] (.select (.mk false [(.alias (.caseExpr ⟨2, 1⟩ ⟨6, 4⟩ none [(.binary (.ident ⟨(str%
      "expr1"), ⟨3, 7⟩, ⟨3, 12⟩⟩) ⟨.Eq, ⟨3, 13⟩, ⟨3, 14⟩⟩ (.singleQuoted ⟨3, 15⟩ ⟨3, 18⟩ (str% "1"))), (.binary
      (.ident ⟨(str% "expr2"), ⟨4, 7⟩, ⟨4, 12⟩⟩) ⟨.Eq, ⟨4, 13⟩, ⟨4, 14⟩⟩ (.singleQuoted ⟨4, 15⟩ ⟨4, 18⟩ (str% "2")))]
      [(.singleQuoted ⟨3, 24⟩ ⟨3, 31⟩ (str% "test1")), (.singleQuoted ⟨4, 24⟩ ⟨4, 31⟩ (str% "test2"))] (some
      (.singleQuoted ⟨5, 7⟩ ⟨5, 14⟩ (str% "other")))) ⟨(str% "alias"), ⟨6, 8⟩, ⟨6, 13⟩⟩)] [(.factor (.table ⟨[⟨(str%
      "user"), ⟨7, 6⟩, ⟨7, 10⟩⟩]⟩ none [] .zero [] .zero))] (some (.between (.ident ⟨(str% "id"), ⟨7, 17⟩, ⟨7, 19⟩⟩)
      false (.long ⟨⟨7, 28⟩, ⟨7, 29⟩, 1⟩) (.long ⟨⟨7, 34⟩, ⟨7, 35⟩, 2⟩))) [] none ⟨1, 1⟩)) [] none)) () := by kernel_rfl

/-- parser_test.go:943, "create table" -/
example : statement
    (str% "\nCREATE TABLE persons (\n person_id UUID PRIMARY KEY NOT NULL,\n first_name varchar(255) UNIQUE,\n last_name character varying(255) NOT NULL,\n created_at timestamp DEFAULT CURRENT_TIMESTAMP NOT NULL\n)") =
    .ok (
    .createTable ⟨2, 1⟩ ⟨[⟨(str% "persons"), ⟨2, 14⟩, ⟨2, 21⟩⟩]⟩ [.column ⟨⟨(str% "person_id"), ⟨3, 2⟩, ⟨3, 11⟩⟩,
      (.uuid ⟨3, 12⟩ ⟨3, 16⟩), none, [], [⟨none, .zero, .unique true ⟨3, 17⟩ ⟨3, 28⟩ .zero⟩, ⟨none, .zero, .notNull
      ⟨3, 29⟩ ⟨3, 37⟩⟩]⟩, .column ⟨⟨(str% "first_name"), ⟨4, 2⟩, ⟨4, 12⟩⟩, (.varchar (some 255) ⟨4, 13⟩ .zero ⟨4,
      25⟩), none, [], [⟨none, .zero, .unique false .zero .zero ⟨4, 26⟩⟩]⟩, .column ⟨⟨(str% "last_name"), ⟨5, 2⟩, ⟨5,
      11⟩⟩, (.varchar (some 255) ⟨5, 12⟩ ⟨5, 29⟩ ⟨5, 34⟩), none, [], [⟨none, .zero, .notNull ⟨5, 35⟩ ⟨5, 43⟩⟩]⟩,
      .column ⟨⟨(str% "created_at"), ⟨6, 2⟩, ⟨6, 12⟩⟩, (.timestamp false ⟨6, 13⟩ .zero), (some (.ident ⟨(str%
      "CURRENT_TIMESTAMP"), ⟨6, 31⟩, ⟨6, 48⟩⟩)), [], [⟨none, .zero, .notNull ⟨6, 49⟩ ⟨6, 57⟩⟩]⟩] false []) () := by kernel_rfl

/-- parser_test.go:1056, "with case" -/
example : statement
    (str% "CREATE TABLE persons (\nperson_id int PRIMARY KEY NOT NULL,\nlast_name character varying(255) NOT NULL,\ntest_id int NOT NULL REFERENCES test(id1),\nemail character varying(255) UNIQUE NOT NULL,\nage int NOT NULL CHECK(age > 0 AND age < 100),\ncreated_at timestamp DEFAULT CURRENT_TIMESTAMP NOT NULL\n)") =
    .ok (
    .createTable ⟨1, 1⟩ ⟨[⟨(str% "persons"), ⟨1, 14⟩, ⟨1, 21⟩⟩]⟩ [.column ⟨⟨(str% "person_id"), ⟨2, 1⟩, ⟨2, 10⟩⟩,
      (.int ⟨2, 11⟩ ⟨2, 14⟩ false .zero), none, [], [⟨none, .zero, .unique true ⟨2, 15⟩ ⟨2, 26⟩ .zero⟩, ⟨none, .zero,
      .notNull ⟨2, 27⟩ ⟨2, 35⟩⟩]⟩, .column ⟨⟨(str% "last_name"), ⟨3, 1⟩, ⟨3, 10⟩⟩, (.varchar (some 255) ⟨3, 11⟩ ⟨3,
      28⟩ ⟨3, 33⟩), none, [], [⟨none, .zero, .notNull ⟨3, 34⟩ ⟨3, 42⟩⟩]⟩, .column ⟨⟨(str% "test_id"), ⟨4, 1⟩, ⟨4,
      8⟩⟩, (.int ⟨4, 9⟩ ⟨4, 12⟩ false .zero), none, [], [⟨none, .zero, .notNull ⟨4, 13⟩ ⟨4, 21⟩⟩, ⟨none, .zero,
      .references ⟨4, 22⟩ ⟨4, 42⟩ ⟨[⟨(str% "test"), ⟨4, 33⟩, ⟨4, 37⟩⟩]⟩ [⟨(str% "id1"), ⟨4, 38⟩, ⟨4, 41⟩⟩]⟩]⟩,
      .column ⟨⟨(str% "email"), ⟨5, 1⟩, ⟨5, 6⟩⟩, (.varchar (some 255) ⟨5, 7⟩ ⟨5, 24⟩ ⟨5, 29⟩), none, [], [⟨none,
      .zero, .unique false .zero .zero ⟨5, 30⟩⟩, ⟨none, .zero, .notNull ⟨5, 37⟩ ⟨5, 45⟩⟩]⟩, .column ⟨⟨(str% "age"),
      ⟨6, 1⟩, ⟨6, 4⟩⟩, (.int ⟨6, 5⟩ ⟨6, 8⟩ false .zero), none, [], [⟨none, .zero, .notNull ⟨6, 9⟩ ⟨6, 17⟩⟩, ⟨none,
      .zero, .check (.binary (.binary (.ident ⟨(str% "age"), ⟨6, 24⟩, ⟨6, 27⟩⟩) ⟨.Gt, ⟨6, 28⟩, ⟨6, 29⟩⟩ (.long ⟨⟨6,
      30⟩, ⟨6, 31⟩, 0⟩)) ⟨.And, ⟨6, 32⟩, ⟨6, 35⟩⟩ (.binary (.ident ⟨(str% "age"), ⟨6, 36⟩, ⟨6, 39⟩⟩) ⟨.Lt, ⟨6, 40⟩,
      ⟨6, 41⟩⟩ (.long ⟨⟨6, 42⟩, ⟨6, 45⟩, 100⟩))) ⟨6, 18⟩ ⟨6, 46⟩⟩]⟩, .column ⟨⟨(str% "created_at"), ⟨7, 1⟩, ⟨7, 11⟩⟩,
      (.timestamp false ⟨7, 12⟩ .zero), (some (.ident ⟨(str% "CURRENT_TIMESTAMP"), ⟨7, 30⟩, ⟨7, 47⟩⟩)), [], [⟨none,
      .zero, .notNull ⟨7, 48⟩ ⟨7, 56⟩⟩]⟩] false []) () := by kernel_rfl

/-- parser_test.go:1284, "with table constraint" -/
example : statement
    (str% "CREATE TABLE persons (\nperson_id int,\nCONSTRAINT production UNIQUE(test_column),\nPRIMARY KEY(person_id),\nCHECK(id > 100),\nFOREIGN KEY(test_id) REFERENCES other_table(col1, col2)\n)") =
    .ok (
    .createTable ⟨1, 1⟩ ⟨[⟨(str% "persons"), ⟨1, 14⟩, ⟨1, 21⟩⟩]⟩ [.column ⟨⟨(str% "person_id"), ⟨2, 1⟩, ⟨2, 10⟩⟩,
      (.int ⟨2, 11⟩ ⟨2, 14⟩ false .zero), none, [], []⟩, .constraint ⟨⟨3, 1⟩, (some ⟨(str% "production"), ⟨3, 12⟩,
      ⟨3, 22⟩⟩), .unique false .zero ⟨3, 23⟩ ⟨3, 42⟩ [⟨(str% "test_column"), ⟨3, 30⟩, ⟨3, 41⟩⟩]⟩, .constraint ⟨.zero,
      none, .unique true ⟨4, 1⟩ .zero ⟨4, 23⟩ [⟨(str% "person_id"), ⟨4, 13⟩, ⟨4, 22⟩⟩]⟩, .constraint ⟨.zero, none,
      .check ⟨5, 1⟩ ⟨5, 16⟩ (.binary (.ident ⟨(str% "id"), ⟨5, 7⟩, ⟨5, 9⟩⟩) ⟨.Gt, ⟨5, 10⟩, ⟨5, 11⟩⟩ (.long ⟨⟨5, 12⟩,
      ⟨5, 15⟩, 100⟩))⟩, .constraint ⟨.zero, none, .referential ⟨6, 1⟩ [⟨(str% "test_id"), ⟨6, 13⟩, ⟨6, 20⟩⟩] ⟨⟨(str%
      "other_table"), ⟨6, 33⟩, ⟨6, 44⟩⟩, [⟨(str% "col1"), ⟨6, 45⟩, ⟨6, 49⟩⟩, ⟨(str% "col2"), ⟨6, 51⟩, ⟨6, 55⟩⟩], ⟨6,
      56⟩⟩⟩] false []) () := by kernel_rfl

/-- parser_test.go:1401, "create view" -/
example : statement
    (str% "CREATE VIEW comedies AS SELECT * FROM films WHERE kind = 'Comedy'") =
    .ok (
    .createView ⟨1, 1⟩ ⟨[⟨(str% "comedies"), ⟨1, 13⟩, ⟨1, 21⟩⟩]⟩ (.mk .zero [] (.select (.mk false [(.unnamed
      (.wildcard ⟨1, 32⟩))] [(.factor (.table ⟨[⟨(str% "films"), ⟨1, 39⟩, ⟨1, 44⟩⟩]⟩ none [] .zero [] .zero))] (some
      (.binary (.ident ⟨(str% "kind"), ⟨1, 51⟩, ⟨1, 55⟩⟩) ⟨.Eq, ⟨1, 56⟩, ⟨1, 57⟩⟩ (.singleQuoted ⟨1, 58⟩ ⟨1, 66⟩
      (str% "Comedy")))) [] none ⟨1, 25⟩)) [] none) false) () := by kernel_rfl

/-- parser_test.go:1484, "simple case" -/
example : statement
    (str% "DELETE FROM customers WHERE customer_id = 1") =
    .ok (
    .delete ⟨1, 1⟩ ⟨[⟨(str% "customers"), ⟨1, 13⟩, ⟨1, 22⟩⟩]⟩ (some (.binary (.ident ⟨(str% "customer_id"), ⟨1, 29⟩,
      ⟨1, 40⟩⟩) ⟨.Eq, ⟨1, 41⟩, ⟨1, 42⟩⟩ (.long ⟨⟨1, 43⟩, ⟨1, 44⟩, 1⟩)))) () := by kernel_rfl

/-- parser_test.go:1544, "simple case" -/
example : statement
    (str% "INSERT INTO customers (customer_name, contract_name) VALUES('Cardinal', 'Tom B. Erichsen')") =
    .ok (
    .insert ⟨1, 1⟩ ⟨[⟨(str% "customers"), ⟨1, 13⟩, ⟨1, 22⟩⟩]⟩ [⟨(str% "customer_name"), ⟨1, 24⟩, ⟨1, 37⟩⟩, ⟨(str%
      "contract_name"), ⟨1, 39⟩, ⟨1, 52⟩⟩] (.constructor .zero [⟨[(.singleQuoted ⟨1, 61⟩ ⟨1, 71⟩ (str% "Cardinal")),
      (.singleQuoted ⟨1, 73⟩ ⟨1, 90⟩ (str% "Tom B. Erichsen"))], ⟨1, 60⟩, ⟨1, 91⟩⟩]) []) () := by kernel_rfl

/-- parser_test.go:1579, "multi record case" -/
example : statement
    (str% "INSERT INTO customers (customer_name, contract_name) VALUES\n('Cardinal', 'Tom B. Erichsen'),\n('Cardinal', 'Tom B. Erichsen')") =
    .ok (
    .insert ⟨1, 1⟩ ⟨[⟨(str% "customers"), ⟨1, 13⟩, ⟨1, 22⟩⟩]⟩ [⟨(str% "customer_name"), ⟨1, 24⟩, ⟨1, 37⟩⟩, ⟨(str%
      "contract_name"), ⟨1, 39⟩, ⟨1, 52⟩⟩] (.constructor .zero [⟨[(.singleQuoted ⟨2, 2⟩ ⟨2, 12⟩ (str% "Cardinal")),
      (.singleQuoted ⟨2, 14⟩ ⟨2, 31⟩ (str% "Tom B. Erichsen"))], ⟨2, 1⟩, ⟨2, 32⟩⟩, ⟨[(.singleQuoted ⟨3, 2⟩ ⟨3, 12⟩
      (str% "Cardinal")), (.singleQuoted ⟨3, 14⟩ ⟨3, 31⟩ (str% "Tom B. Erichsen"))], ⟨3, 1⟩, ⟨3, 32⟩⟩]) []) () := by kernel_rfl

/-- parser_test.go:1668, "add column" -/
example : statement
    (str% "\nALTER TABLE customers\nADD COLUMN email character varying(255)") =
    .ok (
    .alterTable ⟨2, 1⟩ ⟨[⟨(str% "customers"), ⟨2, 13⟩, ⟨2, 22⟩⟩]⟩ (.addColumn ⟨3, 1⟩ ⟨⟨(str% "email"), ⟨3, 12⟩, ⟨3,
      17⟩⟩, (.varchar (some 255) ⟨3, 18⟩ ⟨3, 35⟩ ⟨3, 40⟩), none, [], []⟩)) () := by kernel_rfl

/-- parser_test.go:1694, "add constraint" -/
example : statement
    (str% "\nALTER TABLE products\nADD FOREIGN KEY(test_id) REFERENCES other_table(col1, col2)") =
    .ok (
    .alterTable ⟨2, 1⟩ ⟨[⟨(str% "products"), ⟨2, 13⟩, ⟨2, 21⟩⟩]⟩ (.addConstraint ⟨3, 1⟩ ⟨.zero, none, .referential
      ⟨3, 5⟩ [⟨(str% "test_id"), ⟨3, 17⟩, ⟨3, 24⟩⟩] ⟨⟨(str% "other_table"), ⟨3, 37⟩, ⟨3, 48⟩⟩, [⟨(str% "col1"), ⟨3,
      49⟩, ⟨3, 53⟩⟩, ⟨(str% "col2"), ⟨3, 55⟩, ⟨3, 59⟩⟩], ⟨3, 60⟩⟩⟩)) () := by kernel_rfl

/-- parser_test.go:1727, "drop constraint" -/
example : statement
    (str% "ALTER TABLE products\nDROP CONSTRAINT fk CASCADE") =
    .ok (
    .alterTable ⟨1, 1⟩ ⟨[⟨(str% "products"), ⟨1, 13⟩, ⟨1, 21⟩⟩]⟩ (.dropConstraint ⟨(str% "fk"), ⟨2, 17⟩, ⟨2, 19⟩⟩ ⟨2,
      1⟩ true ⟨2, 27⟩)) () := by kernel_rfl

/-- parser_test.go:1746, "remove column" -/
example : statement
    (str% "ALTER TABLE products\nDROP COLUMN description CASCADE") =
    .ok (
    .alterTable ⟨1, 1⟩ ⟨[⟨(str% "products"), ⟨1, 13⟩, ⟨1, 21⟩⟩]⟩ (.removeColumn ⟨(str% "description"), ⟨2, 13⟩, ⟨2,
      24⟩⟩ true ⟨2, 32⟩ ⟨2, 1⟩)) () := by kernel_rfl

/-- parser_test.go:1765, "alter column" -/
example : statement
    (str% "ALTER TABLE products\nALTER COLUMN created_at SET DEFAULT current_timestamp") =
    .ok (
    .alterTable ⟨1, 1⟩ ⟨[⟨(str% "products"), ⟨1, 13⟩, ⟨1, 21⟩⟩]⟩ (.alterColumn ⟨(str% "created_at"), ⟨2, 14⟩, ⟨2,
      24⟩⟩ ⟨2, 1⟩ (.setDefault ⟨2, 25⟩ (.ident ⟨(str% "current_timestamp"), ⟨2, 37⟩, ⟨2, 54⟩⟩)))) () := by kernel_rfl

/-- parser_test.go:1786, "pg change type" -/
example : statement
    (str% "ALTER TABLE products\nALTER COLUMN number TYPE numeric(255,10)") =
    .ok (
    .alterTable ⟨1, 1⟩ ⟨[⟨(str% "products"), ⟨1, 13⟩, ⟨1, 21⟩⟩]⟩ (.alterColumn ⟨(str% "number"), ⟨2, 14⟩, ⟨2, 20⟩⟩
      ⟨2, 1⟩ (.pgAlterDataType ⟨2, 21⟩ (.decimal (some 255) (some 10) ⟨2, 26⟩ ⟨2, 41⟩ false .zero)))) () := by kernel_rfl

/-- parser_test.go:1843, "simple case" -/
example : statement
    (str% "UPDATE customers SET contract_name = 'Alfred Schmidt', city = 'Frankfurt' WHERE customer_id = 1") =
    .ok (
    .update ⟨1, 1⟩ ⟨[⟨(str% "customers"), ⟨1, 8⟩, ⟨1, 17⟩⟩]⟩ [⟨⟨(str% "contract_name"), ⟨1, 22⟩, ⟨1, 35⟩⟩,
      (.singleQuoted ⟨1, 38⟩ ⟨1, 54⟩ (str% "Alfred Schmidt"))⟩, ⟨⟨(str% "city"), ⟨1, 56⟩, ⟨1, 60⟩⟩, (.singleQuoted
      ⟨1, 63⟩ ⟨1, 74⟩ (str% "Frankfurt"))⟩] (some (.binary (.ident ⟨(str% "customer_id"), ⟨1, 81⟩, ⟨1, 92⟩⟩) ⟨.Eq,
      ⟨1, 93⟩, ⟨1, 94⟩⟩ (.long ⟨⟨1, 95⟩, ⟨1, 96⟩, 1⟩)))) () := by kernel_rfl

/-! ### parser_test.go:1906-1942, `TestParser_ParseSQL` -/

example : count
    (str% "\ncreate table account (\n    account_id serial primary key,\n    name varchar(255) not null,\n    email varchar(255) unique not null,\n    age smallint not null,\n    registered_at timestamp with time zone default current_timestamp\n);\n\ncreate table category (\n    category_id serial primary key,\n    name varchar(255) not null\n);\n\ncreate table item (\n    item_id serial primary key,\n    price int not null,\n    name varchar(255) not null,\n    category_id int references category(category_id),\n    created_at timestamp with time zone default current_timestamp\n);\n") =
    some 3 := by decide +kernel

/-! ### parser_test.go:1944-2111, `TestParser_ParseFile` -/

/-- parser_test.go:1953, "single line" -/
example : (file
    (str% "--comment\nselect 1 from test;")).map File.comments = some
    [⟨[⟨(str% "comment"), ⟨1, 1⟩, ⟨1, 10⟩⟩]⟩] := by decide +kernel

/-- parser_test.go:1969, "multi line" -/
example : (file
    (str% "\ncreate table account (\n    account_id serial primary key,  --aaa\n\t/*bbb*/\n    name varchar(255) not null,\n    email /*ccc*/ varchar(255) unique not null --ddd\n);\n\n--eee\n\n/*fff\nggg\n*/\nselect 1 from test; --hhh\n/*jjj*/ --kkk\nselect 1 from test; /*lll*/ --mmm\n--nnn\n")).map File.comments = some
    [⟨[⟨(str% "aaa"), ⟨3, 37⟩, ⟨3, 42⟩⟩]⟩, ⟨[⟨(str% "bbb"), ⟨4, 5⟩, ⟨4, 12⟩⟩]⟩, ⟨[⟨(str% "ccc"), ⟨6, 11⟩, ⟨6, 18⟩⟩]⟩,
      ⟨[⟨(str% "ddd"), ⟨6, 48⟩, ⟨6, 53⟩⟩]⟩, ⟨[⟨(str% "eee"), ⟨9, 1⟩, ⟨9, 6⟩⟩, ⟨(str% "fff\nggg\n"), ⟨11, 1⟩, ⟨13,
      3⟩⟩]⟩, ⟨[⟨(str% "hhh"), ⟨14, 21⟩, ⟨14, 26⟩⟩]⟩, ⟨[⟨(str% "jjj"), ⟨15, 1⟩, ⟨15, 8⟩⟩, ⟨(str% "kkk"), ⟨15, 9⟩, ⟨15,
      14⟩⟩]⟩, ⟨[⟨(str% "lll"), ⟨16, 21⟩, ⟨16, 28⟩⟩, ⟨(str% "mmm"), ⟨16, 29⟩, ⟨16, 34⟩⟩]⟩, ⟨[⟨(str% "nnn"), ⟨17, 1⟩,
      ⟨17, 6⟩⟩]⟩] := by decide +kernel

end Verif.RepoTests
