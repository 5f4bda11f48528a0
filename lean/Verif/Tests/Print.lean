import Verif.Proofs.KernelRfl
import Verif.Model.Print
import Verif.Model.Strconv
/-
The cases of sqlast/query_test.go and sqlast/stmt_test.go, evaluated in the model.

These are tests of the model, not theorems about it: they show that on these inputs the model computes what the
authors of the code expect of the code.  Inputs and expected results are those of the test files, translated field by
field; a field that a Go literal leaves out has the zero value.
An `ObjectName` in the place of an expression, which the parser never builds and `Expr` does not have, is replaced by
the `CompoundIdent` with the same names.
-/
namespace Verif.RepoTests

/-- `x.ToSQLString()` of a statement. -/
def text (x : Stmt) : Str := Node.toSQLString goFloats (.stmt x)

/-- `x.ToSQLString()` of a `SQLSelect`. -/
def selectText (x : SQLSelect) : Str := Node.toSQLString goFloats (.setExpr (.select x))

/-- sqlast/query_test.go:16, "simple select" -/
example : selectText (
    (.mk false [(.unnamed (.ident ⟨(str% "test"), .zero, .zero⟩))] [(.factor (.table ⟨[⟨(str% "test_table"), .zero,
      .zero⟩]⟩ none [] .zero [] .zero))] none [] none .zero)) =
    (str% "SELECT test FROM test_table") := by decide +kernel

/-- sqlast/query_test.go:32, "join" -/
example : selectText (
    (.mk false [(.unnamed (.compoundIdent [⟨(str% "test"), .zero, .zero⟩]))] [(.natural (.factor (.table ⟨[⟨(str%
      "test_table"), .zero, .zero⟩]⟩ none [] .zero [] .zero)) ⟨.IMPLICIT, .zero, .zero⟩ (.factor (.table ⟨[⟨(str%
      "test_table2"), .zero, .zero⟩]⟩ none [] .zero [] .zero)))] none [] none .zero)) =
    (str% "SELECT test FROM test_table NATURAL JOIN test_table2") := by decide +kernel

/-- sqlast/query_test.go:60, "where" -/
example : selectText (
    (.mk false [(.unnamed (.ident ⟨(str% "test"), .zero, .zero⟩))] [(.factor (.table ⟨[⟨(str% "test_table"), .zero,
      .zero⟩]⟩ none [] .zero [] .zero))] (some (.binary (.compoundIdent [⟨(str% "test_table"), .zero, .zero⟩, ⟨(str%
      "column1"), .zero, .zero⟩]) ⟨.Eq, .zero, .zero⟩ (.singleQuoted .zero .zero (str% "test")))) [] none .zero)) =
    (str% "SELECT test FROM test_table WHERE test_table.column1 = 'test'") := by decide +kernel

/-- sqlast/query_test.go:85, "count and join" -/
example : selectText (
    (.mk false [(.alias (.function ⟨[⟨(str% "COUNT"), .zero, .zero⟩]⟩ [(.compoundIdent [⟨(str% "t1"), .zero, .zero⟩,
      ⟨(str% "id"), .zero, .zero⟩])] .zero none .zero) ⟨(str% "c"), .zero, .zero⟩)] [(.qualified (.factor (.table
      ⟨[⟨(str% "test_table"), .zero, .zero⟩]⟩ (some ⟨(str% "t1"), .zero, .zero⟩) [] .zero [] .zero)) ⟨.LEFT, .zero,
      .zero⟩ (.factor (.table ⟨[⟨(str% "test_table2"), .zero, .zero⟩]⟩ (some ⟨(str% "t2"), .zero, .zero⟩) [] .zero []
      .zero)) (.condition (.binary (.compoundIdent [⟨(str% "t1"), .zero, .zero⟩, ⟨(str% "id"), .zero, .zero⟩]) ⟨.Eq,
      .zero, .zero⟩ (.compoundIdent [⟨(str% "t2"), .zero, .zero⟩, ⟨(str% "test_table_id"), .zero, .zero⟩])) .zero))]
      none [] none .zero)) =
    (str% "SELECT COUNT(t1.id) AS c FROM test_table AS t1 LEFT JOIN test_table2 AS t2 ON t1.id = t2.test_table_id") := by decide +kernel

/-- sqlast/query_test.go:134, "group by" -/
example : selectText (
    (.mk false [(.unnamed (.function ⟨[⟨(str% "COUNT"), .zero, .zero⟩]⟩ [(.ident ⟨(str% "customer_id"), .zero,
      .zero⟩)] .zero none .zero)), (.qualifiedWildcard ⟨[⟨(str% "country"), .zero, .zero⟩]⟩)] [(.factor (.table
      ⟨[⟨(str% "customers"), .zero, .zero⟩]⟩ none [] .zero [] .zero))] none [(.ident ⟨(str% "country"), .zero,
      .zero⟩)] none .zero)) =
    (str% "SELECT COUNT(customer_id), country.* FROM customers GROUP BY country") := by decide +kernel

/-- sqlast/query_test.go:157, "having" -/
example : selectText (
    (.mk false [(.unnamed (.function ⟨[⟨(str% "COUNT"), .zero, .zero⟩]⟩ [(.ident ⟨(str% "customer_id"), .zero,
      .zero⟩)] .zero none .zero)), (.unnamed (.ident ⟨(str% "country"), .zero, .zero⟩))] [(.factor (.table ⟨[⟨(str%
      "customers"), .zero, .zero⟩]⟩ none [] .zero [] .zero))] none [(.ident ⟨(str% "country"), .zero, .zero⟩)] (some
      (.binary (.function ⟨[⟨(str% "COUNT"), .zero, .zero⟩]⟩ [(.ident ⟨(str% "customer_id"), .zero, .zero⟩)] .zero
      none .zero) ⟨.Gt, .zero, .zero⟩ (.long ⟨.zero, .zero, 3⟩))) .zero)) =
    (str% "SELECT COUNT(customer_id), country FROM customers GROUP BY country HAVING COUNT(customer_id) > 3") := by decide +kernel

/-- sqlast/query_test.go:209, "with cte" -/
example : text (
    .query (.mk .zero [(.mk ⟨(str% "regional_sales"), .zero, .zero⟩ (.mk .zero [] (.select (.mk false [(.unnamed
      (.ident ⟨(str% "region"), .zero, .zero⟩)), (.alias (.function ⟨[⟨(str% "SUM"), .zero, .zero⟩]⟩ [(.ident ⟨(str%
      "amount"), .zero, .zero⟩)] .zero none .zero) ⟨(str% "total_sales"), .zero, .zero⟩)] [(.factor (.table ⟨[⟨(str%
      "orders"), .zero, .zero⟩]⟩ none [] .zero [] .zero))] none [(.ident ⟨(str% "region"), .zero, .zero⟩)] none
      .zero)) [] none) .zero)] (.select (.mk false [(.unnamed (.ident ⟨(str% "product"), .zero, .zero⟩)), (.alias
      (.function ⟨[⟨(str% "SUM"), .zero, .zero⟩]⟩ [(.ident ⟨(str% "quantity"), .zero, .zero⟩)] .zero none .zero)
      ⟨(str% "product_units"), .zero, .zero⟩)] [(.factor (.table ⟨[⟨(str% "orders"), .zero, .zero⟩]⟩ none [] .zero []
      .zero))] (some (.inSubQuery (.ident ⟨(str% "region"), .zero, .zero⟩) (.mk .zero [] (.select (.mk false
      [(.unnamed (.ident ⟨(str% "region"), .zero, .zero⟩))] [(.factor (.table ⟨[⟨(str% "top_regions"), .zero,
      .zero⟩]⟩ none [] .zero [] .zero))] none [] none .zero)) [] none) false .zero)) [(.ident ⟨(str% "region"),
      .zero, .zero⟩), (.ident ⟨(str% "product"), .zero, .zero⟩)] none .zero)) [] none)) =
    (str% "WITH regional_sales AS (SELECT region, SUM(amount) AS total_sales FROM orders GROUP BY region) SELECT product, SUM(quantity) AS product_units FROM orders WHERE region IN (SELECT region FROM top_regions) GROUP BY region, product") := by decide +kernel

/-- sqlast/query_test.go:279, "order by and limit" -/
example : text (
    .query (.mk .zero [] (.select (.mk false [(.unnamed (.ident ⟨(str% "product"), .zero, .zero⟩)), (.alias
      (.function ⟨[⟨(str% "SUM"), .zero, .zero⟩]⟩ [(.ident ⟨(str% "quantity"), .zero, .zero⟩)] .zero none .zero)
      ⟨(str% "product_units"), .zero, .zero⟩)] [(.factor (.table ⟨[⟨(str% "orders"), .zero, .zero⟩]⟩ none [] .zero []
      .zero))] (some (.inSubQuery (.ident ⟨(str% "region"), .zero, .zero⟩) (.mk .zero [] (.select (.mk false
      [(.unnamed (.ident ⟨(str% "region"), .zero, .zero⟩))] [(.factor (.table ⟨[⟨(str% "top_regions"), .zero,
      .zero⟩]⟩ none [] .zero [] .zero))] none [] none .zero)) [] none) false .zero)) [] none .zero)) [(.mk (.ident
      ⟨(str% "product_units"), .zero, .zero⟩) .zero none)] (some ⟨(some ⟨.zero, .zero, 100⟩), .zero, .zero, none⟩))) =
    (str% "SELECT product, SUM(quantity) AS product_units FROM orders WHERE region IN (SELECT region FROM top_regions) ORDER BY product_units LIMIT 100") := by decide +kernel

/-- sqlast/query_test.go:324, "exists" -/
example : text (
    .query (.mk .zero [] (.select (.mk false [(.unnamed (.wildcard .zero))] [(.factor (.table ⟨[⟨(str% "user"),
      .zero, .zero⟩]⟩ none [] .zero [] .zero))] (some (.exists_ true (.mk .zero [] (.select (.mk false [(.unnamed
      (.wildcard .zero))] [(.factor (.table ⟨[⟨(str% "user_sub"), .zero, .zero⟩]⟩ none [] .zero [] .zero))] (some
      (.binary (.binary (.compoundIdent [⟨(str% "user"), .zero, .zero⟩, ⟨(str% "id"), .zero, .zero⟩]) ⟨.Eq, .zero,
      .zero⟩ (.compoundIdent [⟨(str% "user_sub"), .zero, .zero⟩, ⟨(str% "id"), .zero, .zero⟩])) ⟨.And, .zero, .zero⟩
      (.binary (.compoundIdent [⟨(str% "user_sub"), .zero, .zero⟩, ⟨(str% "job"), .zero, .zero⟩]) ⟨.Eq, .zero, .zero⟩
      (.singleQuoted .zero .zero (str% "job"))))) [] none .zero)) [] none) .zero .zero .zero)) [] none .zero)) []
      none)) =
    (str% "SELECT * FROM user WHERE NOT EXISTS (SELECT * FROM user_sub WHERE user.id = user_sub.id AND user_sub.job = 'job')") := by decide +kernel

/-- sqlast/query_test.go:389, "between / case" -/
example : text (
    .query (.mk .zero [] (.select (.mk false [(.alias (.caseExpr .zero .zero none [(.binary (.ident ⟨(str% "expr1"),
      .zero, .zero⟩) ⟨.Eq, .zero, .zero⟩ (.singleQuoted .zero .zero (str% "1"))), (.binary (.ident ⟨(str% "expr2"),
      .zero, .zero⟩) ⟨.Eq, .zero, .zero⟩ (.singleQuoted .zero .zero (str% "2")))] [(.singleQuoted .zero .zero
      (str% "test1")), (.singleQuoted .zero .zero (str% "test2"))] (some (.singleQuoted .zero .zero (str% "other"))))
      ⟨(str% "alias"), .zero, .zero⟩)] [(.factor (.table ⟨[⟨(str% "user"), .zero, .zero⟩]⟩ none [] .zero [] .zero))]
      (some (.between (.ident ⟨(str% "id"), .zero, .zero⟩) false (.long ⟨.zero, .zero, 1⟩) (.long ⟨.zero, .zero,
      2⟩))) [] none .zero)) [] none)) =
    (str% "SELECT CASE WHEN expr1 = '1' THEN 'test1' WHEN expr2 = '2' THEN 'test2' ELSE 'other' END AS alias FROM user WHERE id BETWEEN 1 AND 2") := by decide +kernel

/-- sqlast/stmt_test.go:18, "simple case" -/
example : text (
    .insert .zero ⟨[⟨(str% "customers"), .zero, .zero⟩]⟩ [⟨(str% "customer_name"), .zero, .zero⟩, ⟨(str%
      "contract_name"), .zero, .zero⟩] (.constructor .zero [⟨[(.singleQuoted .zero .zero (str% "Cardinal")),
      (.singleQuoted .zero .zero (str% "Tom B. Erichsen"))], .zero, .zero⟩]) []) =
    (str% "INSERT INTO customers (customer_name, contract_name) VALUES ('Cardinal', 'Tom B. Erichsen')") := by decide +kernel

/-- sqlast/stmt_test.go:39, "multi row case" -/
example : text (
    .insert .zero ⟨[⟨(str% "customers"), .zero, .zero⟩]⟩ [⟨(str% "customer_name"), .zero, .zero⟩, ⟨(str%
      "contract_name"), .zero, .zero⟩] (.constructor .zero [⟨[(.singleQuoted .zero .zero (str% "Cardinal")),
      (.singleQuoted .zero .zero (str% "Tom B. Erichsen"))], .zero, .zero⟩, ⟨[(.singleQuoted .zero .zero
      (str% "Cardinal2")), (.singleQuoted .zero .zero (str% "Tom B. Erichsen2"))], .zero, .zero⟩, ⟨[(.singleQuoted
      .zero .zero (str% "Cardinal3")), (.singleQuoted .zero .zero (str% "Tom B. Erichsen3"))], .zero, .zero⟩]) []) =
    (str% "INSERT INTO customers (customer_name, contract_name) VALUES ('Cardinal', 'Tom B. Erichsen'), ('Cardinal2', 'Tom B. Erichsen2'), ('Cardinal3', 'Tom B. Erichsen3')") := by decide +kernel

/-- sqlast/stmt_test.go:72, "insert sub query" -/
example : text (
    .insert .zero ⟨[⟨(str% "customers"), .zero, .zero⟩]⟩ [⟨(str% "customer_name"), .zero, .zero⟩, ⟨(str%
      "contract_name"), .zero, .zero⟩] (.subQuery (.mk .zero [] (.selectExpr (.mk false [(.wildcard .zero .zero)]
      [(.factor (.table ⟨[⟨(str% "customers2"), .zero, .zero⟩]⟩ none [] .zero [] .zero))] none [] none .zero)) []
      none)) []) =
    (str% "INSERT INTO customers (customer_name, contract_name) SELECT * FROM customers2") := by decide +kernel

/-- sqlast/stmt_test.go:117, "simple case" -/
example : text (
    .update .zero ⟨[⟨(str% "customers"), .zero, .zero⟩]⟩ [⟨⟨(str% "contract_name"), .zero, .zero⟩, (.singleQuoted
      .zero .zero (str% "Alfred Schmidt"))⟩, ⟨⟨(str% "city"), .zero, .zero⟩, (.singleQuoted .zero .zero
      (str% "Frankfurt"))⟩] (some (.binary (.ident ⟨(str% "customer_id"), .zero, .zero⟩) ⟨.Eq, .zero, .zero⟩ (.long
      ⟨.zero, .zero, 1⟩)))) =
    (str% "UPDATE customers SET contract_name = 'Alfred Schmidt', city = 'Frankfurt' WHERE customer_id = 1") := by decide +kernel

/-- sqlast/stmt_test.go:157, "simple case" -/
example : text (
    .delete .zero ⟨[⟨(str% "customers"), .zero, .zero⟩]⟩ (some (.binary (.ident ⟨(str% "customer_id"), .zero, .zero⟩)
      ⟨.Eq, .zero, .zero⟩ (.long ⟨.zero, .zero, 1⟩)))) =
    (str% "DELETE FROM customers WHERE customer_id = 1") := by decide +kernel

/-- sqlast/stmt_test.go:187, "simple case" -/
example : text (
    .createView .zero ⟨[⟨(str% "customers_view"), .zero, .zero⟩]⟩ (.mk .zero [] (.selectExpr (.mk false [(.unnamed
      (.ident ⟨(str% "customer_name"), .zero, .zero⟩)), (.unnamed (.ident ⟨(str% "contract_name"), .zero, .zero⟩))]
      [(.factor (.table ⟨[⟨(str% "customers"), .zero, .zero⟩]⟩ none [] .zero [] .zero))] (some (.binary (.ident
      ⟨(str% "country"), .zero, .zero⟩) ⟨.Eq, .zero, .zero⟩ (.singleQuoted .zero .zero (str% "Brazil")))) [] none
      .zero)) [] none) false) =
    (str% "CREATE VIEW customers_view AS SELECT customer_name, contract_name FROM customers WHERE country = 'Brazil'") := by decide +kernel

/-- sqlast/stmt_test.go:243, "simple case" -/
example : text (
    .createTable .zero ⟨[⟨(str% "persons"), .zero, .zero⟩]⟩ [.column ⟨⟨(str% "person_id"), .zero, .zero⟩, (.int .zero
      .zero false .zero), none, [], [⟨none, .zero, .unique true .zero .zero .zero⟩, ⟨none, .zero, .notNull .zero
      .zero⟩]⟩, .column ⟨⟨(str% "last_name"), .zero, .zero⟩, (.varchar (some 255) .zero .zero .zero), none, [],
      [⟨none, .zero, .notNull .zero .zero⟩]⟩, .column ⟨⟨(str% "test_id"), .zero, .zero⟩, (.int .zero .zero false
      .zero), none, [], [⟨none, .zero, .notNull .zero .zero⟩, ⟨none, .zero, .references .zero .zero ⟨[⟨(str% "test"),
      .zero, .zero⟩]⟩ [⟨(str% "id1"), .zero, .zero⟩, ⟨(str% "id2"), .zero, .zero⟩]⟩]⟩, .column ⟨⟨(str% "email"),
      .zero, .zero⟩, (.varchar (some 255) .zero .zero .zero), none, [], [⟨none, .zero, .unique false .zero .zero
      .zero⟩, ⟨none, .zero, .notNull .zero .zero⟩]⟩, .column ⟨⟨(str% "age"), .zero, .zero⟩, (.int .zero .zero false
      .zero), none, [], [⟨none, .zero, .notNull .zero .zero⟩, ⟨none, .zero, .check (.binary (.binary (.ident ⟨(str%
      "age"), .zero, .zero⟩) ⟨.Gt, .zero, .zero⟩ (.long ⟨.zero, .zero, 0⟩)) ⟨.And, .zero, .zero⟩ (.binary (.ident
      ⟨(str% "age"), .zero, .zero⟩) ⟨.Lt, .zero, .zero⟩ (.long ⟨.zero, .zero, 100⟩))) .zero .zero⟩]⟩, .column ⟨⟨(str%
      "created_at"), .zero, .zero⟩, (.timestamp false .zero .zero), (some (.ident ⟨(str% "CURRENT_TIMESTAMP"), .zero,
      .zero⟩)), [], [⟨none, .zero, .notNull .zero .zero⟩]⟩] false []) =
    (str% "CREATE TABLE persons (person_id int PRIMARY KEY NOT NULL, last_name character varying(255) NOT NULL, test_id int NOT NULL REFERENCES test(id1, id2), email character varying(255) UNIQUE NOT NULL, age int NOT NULL CHECK(age > 0 AND age < 100), created_at timestamp DEFAULT CURRENT_TIMESTAMP NOT NULL)") := by decide +kernel

/-- sqlast/stmt_test.go:348, "with table constraint" -/
example : text (
    .createTable .zero ⟨[⟨(str% "persons"), .zero, .zero⟩]⟩ [.column ⟨⟨(str% "person_id"), .zero, .zero⟩, (.int .zero
      .zero false .zero), none, [], []⟩, .constraint ⟨.zero, (some ⟨(str% "production"), .zero, .zero⟩), .unique
      false .zero .zero .zero [⟨(str% "test_column"), .zero, .zero⟩]⟩, .constraint ⟨.zero, none, .unique true .zero
      .zero .zero [⟨(str% "person_id"), .zero, .zero⟩]⟩, .constraint ⟨.zero, none, .check .zero .zero (.binary
      (.ident ⟨(str% "id"), .zero, .zero⟩) ⟨.Gt, .zero, .zero⟩ (.long ⟨.zero, .zero, 100⟩))⟩, .constraint ⟨.zero,
      none, .referential .zero [⟨(str% "test_id"), .zero, .zero⟩] ⟨⟨(str% "other_table"), .zero, .zero⟩, [⟨(str%
      "col1"), .zero, .zero⟩, ⟨(str% "col2"), .zero, .zero⟩], .zero⟩⟩] false []) =
    (str% "CREATE TABLE persons (person_id int, CONSTRAINT production UNIQUE(test_column), PRIMARY KEY(person_id), CHECK(id > 100), FOREIGN KEY(test_id) REFERENCES other_table(col1, col2))") := by decide +kernel

/-- sqlast/stmt_test.go:397, "NotExists" -/
example : text (
    .createTable .zero ⟨[⟨(str% "persons"), .zero, .zero⟩]⟩ [.column ⟨⟨(str% "person_id"), .zero, .zero⟩, (.int .zero
      .zero false .zero), none, [], [⟨none, .zero, .unique true .zero .zero .zero⟩, ⟨none, .zero, .notNull .zero
      .zero⟩]⟩, .column ⟨⟨(str% "last_name"), .zero, .zero⟩, (.varchar (some 255) .zero .zero .zero), none, [],
      [⟨none, .zero, .notNull .zero .zero⟩]⟩, .column ⟨⟨(str% "created_at"), .zero, .zero⟩, (.timestamp false .zero
      .zero), (some (.ident ⟨(str% "CURRENT_TIMESTAMP"), .zero, .zero⟩)), [], [⟨none, .zero, .notNull .zero .zero⟩]⟩]
      true []) =
    (str% "CREATE TABLE IF NOT EXISTS persons (person_id int PRIMARY KEY NOT NULL, last_name character varying(255) NOT NULL, created_at timestamp DEFAULT CURRENT_TIMESTAMP NOT NULL)") := by decide +kernel

/-- sqlast/stmt_test.go:463, "add column" -/
example : text (
    .alterTable .zero ⟨[⟨(str% "customers"), .zero, .zero⟩]⟩ (.addColumn .zero ⟨⟨(str% "email"), .zero, .zero⟩,
      (.varchar (some 255) .zero .zero .zero), none, [], []⟩)) =
    (str% "ALTER TABLE customers ADD COLUMN email character varying(255)") := by decide +kernel

/-- sqlast/stmt_test.go:479, "add column over uint8" -/
example : text (
    .alterTable .zero ⟨[⟨(str% "customers"), .zero, .zero⟩]⟩ (.addColumn .zero ⟨⟨(str% "email"), .zero, .zero⟩,
      (.varchar (some 256) .zero .zero .zero), none, [], []⟩)) =
    (str% "ALTER TABLE customers ADD COLUMN email character varying(256)") := by decide +kernel

/-- sqlast/stmt_test.go:495, "remove column" -/
example : text (
    .alterTable .zero ⟨[⟨(str% "products"), .zero, .zero⟩]⟩ (.removeColumn ⟨(str% "description"), .zero, .zero⟩ true
      .zero .zero)) =
    (str% "ALTER TABLE products DROP COLUMN description CASCADE") := by decide +kernel

/-- sqlast/stmt_test.go:507, "add constraint" -/
example : text (
    .alterTable .zero ⟨[⟨(str% "products"), .zero, .zero⟩]⟩ (.addConstraint .zero ⟨.zero, none, .referential .zero
      [⟨(str% "test_id"), .zero, .zero⟩] ⟨⟨(str% "other_table"), .zero, .zero⟩, [⟨(str% "col1"), .zero, .zero⟩,
      ⟨(str% "col2"), .zero, .zero⟩], .zero⟩⟩)) =
    (str% "ALTER TABLE products ADD FOREIGN KEY(test_id) REFERENCES other_table(col1, col2)") := by decide +kernel

/-- sqlast/stmt_test.go:526, "alter column" -/
example : text (
    .alterTable .zero ⟨[⟨(str% "products"), .zero, .zero⟩]⟩ (.alterColumn ⟨(str% "created_at"), .zero, .zero⟩ .zero
      (.setDefault .zero (.ident ⟨(str% "current_timestamp"), .zero, .zero⟩)))) =
    (str% "ALTER TABLE products ALTER COLUMN created_at SET DEFAULT current_timestamp") := by decide +kernel

/-- sqlast/stmt_test.go:540, "pg change type" -/
example : text (
    .alterTable .zero ⟨[⟨(str% "products"), .zero, .zero⟩]⟩ (.alterColumn ⟨(str% "number"), .zero, .zero⟩ .zero
      (.pgAlterDataType .zero (.decimal (some 255) (some 10) .zero .zero false .zero)))) =
    (str% "ALTER TABLE products ALTER COLUMN number TYPE numeric(255,10)") := by decide +kernel

/-- sqlast/stmt_test.go:575, "create index" -/
example : text (
    .createIndex .zero ⟨[⟨(str% "customers"), .zero, .zero⟩]⟩ false none none [⟨(str% "name"), .zero, .zero⟩] .zero
      none) =
    (str% "CREATE INDEX ON customers (name)") := by decide +kernel

/-- sqlast/stmt_test.go:583, "create unique index" -/
example : text (
    .createIndex .zero ⟨[⟨(str% "customers"), .zero, .zero⟩]⟩ true none none [⟨(str% "name"), .zero, .zero⟩] .zero
      none) =
    (str% "CREATE UNIQUE INDEX ON customers (name)") := by decide +kernel

/-- sqlast/stmt_test.go:592, "create index with name" -/
example : text (
    .createIndex .zero ⟨[⟨(str% "customers"), .zero, .zero⟩]⟩ true (some ⟨(str% "customers_idx"), .zero, .zero⟩) none
      [⟨(str% "name"), .zero, .zero⟩, ⟨(str% "email"), .zero, .zero⟩] .zero none) =
    (str% "CREATE UNIQUE INDEX customers_idx ON customers (name, email)") := by decide +kernel

/-- sqlast/stmt_test.go:602, "create index with name" -/
example : text (
    .createIndex .zero ⟨[⟨(str% "customers"), .zero, .zero⟩]⟩ true (some ⟨(str% "customers_idx"), .zero, .zero⟩)
      (some ⟨(str% "gist"), .zero, .zero⟩) [⟨(str% "name"), .zero, .zero⟩] .zero none) =
    (str% "CREATE UNIQUE INDEX customers_idx ON customers USING gist (name)") := by decide +kernel

/-- sqlast/stmt_test.go:613, "create partial index with name" -/
example : text (
    .createIndex .zero ⟨[⟨(str% "customers"), .zero, .zero⟩]⟩ true (some ⟨(str% "customers_idx"), .zero, .zero⟩)
      (some ⟨(str% "gist"), .zero, .zero⟩) [⟨(str% "name"), .zero, .zero⟩] .zero (some (.binary (.ident ⟨(str%
      "name"), .zero, .zero⟩) ⟨.Eq, .zero, .zero⟩ (.singleQuoted .zero .zero (str% "test"))))) =
    (str% "CREATE UNIQUE INDEX customers_idx ON customers USING gist (name) WHERE name = 'test'") := by decide +kernel

end Verif.RepoTests
