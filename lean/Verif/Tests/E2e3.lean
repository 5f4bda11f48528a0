import Verif.Tests.Tree
/-
Cases of e2e/e2e_test.go and e2e/astutil_test.go: the files of e2e/testdata (see `again` in Verif/Tests/Tree.lean).

These are tests of the model, not theorems about it: they show that on these inputs the model computes what the
authors of the code expect of the code.  Inputs and expected results are those of the test files, translated field by
field; a field that a Go literal leaves out has the zero value.
-/
namespace Verif.RepoTests

/-- e2e/testdata/alter/drop_default.sql -/
example : again
    (str% "ALTER TABLE test1 ALTER COLUMN NAME DROP DEFAULT;") = some
    ((str% "ALTER TABLE test1 ALTER COLUMN NAME DROP DEFAULT"), true) ∧
    again
    (str% "ALTER TABLE test1 ALTER COLUMN NAME DROP DEFAULT") = some
    ((str% "ALTER TABLE test1 ALTER COLUMN NAME DROP DEFAULT"), true) := by
  refine ⟨?_, ?_⟩ <;> decide +kernel

/-- e2e/testdata/alter/edit_type.sql -/
example : again
    (str% "ALTER TABLE test1 ALTER COLUMN NAME TYPE TEXT;") = some
    ((str% "ALTER TABLE test1 ALTER COLUMN NAME TYPE text"), true) ∧
    again
    (str% "ALTER TABLE test1 ALTER COLUMN NAME TYPE text") = some
    ((str% "ALTER TABLE test1 ALTER COLUMN NAME TYPE text"), true) := by
  refine ⟨?_, ?_⟩ <;> decide +kernel

/-- e2e/testdata/create_index/partial_index.sql -/
example : again
    (str% "CREATE UNIQUE INDEX customers_idx ON customers USING gist (name) WHERE name = 'test';") = some
    ((str% "CREATE UNIQUE INDEX customers_idx ON customers USING gist (name) WHERE name = 'test'"), true) ∧
    again
    (str% "CREATE UNIQUE INDEX customers_idx ON customers USING gist (name) WHERE name = 'test'") = some
    ((str% "CREATE UNIQUE INDEX customers_idx ON customers USING gist (name) WHERE name = 'test'"), true) := by
  refine ⟨?_, ?_⟩ <;> decide +kernel

/-- e2e/testdata/create_table/my_create.sql.  The second table option is lost on the way. -/
example : again
    (str% "-- from https://github.com/isucon/isucon8-qualify/blob/master/db/schema.sql\n\nCREATE TABLE IF NOT EXISTS users (\n    id          INTEGER UNSIGNED PRIMARY KEY AUTO_INCREMENT,\n    nickname    VARCHAR(128) NOT NULL,\n    login_name  VARCHAR(128) NOT NULL,\n    pass_hash   VARCHAR(128) NOT NULL\n) ENGINE=InnoDB DEFAULT CHARSET utf8mb4;\n") = some
    ((str% "CREATE TABLE IF NOT EXISTS users (id int unsigned AUTO_INCREMENT PRIMARY KEY, nickname character varying(128) NOT NULL, login_name character varying(128) NOT NULL, pass_hash character varying(128) NOT NULL)ENGINE = InnoDB, DEFAULT CHARSET utf8mb4"), true) ∧
    again
    (str% "CREATE TABLE IF NOT EXISTS users (id int unsigned AUTO_INCREMENT PRIMARY KEY, nickname character varying(128) NOT NULL, login_name character varying(128) NOT NULL, pass_hash character varying(128) NOT NULL)ENGINE = InnoDB, DEFAULT CHARSET utf8mb4") = some
    ((str% "CREATE TABLE IF NOT EXISTS users (id int unsigned AUTO_INCREMENT PRIMARY KEY, nickname character varying(128) NOT NULL, login_name character varying(128) NOT NULL, pass_hash character varying(128) NOT NULL)ENGINE = InnoDB"), true) ∧
    again
    (str% "CREATE TABLE IF NOT EXISTS users (id int unsigned AUTO_INCREMENT PRIMARY KEY, nickname character varying(128) NOT NULL, login_name character varying(128) NOT NULL, pass_hash character varying(128) NOT NULL)ENGINE = InnoDB") = some
    ((str% "CREATE TABLE IF NOT EXISTS users (id int unsigned AUTO_INCREMENT PRIMARY KEY, nickname character varying(128) NOT NULL, login_name character varying(128) NOT NULL, pass_hash character varying(128) NOT NULL)ENGINE = InnoDB"), true) := by
  refine ⟨?_, ?_, ?_⟩ <;> decide +kernel

/-- e2e/testdata/drop_index/drop.sql -/
example : again
    (str% "DROP INDEX title_idx,title_idx2,title_idx3;") = some
    ((str% "DROP INDEX title_idx, title_idx2, title_idx3"), true) ∧
    again
    (str% "DROP INDEX title_idx, title_idx2, title_idx3") = some
    ((str% "DROP INDEX title_idx, title_idx2, title_idx3"), true) := by
  refine ⟨?_, ?_⟩ <;> decide +kernel

/-- e2e/testdata/drop_table/drop_table.sql -/
example : again
    (str% "DROP TABLE IF EXISTS TEST CASCADE;") = some
    ((str% "DROP TABLE IF EXISTS TEST CASCADE"), true) ∧
    again
    (str% "DROP TABLE IF EXISTS TEST CASCADE") = some
    ((str% "DROP TABLE IF EXISTS TEST CASCADE"), true) := by
  refine ⟨?_, ?_⟩ <;> decide +kernel

/-- e2e/testdata/insert/simple.sql -/
example : again
    (str% "-- from https://dev.mysql.com/doc/refman/8.0/en/insert.html\nINSERT INTO tbl_name (col1,col2) VALUES(15,col1*2);") = some
    ((str% "INSERT INTO tbl_name (col1, col2) VALUES (15, col1 * 2)"), true) ∧
    again
    (str% "INSERT INTO tbl_name (col1, col2) VALUES (15, col1 * 2)") = some
    ((str% "INSERT INTO tbl_name (col1, col2) VALUES (15, col1 * 2)"), true) := by
  refine ⟨?_, ?_⟩ <;> decide +kernel

/-- e2e/testdata/select/distinct.sql -/
example : again
    (str% "SELECT Count(*) AS DistinctCountries\nFROM (SELECT DISTINCT Country FROM Customers);\n") = some
    ((str% "SELECT Count(*) AS DistinctCountries FROM (SELECT DISTINCT Country FROM Customers)"), true) ∧
    again
    (str% "SELECT Count(*) AS DistinctCountries FROM (SELECT DISTINCT Country FROM Customers)") = some
    ((str% "SELECT Count(*) AS DistinctCountries FROM (SELECT DISTINCT Country FROM Customers)"), true) := by
  refine ⟨?_, ?_⟩ <;> decide +kernel

/-- e2e/testdata/select/having_orderby.sql -/
example : again
    (str% "SELECT COUNT(CustomerID), Country\nFROM Customers\nGROUP BY Country\nHAVING COUNT(CustomerID) > 5\nORDER BY COUNT(CustomerID) DESC;") = some
    ((str% "SELECT COUNT(CustomerID), Country FROM Customers GROUP BY Country HAVING COUNT(CustomerID) > 5 ORDER BY COUNT(CustomerID) DESC"), true) ∧
    again
    (str% "SELECT COUNT(CustomerID), Country FROM Customers GROUP BY Country HAVING COUNT(CustomerID) > 5 ORDER BY COUNT(CustomerID) DESC") = some
    ((str% "SELECT COUNT(CustomerID), Country FROM Customers GROUP BY Country HAVING COUNT(CustomerID) > 5 ORDER BY COUNT(CustomerID) DESC"), true) := by
  refine ⟨?_, ?_⟩ <;> decide +kernel

/-- e2e/testdata/select/left_join.sql -/
example : again
    (str% "SELECT Customers.CustomerName, Orders.OrderID\nFROM Customers\nLEFT JOIN Orders\nON Customers.CustomerID=Orders.CustomerID\nORDER BY Customers.CustomerName;\n") = some
    ((str% "SELECT Customers.CustomerName, Orders.OrderID FROM Customers LEFT JOIN Orders ON Customers.CustomerID = Orders.CustomerID ORDER BY Customers.CustomerName"), true) ∧
    again
    (str% "SELECT Customers.CustomerName, Orders.OrderID FROM Customers LEFT JOIN Orders ON Customers.CustomerID = Orders.CustomerID ORDER BY Customers.CustomerName") = some
    ((str% "SELECT Customers.CustomerName, Orders.OrderID FROM Customers LEFT JOIN Orders ON Customers.CustomerID = Orders.CustomerID ORDER BY Customers.CustomerName"), true) := by
  refine ⟨?_, ?_⟩ <;> decide +kernel

/-- e2e/testdata/select/moving_average.sql -/
example : again
    (str% "-- from https://support.treasuredata.com/hc/ja/articles/216392117-Window-%E9%96%A2%E6%95%B0%E3%82%92%E4%BD%BF%E3%81%84%E3%81%93%E3%81%AA%E3%81%99-%E9%9B%86%E7%B4%84%E9%96%A2%E6%95%B0%E7%B3%BB-\nSELECT m, d, goods_id, sales, AVG(sales) OVER (PARTITION BY goods_id,m ORDER BY d ASC ROWS BETWEEN 4 PRECEDING AND CURRENT ROW) as sales_moving_avg\nFROM\n(\n  SELECT\n    TD_TIME_FORMAT(time,'yyyy-MM-dd','JST') AS d, TD_TIME_FORMAT(time,'yyyy-MM','JST') AS m, goods_id, SUM(price*amount) AS sales\n  FROM  sales_slip\n  GROUP BY TD_TIME_FORMAT(time,'yyyy-MM-dd','JST'), TD_TIME_FORMAT(time,'yyyy-MM','JST'), goods_id\n) t\nORDER BY goods_id, m, d") = some
    ((str% "SELECT m, d, goods_id, sales, AVG(sales) OVER (PARTITION BY goods_id, m ORDER BY d ASC ROWS BETWEEN 4 PRECEDING AND CURRENT ROW) AS sales_moving_avg FROM (SELECT TD_TIME_FORMAT(time, 'yyyy-MM-dd', 'JST') AS d, TD_TIME_FORMAT(time, 'yyyy-MM', 'JST') AS m, goods_id, SUM(price * amount) AS sales FROM sales_slip GROUP BY TD_TIME_FORMAT(time, 'yyyy-MM-dd', 'JST'), TD_TIME_FORMAT(time, 'yyyy-MM', 'JST'), goods_id) AS t ORDER BY goods_id, m, d"), true) ∧
    again
    (str% "SELECT m, d, goods_id, sales, AVG(sales) OVER (PARTITION BY goods_id, m ORDER BY d ASC ROWS BETWEEN 4 PRECEDING AND CURRENT ROW) AS sales_moving_avg FROM (SELECT TD_TIME_FORMAT(time, 'yyyy-MM-dd', 'JST') AS d, TD_TIME_FORMAT(time, 'yyyy-MM', 'JST') AS m, goods_id, SUM(price * amount) AS sales FROM sales_slip GROUP BY TD_TIME_FORMAT(time, 'yyyy-MM-dd', 'JST'), TD_TIME_FORMAT(time, 'yyyy-MM', 'JST'), goods_id) AS t ORDER BY goods_id, m, d") = some
    ((str% "SELECT m, d, goods_id, sales, AVG(sales) OVER (PARTITION BY goods_id, m ORDER BY d ASC ROWS BETWEEN 4 PRECEDING AND CURRENT ROW) AS sales_moving_avg FROM (SELECT TD_TIME_FORMAT(time, 'yyyy-MM-dd', 'JST') AS d, TD_TIME_FORMAT(time, 'yyyy-MM', 'JST') AS m, goods_id, SUM(price * amount) AS sales FROM sales_slip GROUP BY TD_TIME_FORMAT(time, 'yyyy-MM-dd', 'JST'), TD_TIME_FORMAT(time, 'yyyy-MM', 'JST'), goods_id) AS t ORDER BY goods_id, m, d"), true) := by
  refine ⟨?_, ?_⟩ <;> decide +kernel

/-- e2e/testdata/select/right_join.sql -/
example : again
    (str% "SELECT Orders.OrderID, Employees.LastName, Employees.FirstName\nFROM Orders\nRIGHT JOIN Employees\nON Orders.EmployeeID = Employees.EmployeeID\nORDER BY Orders.OrderID;\n") = some
    ((str% "SELECT Orders.OrderID, Employees.LastName, Employees.FirstName FROM Orders RIGHT JOIN Employees ON Orders.EmployeeID = Employees.EmployeeID ORDER BY Orders.OrderID"), true) ∧
    again
    (str% "SELECT Orders.OrderID, Employees.LastName, Employees.FirstName FROM Orders RIGHT JOIN Employees ON Orders.EmployeeID = Employees.EmployeeID ORDER BY Orders.OrderID") = some
    ((str% "SELECT Orders.OrderID, Employees.LastName, Employees.FirstName FROM Orders RIGHT JOIN Employees ON Orders.EmployeeID = Employees.EmployeeID ORDER BY Orders.OrderID"), true) := by
  refine ⟨?_, ?_⟩ <;> decide +kernel

/-- e2e/testdata/select/sql_between.sql -/
example : again
    (str% "SELECT a, SUM(b) OVER (PARTITION BY c ORDER BY d ROWS BETWEEN UNBOUNDED PRECEDING AND CURRENT ROW)\nFROM T;") = some
    ((str% "SELECT a, SUM(b) OVER (PARTITION BY c ORDER BY d ROWS BETWEEN UNBOUNDED PRECEDING AND CURRENT ROW) FROM T"), true) ∧
    again
    (str% "SELECT a, SUM(b) OVER (PARTITION BY c ORDER BY d ROWS BETWEEN UNBOUNDED PRECEDING AND CURRENT ROW) FROM T") = some
    ((str% "SELECT a, SUM(b) OVER (PARTITION BY c ORDER BY d ROWS BETWEEN UNBOUNDED PRECEDING AND CURRENT ROW) FROM T"), true) := by
  refine ⟨?_, ?_⟩ <;> decide +kernel

/-- e2e/testdata/select/where_and_or.sql -/
example : again
    (str% "SELECT * FROM Customers\nWHERE Country='Germany' AND (City='Berlin' OR City='München');\n") = some
    ((str% "SELECT * FROM Customers WHERE Country = 'Germany' AND (City = 'Berlin' OR City = 'München')"), true) ∧
    again
    (str% "SELECT * FROM Customers WHERE Country = 'Germany' AND (City = 'Berlin' OR City = 'München')") = some
    ((str% "SELECT * FROM Customers WHERE Country = 'Germany' AND (City = 'Berlin' OR City = 'München')"), true) := by
  refine ⟨?_, ?_⟩ <;> decide +kernel

end Verif.RepoTests
