import Verif.Tests.Tree
/-
Cases of e2e/e2e_test.go and e2e/astutil_test.go: the files of e2e/testdata (see `again` in Verif/Tests/Tree.lean).

These are tests of the model, not theorems about it: they show that on these inputs the model computes what the
authors of the code expect of the code.  Inputs and expected results are those of the test files, translated field by
field; a field that a Go literal leaves out has the zero value.
-/
namespace Verif.RepoTests

/-- e2e/testdata/alter/drop_column.sql -/
example : again
    (str% "ALTER TABLE TEST1 DROP COLUMN name;") = some
    ((str% "ALTER TABLE TEST1 DROP COLUMN name"), true) ∧
    again
    (str% "ALTER TABLE TEST1 DROP COLUMN name") = some
    ((str% "ALTER TABLE TEST1 DROP COLUMN name"), true) := by
  refine ⟨?_, ?_⟩ <;> decide +kernel

/-- e2e/testdata/alter/drop_not_null.sql -/
example : again
    (str% "ALTER TABLE test1 ALTER COLUMN NAME DROP NOT NULL;") = some
    ((str% "ALTER TABLE test1 ALTER COLUMN NAME DROP NOT NULL"), true) ∧
    again
    (str% "ALTER TABLE test1 ALTER COLUMN NAME DROP NOT NULL") = some
    ((str% "ALTER TABLE test1 ALTER COLUMN NAME DROP NOT NULL"), true) := by
  refine ⟨?_, ?_⟩ <;> decide +kernel

/-- e2e/testdata/alter/set_not_null.sql -/
example : again
    (str% "ALTER TABLE test1 ALTER COLUMN NAME SET NOT NULL;") = some
    ((str% "ALTER TABLE test1 ALTER COLUMN NAME SET NOT NULL"), true) ∧
    again
    (str% "ALTER TABLE test1 ALTER COLUMN NAME SET NOT NULL") = some
    ((str% "ALTER TABLE test1 ALTER COLUMN NAME SET NOT NULL"), true) := by
  refine ⟨?_, ?_⟩ <;> decide +kernel

/-- e2e/testdata/create_index/using_index.sql -/
example : again
    (str% "CREATE UNIQUE INDEX customers_idx ON customers (name, email);") = some
    ((str% "CREATE UNIQUE INDEX customers_idx ON customers (name, email)"), true) ∧
    again
    (str% "CREATE UNIQUE INDEX customers_idx ON customers (name, email)") = some
    ((str% "CREATE UNIQUE INDEX customers_idx ON customers (name, email)"), true) := by
  refine ⟨?_, ?_⟩ <;> decide +kernel

/-- e2e/testdata/create_table/pg_dump.sql -/
example : again
    (str% "CREATE TABLE public.version (\n    version_id uuid DEFAULT public.uuid_generate_v4() NOT NULL,\n    project_id uuid NOT NULL,\n    name character varying(256) NOT NULL,\n    created_at timestamp without time zone DEFAULT now() NOT NULL\n);") = some
    ((str% "CREATE TABLE public.version (version_id uuid DEFAULT public.uuid_generate_v4() NOT NULL, project_id uuid NOT NULL, name character varying(256) NOT NULL, created_at timestamp DEFAULT now() NOT NULL)"), true) ∧
    again
    (str% "CREATE TABLE public.version (version_id uuid DEFAULT public.uuid_generate_v4() NOT NULL, project_id uuid NOT NULL, name character varying(256) NOT NULL, created_at timestamp DEFAULT now() NOT NULL)") = some
    ((str% "CREATE TABLE public.version (version_id uuid DEFAULT public.uuid_generate_v4() NOT NULL, project_id uuid NOT NULL, name character varying(256) NOT NULL, created_at timestamp DEFAULT now() NOT NULL)"), true) := by
  refine ⟨?_, ?_⟩ <;> decide +kernel

/-- e2e/testdata/drop_index/single.sql -/
example : again
    (str% "DROP INDEX title_idx;") = some
    ((str% "DROP INDEX title_idx"), true) ∧
    again
    (str% "DROP INDEX title_idx") = some
    ((str% "DROP INDEX title_idx"), true) := by
  refine ⟨?_, ?_⟩ <;> decide +kernel

/-- e2e/testdata/insert/on_duplicate_key.sql -/
example : again
    (str% "-- from: https://dev.mysql.com/doc/refman/8.0/en/insert-on-duplicate.html\nINSERT INTO t1 (a,b,c) VALUES (1,2,3) ON DUPLICATE KEY UPDATE c=c+1;\n") = some
    ((str% "INSERT INTO t1 (a, b, c) VALUES (1, 2, 3) ON DUPLICATE KEY UPDATE c = c + 1"), true) ∧
    again
    (str% "INSERT INTO t1 (a, b, c) VALUES (1, 2, 3) ON DUPLICATE KEY UPDATE c = c + 1") = some
    ((str% "INSERT INTO t1 (a, b, c) VALUES (1, 2, 3) ON DUPLICATE KEY UPDATE c = c + 1"), true) := by
  refine ⟨?_, ?_⟩ <;> decide +kernel

/-- e2e/testdata/select/between_in.sql -/
example : again
    (str% "SELECT * FROM Products\nWHERE Price BETWEEN 10 AND 20\nAND NOT CategoryID IN (1,2,3);") = some
    ((str% "SELECT * FROM Products WHERE Price BETWEEN 10 AND 20 AND NOT CategoryID IN (1, 2, 3)"), true) ∧
    again
    (str% "SELECT * FROM Products WHERE Price BETWEEN 10 AND 20 AND NOT CategoryID IN (1, 2, 3)") = some
    ((str% "SELECT * FROM Products WHERE Price BETWEEN 10 AND 20 AND NOT CategoryID IN (1, 2, 3)"), true) := by
  refine ⟨?_, ?_⟩ <;> decide +kernel

/-- e2e/testdata/select/group_by_join.sql -/
example : again
    (str% "SELECT Shippers.ShipperName,COUNT(Orders.OrderID) AS NumberOfOrders FROM Orders\nLEFT JOIN Shippers ON Orders.ShipperID = Shippers.ShipperID\nGROUP BY ShipperName;\n") = some
    ((str% "SELECT Shippers.ShipperName, COUNT(Orders.OrderID) AS NumberOfOrders FROM Orders LEFT JOIN Shippers ON Orders.ShipperID = Shippers.ShipperID GROUP BY ShipperName"), true) ∧
    again
    (str% "SELECT Shippers.ShipperName, COUNT(Orders.OrderID) AS NumberOfOrders FROM Orders LEFT JOIN Shippers ON Orders.ShipperID = Shippers.ShipperID GROUP BY ShipperName") = some
    ((str% "SELECT Shippers.ShipperName, COUNT(Orders.OrderID) AS NumberOfOrders FROM Orders LEFT JOIN Shippers ON Orders.ShipperID = Shippers.ShipperID GROUP BY ShipperName"), true) := by
  refine ⟨?_, ?_⟩ <;> decide +kernel

/-- e2e/testdata/select/lateral_join.sql -/
example : again
    (str% "SELECT n.id, n.name, t.max, t.min FROM node n,\n    LATERAL (\n        SELECT max(usage) as max, min(usage) as min\n        FROM node_mon m\n        WHERE m.id = n.id\n    ) t;\n") = some
    ((str% "SELECT n.id, n.name, t.max, t.min FROM node AS n, LATERAL (SELECT max(usage) AS max, min(usage) AS min FROM node_mon AS m WHERE m.id = n.id) AS t"), true) ∧
    again
    (str% "SELECT n.id, n.name, t.max, t.min FROM node AS n, LATERAL (SELECT max(usage) AS max, min(usage) AS min FROM node_mon AS m WHERE m.id = n.id) AS t") = some
    ((str% "SELECT n.id, n.name, t.max, t.min FROM node AS n, LATERAL (SELECT max(usage) AS max, min(usage) AS min FROM node_mon AS m WHERE m.id = n.id) AS t"), true) := by
  refine ⟨?_, ?_⟩ <;> decide +kernel

/-- e2e/testdata/select/limit_and_offset.sql -/
example : again
    (str% "SELECT product, SUM(quantity) AS product_units FROM orders\n\tWHERE region IN (SELECT region FROM top_regions)\n\tORDER BY product_units LIMIT 100 OFFSET 20;") = some
    ((str% "SELECT product, SUM(quantity) AS product_units FROM orders WHERE region IN (SELECT region FROM top_regions) ORDER BY product_units LIMIT 100 OFFSET 20"), true) ∧
    again
    (str% "SELECT product, SUM(quantity) AS product_units FROM orders WHERE region IN (SELECT region FROM top_regions) ORDER BY product_units LIMIT 100 OFFSET 20") = some
    ((str% "SELECT product, SUM(quantity) AS product_units FROM orders WHERE region IN (SELECT region FROM top_regions) ORDER BY product_units LIMIT 100 OFFSET 20"), true) := by
  refine ⟨?_, ?_⟩ <;> decide +kernel

/-- e2e/testdata/select/multi_table.sql -/
example : again
    (str% "SELECT * FROM Customers, Items, Blogs\nWHERE ContactName LIKE 'a%o';") = some
    ((str% "SELECT * FROM Customers, Items, Blogs WHERE ContactName LIKE 'a%o'"), true) ∧
    again
    (str% "SELECT * FROM Customers, Items, Blogs WHERE ContactName LIKE 'a%o'") = some
    ((str% "SELECT * FROM Customers, Items, Blogs WHERE ContactName LIKE 'a%o'"), true) := by
  refine ⟨?_, ?_⟩ <;> decide +kernel

/-- e2e/testdata/select/notin.sql -/
example : again
    (str% "SELECT * FROM Customers\nWHERE Country NOT IN ('Germany', 'France', 'UK');") = some
    ((str% "SELECT * FROM Customers WHERE Country NOT IN ('Germany', 'France', 'UK')"), true) ∧
    again
    (str% "SELECT * FROM Customers WHERE Country NOT IN ('Germany', 'France', 'UK')") = some
    ((str% "SELECT * FROM Customers WHERE Country NOT IN ('Germany', 'France', 'UK')"), true) := by
  refine ⟨?_, ?_⟩ <;> decide +kernel

/-- e2e/testdata/select/running_sum.sql -/
example : again
    (str% "-- from https://support.treasuredata.com/hc/ja/articles/216392117-Window-%E9%96%A2%E6%95%B0%E3%82%92%E4%BD%BF%E3%81%84%E3%81%93%E3%81%AA%E3%81%99-%E9%9B%86%E7%B4%84%E9%96%A2%E6%95%B0%E7%B3%BB-\nSELECT m, d, goods_id, sales, SUM(sales) OVER (PARTITION BY goods_id,m ORDER BY d ASC ROWS BETWEEN UNBOUNDED PRECEDING AND CURRENT ROW) as sales_running_sum\nFROM\n(\n  SELECT\n    TD_TIME_FORMAT(time,'yyyy-MM-dd','JST') AS d, TD_TIME_FORMAT(time,'yyyy-MM','JST') AS m, goods_id, SUM(price*amount) AS sales\n  FROM  sales_slip\n  GROUP BY TD_TIME_FORMAT(time,'yyyy-MM-dd','JST'), TD_TIME_FORMAT(time,'yyyy-MM','JST'), goods_id\n) t\nORDER BY goods_id, m, d") = some
    ((str% "SELECT m, d, goods_id, sales, SUM(sales) OVER (PARTITION BY goods_id, m ORDER BY d ASC ROWS BETWEEN UNBOUNDED PRECEDING AND CURRENT ROW) AS sales_running_sum FROM (SELECT TD_TIME_FORMAT(time, 'yyyy-MM-dd', 'JST') AS d, TD_TIME_FORMAT(time, 'yyyy-MM', 'JST') AS m, goods_id, SUM(price * amount) AS sales FROM sales_slip GROUP BY TD_TIME_FORMAT(time, 'yyyy-MM-dd', 'JST'), TD_TIME_FORMAT(time, 'yyyy-MM', 'JST'), goods_id) AS t ORDER BY goods_id, m, d"), true) ∧
    again
    (str% "SELECT m, d, goods_id, sales, SUM(sales) OVER (PARTITION BY goods_id, m ORDER BY d ASC ROWS BETWEEN UNBOUNDED PRECEDING AND CURRENT ROW) AS sales_running_sum FROM (SELECT TD_TIME_FORMAT(time, 'yyyy-MM-dd', 'JST') AS d, TD_TIME_FORMAT(time, 'yyyy-MM', 'JST') AS m, goods_id, SUM(price * amount) AS sales FROM sales_slip GROUP BY TD_TIME_FORMAT(time, 'yyyy-MM-dd', 'JST'), TD_TIME_FORMAT(time, 'yyyy-MM', 'JST'), goods_id) AS t ORDER BY goods_id, m, d") = some
    ((str% "SELECT m, d, goods_id, sales, SUM(sales) OVER (PARTITION BY goods_id, m ORDER BY d ASC ROWS BETWEEN UNBOUNDED PRECEDING AND CURRENT ROW) AS sales_running_sum FROM (SELECT TD_TIME_FORMAT(time, 'yyyy-MM-dd', 'JST') AS d, TD_TIME_FORMAT(time, 'yyyy-MM', 'JST') AS m, goods_id, SUM(price * amount) AS sales FROM sales_slip GROUP BY TD_TIME_FORMAT(time, 'yyyy-MM-dd', 'JST'), TD_TIME_FORMAT(time, 'yyyy-MM', 'JST'), goods_id) AS t ORDER BY goods_id, m, d"), true) := by
  refine ⟨?_, ?_⟩ <;> decide +kernel

/-- e2e/testdata/select/window.sql -/
example : again
    (str% "-- from https://mode.com/sql-tutorial/sql-window-functions/\nSELECT start_terminal,\n       duration_seconds,\n       SUM(duration_seconds) OVER\n         (PARTITION BY start_terminal ORDER BY start_time)\n         AS running_total\n  FROM tutorial.dc_bikeshare_q1_2012\n WHERE start_time < '2012-01-08'") = some
    ((str% "SELECT start_terminal, duration_seconds, SUM(duration_seconds) OVER (PARTITION BY start_terminal ORDER BY start_time) AS running_total FROM tutorial.dc_bikeshare_q1_2012 WHERE start_time < '2012-01-08'"), true) ∧
    again
    (str% "SELECT start_terminal, duration_seconds, SUM(duration_seconds) OVER (PARTITION BY start_terminal ORDER BY start_time) AS running_total FROM tutorial.dc_bikeshare_q1_2012 WHERE start_time < '2012-01-08'") = some
    ((str% "SELECT start_terminal, duration_seconds, SUM(duration_seconds) OVER (PARTITION BY start_terminal ORDER BY start_time) AS running_total FROM tutorial.dc_bikeshare_q1_2012 WHERE start_time < '2012-01-08'"), true) := by
  refine ⟨?_, ?_⟩ <;> decide +kernel

end Verif.RepoTests
