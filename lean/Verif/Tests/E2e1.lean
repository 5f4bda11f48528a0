import Verif.Tests.Tree
/-
Cases of e2e/e2e_test.go and e2e/astutil_test.go: the files of e2e/testdata (see `again` in Verif/Tests/Tree.lean).

These are tests of the model, not theorems about it: they show that on these inputs the model computes what the
authors of the code expect of the code.  Inputs and expected results are those of the test files, translated field by
field; a field that a Go literal leaves out has the zero value.
-/
namespace Verif.RepoTests

/-- e2e/testdata/alter/add_column.sql -/
example : again
    (str% "ALTER TABLE test1 ADD COLUMN NAME VARCHAR NOT NULL;") = some
    ((str% "ALTER TABLE test1 ADD COLUMN NAME character varying NOT NULL"), true) ∧
    again
    (str% "ALTER TABLE test1 ADD COLUMN NAME character varying NOT NULL") = some
    ((str% "ALTER TABLE test1 ADD COLUMN NAME character varying NOT NULL"), true) := by
  refine ⟨?_, ?_⟩ <;> decide +kernel

/-- e2e/testdata/alter/set_default.sql -/
example : again
    (str% "ALTER TABLE test1 ALTER COLUMN NAME SET DEFAULT 10;") = some
    ((str% "ALTER TABLE test1 ALTER COLUMN NAME SET DEFAULT 10"), true) ∧
    again
    (str% "ALTER TABLE test1 ALTER COLUMN NAME SET DEFAULT 10") = some
    ((str% "ALTER TABLE test1 ALTER COLUMN NAME SET DEFAULT 10"), true) := by
  refine ⟨?_, ?_⟩ <;> decide +kernel

/-- e2e/testdata/create_index/unique_index.sql -/
example : again
    (str% "CREATE UNIQUE INDEX customers_idx ON customers USING gist (name);") = some
    ((str% "CREATE UNIQUE INDEX customers_idx ON customers USING gist (name)"), true) ∧
    again
    (str% "CREATE UNIQUE INDEX customers_idx ON customers USING gist (name)") = some
    ((str% "CREATE UNIQUE INDEX customers_idx ON customers USING gist (name)"), true) := by
  refine ⟨?_, ?_⟩ <;> decide +kernel

/-- e2e/testdata/create_table/create.sql -/
example : again
    (str% "CREATE TABLE test (\n    col1 int primary key,\n    col2 char(10),\n    col3 VARCHAR,\n    col4 VARCHAR(255),\n    col5 uuid NOT NULl,\n    col6 smallint check(col6 < 10),\n    col7 bigint UNIQUE,\n    col8 integer constraint test_constraint check (10 < col8 and col8 < 100),\n    col9 serial,\n    col10 character varying,\n    col11 real references test2(col1),\n    col12 double precision,\n    col13 date,\n    col14 time,\n    col15 timestamp default current_timestamp,\n    col16 boolean default false,\n    col17 numeric(10, 10),\n    col18 text,\n    foreign key (col1, col2) references test2(col1, col2),\n    unique key (col1, col2),\n    CONSTRAINT test_constraint check(col1 > 10)\n)") = some
    ((str% "CREATE TABLE test (col1 int PRIMARY KEY, col2 char(10), col3 character varying, col4 character varying(255), col5 uuid NOT NULL, col6 smallint CHECK(col6 < 10), col7 bigint UNIQUE, col8 int CONSTRAINT test_constraint CHECK(10 < col8 AND col8 < 100), col9 serial, col10 character varying, col11 real REFERENCES test2(col1), col12 double precision, col13 date, col14 time, col15 timestamp DEFAULT current_timestamp, col16 boolean DEFAULT false, col17 numeric(10,10), col18 text, FOREIGN KEY(col1, col2) REFERENCES test2(col1, col2), UNIQUE(col1, col2), CONSTRAINT test_constraint CHECK(col1 > 10))"), true) ∧
    again
    (str% "CREATE TABLE test (col1 int PRIMARY KEY, col2 char(10), col3 character varying, col4 character varying(255), col5 uuid NOT NULL, col6 smallint CHECK(col6 < 10), col7 bigint UNIQUE, col8 int CONSTRAINT test_constraint CHECK(10 < col8 AND col8 < 100), col9 serial, col10 character varying, col11 real REFERENCES test2(col1), col12 double precision, col13 date, col14 time, col15 timestamp DEFAULT current_timestamp, col16 boolean DEFAULT false, col17 numeric(10,10), col18 text, FOREIGN KEY(col1, col2) REFERENCES test2(col1, col2), UNIQUE(col1, col2), CONSTRAINT test_constraint CHECK(col1 > 10))") = some
    ((str% "CREATE TABLE test (col1 int PRIMARY KEY, col2 char(10), col3 character varying, col4 character varying(255), col5 uuid NOT NULL, col6 smallint CHECK(col6 < 10), col7 bigint UNIQUE, col8 int CONSTRAINT test_constraint CHECK(10 < col8 AND col8 < 100), col9 serial, col10 character varying, col11 real REFERENCES test2(col1), col12 double precision, col13 date, col14 time, col15 timestamp DEFAULT current_timestamp, col16 boolean DEFAULT false, col17 numeric(10,10), col18 text, FOREIGN KEY(col1, col2) REFERENCES test2(col1, col2), UNIQUE(col1, col2), CONSTRAINT test_constraint CHECK(col1 > 10))"), true) := by
  refine ⟨?_, ?_⟩ <;> decide +kernel

/-- e2e/testdata/insert/multi_values.sql -/
example : again
    (str% "-- from https://dev.mysql.com/doc/refman/8.0/en/insert.html\nINSERT INTO tbl_name (a,b,c) VALUES(1,2,3),(4,5,6),(7,8,9);") = some
    ((str% "INSERT INTO tbl_name (a, b, c) VALUES (1, 2, 3), (4, 5, 6), (7, 8, 9)"), true) ∧
    again
    (str% "INSERT INTO tbl_name (a, b, c) VALUES (1, 2, 3), (4, 5, 6), (7, 8, 9)") = some
    ((str% "INSERT INTO tbl_name (a, b, c) VALUES (1, 2, 3), (4, 5, 6), (7, 8, 9)"), true) := by
  refine ⟨?_, ?_⟩ <;> decide +kernel

/-- e2e/testdata/insert/with_select.sql -/
example : again
    (str% "INSERT INTO tbl_name (a,b,c) SELECT * from tbl_name2;") = some
    ((str% "INSERT INTO tbl_name (a, b, c) SELECT * FROM tbl_name2"), true) ∧
    again
    (str% "INSERT INTO tbl_name (a, b, c) SELECT * FROM tbl_name2") = some
    ((str% "INSERT INTO tbl_name (a, b, c) SELECT * FROM tbl_name2"), true) := by
  refine ⟨?_, ?_⟩ <;> decide +kernel

/-- e2e/testdata/select/exists.sql -/
example : again
    (str% "SELECT column_name(s)\nFROM table_name\nWHERE EXISTS\n(SELECT column_name FROM table_name WHERE condition);") = some
    ((str% "SELECT column_name(s) FROM table_name WHERE EXISTS (SELECT column_name FROM table_name WHERE condition)"), true) ∧
    again
    (str% "SELECT column_name(s) FROM table_name WHERE EXISTS (SELECT column_name FROM table_name WHERE condition)") = some
    ((str% "SELECT column_name(s) FROM table_name WHERE EXISTS (SELECT column_name FROM table_name WHERE condition)"), true) := by
  refine ⟨?_, ?_⟩ <;> decide +kernel

/-- e2e/testdata/select/inner_join.sql -/
example : again
    (str% "SELECT Orders.OrderID, Customers.CustomerName\nFROM Orders\nINNER JOIN Customers ON Orders.CustomerID = Customers.CustomerID;\n") = some
    ((str% "SELECT Orders.OrderID, Customers.CustomerName FROM Orders INNER JOIN Customers ON Orders.CustomerID = Customers.CustomerID"), true) ∧
    again
    (str% "SELECT Orders.OrderID, Customers.CustomerName FROM Orders INNER JOIN Customers ON Orders.CustomerID = Customers.CustomerID") = some
    ((str% "SELECT Orders.OrderID, Customers.CustomerName FROM Orders INNER JOIN Customers ON Orders.CustomerID = Customers.CustomerID"), true) := by
  refine ⟨?_, ?_⟩ <;> decide +kernel

/-- e2e/testdata/select/like.sql -/
example : again
    (str% "SELECT * FROM Customers\nWHERE ContactName LIKE 'a%o';") = some
    ((str% "SELECT * FROM Customers WHERE ContactName LIKE 'a%o'"), true) ∧
    again
    (str% "SELECT * FROM Customers WHERE ContactName LIKE 'a%o'") = some
    ((str% "SELECT * FROM Customers WHERE ContactName LIKE 'a%o'"), true) := by
  refine ⟨?_, ?_⟩ <;> decide +kernel

/-- e2e/testdata/select/multi_join.sql -/
example : again
    (str% "select count(*) from project\n    join scenario ON scenario.project_id = project.project_id\n    right outer join scenario_version ON scenario_version.scenario_id = scenario.scenario_id\n    left outer join compare_log ON compare_log.left_scenario_version_id = scenario_version.scenario_version_id\n    full outer join scenario_version scenario_version2 ON scenario_version2.scenario_version_id = compare_log.right_scenario_version_id\n    inner join snapshot ON snapshot.scenario_version_id = scenario_version2.scenario_version_id\n    natural join scenario_version as s3;") = some
    ((str% "SELECT count(*) FROM project JOIN scenario ON scenario.project_id = project.project_id RIGHT OUTER JOIN scenario_version ON scenario_version.scenario_id = scenario.scenario_id LEFT OUTER JOIN compare_log ON compare_log.left_scenario_version_id = scenario_version.scenario_version_id FULL OUTER JOIN scenario_version AS scenario_version2 ON scenario_version2.scenario_version_id = compare_log.right_scenario_version_id INNER JOIN snapshot ON snapshot.scenario_version_id = scenario_version2.scenario_version_id NATURAL JOIN scenario_version AS s3"), true) ∧
    again
    (str% "SELECT count(*) FROM project JOIN scenario ON scenario.project_id = project.project_id RIGHT OUTER JOIN scenario_version ON scenario_version.scenario_id = scenario.scenario_id LEFT OUTER JOIN compare_log ON compare_log.left_scenario_version_id = scenario_version.scenario_version_id FULL OUTER JOIN scenario_version AS scenario_version2 ON scenario_version2.scenario_version_id = compare_log.right_scenario_version_id INNER JOIN snapshot ON snapshot.scenario_version_id = scenario_version2.scenario_version_id NATURAL JOIN scenario_version AS s3") = some
    ((str% "SELECT count(*) FROM project JOIN scenario ON scenario.project_id = project.project_id RIGHT OUTER JOIN scenario_version ON scenario_version.scenario_id = scenario.scenario_id LEFT OUTER JOIN compare_log ON compare_log.left_scenario_version_id = scenario_version.scenario_version_id FULL OUTER JOIN scenario_version AS scenario_version2 ON scenario_version2.scenario_version_id = compare_log.right_scenario_version_id INNER JOIN snapshot ON snapshot.scenario_version_id = scenario_version2.scenario_version_id NATURAL JOIN scenario_version AS s3"), true) := by
  refine ⟨?_, ?_⟩ <;> decide +kernel

/-- e2e/testdata/select/row_number.sql -/
example : again
    (str% "-- from https://mode.com/sql-tutorial/sql-window-functions/\nSELECT start_terminal,\n       start_time,\n       duration_seconds,\n       ROW_NUMBER() OVER (ORDER BY start_time)\n                    AS row_number\n  FROM tutorial.dc_bikeshare_q1_2012\n WHERE start_time < '2012-01-08'") = some
    ((str% "SELECT start_terminal, start_time, duration_seconds, ROW_NUMBER() OVER (ORDER BY start_time) AS row_number FROM tutorial.dc_bikeshare_q1_2012 WHERE start_time < '2012-01-08'"), true) ∧
    again
    (str% "SELECT start_terminal, start_time, duration_seconds, ROW_NUMBER() OVER (ORDER BY start_time) AS row_number FROM tutorial.dc_bikeshare_q1_2012 WHERE start_time < '2012-01-08'") = some
    ((str% "SELECT start_terminal, start_time, duration_seconds, ROW_NUMBER() OVER (ORDER BY start_time) AS row_number FROM tutorial.dc_bikeshare_q1_2012 WHERE start_time < '2012-01-08'"), true) := by
  refine ⟨?_, ?_⟩ <;> decide +kernel

/-- e2e/testdata/select/union_all_where.sql -/
example : again
    (str% "SELECT City, Country FROM Customers\nWHERE Country='Germany'\nUNION ALL\nSELECT City, Country FROM Suppliers\nWHERE Country='Germany'\nORDER BY City;") = some
    ((str% "SELECT City, Country FROM Customers WHERE Country = 'Germany' UNION ALL SELECT City, Country FROM Suppliers WHERE Country = 'Germany' ORDER BY City"), true) ∧
    again
    (str% "SELECT City, Country FROM Customers WHERE Country = 'Germany' UNION ALL SELECT City, Country FROM Suppliers WHERE Country = 'Germany' ORDER BY City") = some
    ((str% "SELECT City, Country FROM Customers WHERE Country = 'Germany' UNION ALL SELECT City, Country FROM Suppliers WHERE Country = 'Germany' ORDER BY City"), true) := by
  refine ⟨?_, ?_⟩ <;> decide +kernel

end Verif.RepoTests
