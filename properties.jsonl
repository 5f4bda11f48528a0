{"id": "C01", "title": "Tokenizing loses nothing", "statement": "If Tokenize succeeds (comments kept), the source text is exactly the concatenation, in order, of the source spellings of the returned tokens: no character is dropped, duplicated, reordered or attributed to two tokens.", "quantifier": "every source text, every dialect that rejects the end-of-input rune, every successful run", "why_tests_cant": "tests compare a handful of inputs; a lost or doubled character can hide behind any combination of quoting, comments and line endings", "anchors": ["sqltoken/tokenizer.go: Tokenizer.Tokenize", "sqltoken/tokenizer.go: Tokenizer.next", "sqltoken/tokenizer.go: tokenizeWord", "sqltoken/tokenizer.go: tokenizeSingleQuotedString", "sqltoken/tokenizer.go: tokenizeMultilineComment"]}
{"id": "C02", "title": "Token positions are contiguous", "statement": "In the token list of a successful Tokenize with comments kept, the first token starts at line 1 column 1 and every token starts exactly where the previous one ended.", "quantifier": "every source text, every dialect, every pair of neighbouring tokens", "why_tests_cant": "the claim is about all neighbouring pairs of all inputs; one off-by-one in any branch of the scanner breaks it", "anchors": ["sqltoken/tokenizer.go: Tokenizer.Scan", "sqltoken/tokenizer.go: Tokenizer.Pos", "sqltoken/tokenizer.go: Tokenizer.next"]}
{"id": "C03", "title": "Token positions strictly increase", "statement": "Every token ends strictly after it starts in the order of ComparePos, hence start positions of different tokens of one text are different and sorted. (ParseFile keys comments by start position and relies on this.)", "quantifier": "every source text, every dialect, all pairs of tokens", "why_tests_cant": "a collision needs a particular mix of line breaks, tabs and comment shapes; sampling cannot exclude it", "anchors": ["sqltoken/tokenizer.go: Tokenizer.Scan", "sqltoken/tokenizer.go: ComparePos", "parser.go: Parser.nextTokenWithParseComment"]}
{"id": "C04", "title": "Line and column numbers are those of the source", "statement": "The line of a token is one plus the number of line breaks in the text before it.", "quantifier": "every source text and every token", "why_tests_cant": "needs multi-line literals and identifiers in arbitrary places; the unit tests only use single-line literals", "anchors": ["sqltoken/tokenizer.go: Tokenizer.next", "sqltoken/tokenizer.go: tokenizeSingleQuotedString", "sqltoken/tokenizer.go: tokenizeMultilineComment"]}
{"id": "C05", "title": "The tokenizer always terminates", "statement": "Tokenize returns (tokens or an error) on every finite input.", "quantifier": "every finite source text, the three built-in dialects", "why_tests_cant": "non-termination cannot be observed by a finite run, and termination for all inputs cannot be sampled", "anchors": ["sqltoken/tokenizer.go: Tokenizer.Tokenize", "sqltoken/tokenizer.go: Tokenizer.next (delimited identifier loop)", "dialect/dialect.go", "dialect/mysql.go", "dialect/postgres.go"]}
{"id": "C06", "title": "When tokenizing fails, and only then", "statement": "Tokenize reports an error exactly when, scanning left to right, it meets a single-quoted string without a closing quote, a block comment without a closing */, or a ! not followed by =; a successful Tokenize never returns a token of kind ILLEGAL.", "quantifier": "every source text, every dialect", "why_tests_cant": "an iff over all inputs", "anchors": ["sqltoken/tokenizer.go: Tokenizer.Tokenize", "sqltoken/tokenizer.go: Tokenizer.Scan", "sqltoken/tokenizer.go: Tokenizer.next"]}
{"id": "C07", "title": "String literals decode exactly", "statement": "For every text s, writing s between single quotes with each quote doubled, followed by anything that does not start with a quote, gives one SingleQuotedString token whose value is s, and tokenizing continues right after the closing quote. With a leading N it is one NationalStringLiteral.", "quantifier": "every text s, every following text, every dialect", "why_tests_cant": "unbounded texts with arbitrarily placed quotes", "anchors": ["sqltoken/tokenizer.go: tokenizeSingleQuotedString"]}
{"id": "C08", "title": "Block comment text is preserved", "statement": "The value of the Comment token of /*body*/ is body, for every body that does not contain */.", "quantifier": "every comment body", "why_tests_cant": "depends on where * and carriage returns occur in the body", "anchors": ["sqltoken/tokenizer.go: tokenizeMultilineComment"]}
{"id": "C09", "title": "Disabling comments only filters", "statement": "Tokenize with DisableParseComment returns exactly the tokens of the default Tokenize that are neither whitespace nor comments, with unchanged kinds, values and positions, and fails or diverges exactly when the default does.", "quantifier": "every source text, every dialect", "why_tests_cant": "relates two runs on every input", "anchors": ["sqltoken/tokenizer.go: DisableParseComment", "sqltoken/tokenizer.go: Tokenizer.Scan", "sqltoken/tokenizer.go: Tokenizer.Tokenize"]}
{"id": "C10", "title": "Words and numbers are maximal", "statement": "A run of identifier characters starting with an identifier-start character becomes one word token with exactly these characters, whatever non-identifier text follows; a run of digits and dots starting with a digit becomes one Number token with exactly these characters.", "quantifier": "every word, every number text, every following text, every dialect", "why_tests_cant": "unbounded words and all contexts", "anchors": ["sqltoken/tokenizer.go: tokenizeWord", "sqltoken/tokenizer.go: Tokenizer.next"]}
{"id": "C11", "title": "Keyword recognition ignores case and the cache", "statement": "MakeKeyword gives words that differ only in letter case the same Keyword, keeps the Value as written, and the preloaded keyword cache never changes its result.", "quantifier": "every word, every quote style, the whole keyword table", "why_tests_cant": "the cache has two entries per keyword and arbitrary mixed-case words bypass it", "anchors": ["sqltoken/tokenizer.go: MakeKeyword", "sqltoken/tokenizer.go: keywordCache", "dialect/keywords.go: Keywords"]}
{"id": "C12", "title": "Quoted identifiers are never keywords", "statement": "A word written in identifier quotes is an identifier: the parser never treats it as a keyword.", "quantifier": "every quoted word in every statement position", "why_tests_cant": "there are as many positions as grammar rules", "anchors": ["sqltoken/tokenizer.go: MakeKeyword", "parser.go: Parser.parseKeyword", "parser.go: Parser.parseOptionalAlias"]}
{"id": "C13", "title": "ComparePos is a strict total order on positions", "statement": "ComparePos returns -1, 0 or 1; 0 exactly on equal positions; swapping the arguments negates it; it is transitive.", "quantifier": "all pairs and triples of positions", "why_tests_cant": "unbounded integers", "anchors": ["sqltoken/tokenizer.go: ComparePos"]}
{"id": "C14", "title": "Quoted identifiers keep their spelling", "statement": "The String() of a word token is its exact source spelling, quotes included, and tokenizing that spelling again gives the same word.", "quantifier": "every word token the tokenizer can produce, the built-in dialects", "why_tests_cant": "arbitrary identifier contents", "anchors": ["sqltoken/tokenizer.go: SQLWord.String", "sqltoken/tokenizer.go: matchingEndQuote", "sqltoken/tokenizer.go: MakeKeyword"]}
{"id": "C15", "title": "Token sequences survive being written out", "statement": "Writing the spellings of a sequence of tokens with separators wherever two neighbours could merge, and tokenizing the result, gives the same sequence of kinds and values.", "quantifier": "every token sequence of every length satisfying the separation rule, the built-in dialects", "why_tests_cant": "all sequences and all adjacent pairs", "anchors": ["sqltoken/tokenizer.go: Tokenizer.Tokenize", "sqltoken/tokenizer.go: Tokenizer.next"]}
{"id": "C16", "title": "Whitespace and comments do not affect parsing", "statement": "For every parser entry point, parsing a token list and parsing the same list with all whitespace and comment tokens removed give the same outcome: the same syntax tree with the same positions, the same error, or the same panic.", "quantifier": "every token list, every insertion of whitespace and comments, every entry point", "why_tests_cant": "infinitely many placements, and the parser backtracks over them in many ways", "anchors": ["parser.go: Parser.nextToken", "parser.go: Parser.prevToken", "parser.go: Parser.peekToken", "parser.go: Parser.tilNonWhitespace", "parser.go: Parser.parseKeywords"]}
{"id": "C17", "title": "Comment collection does not change the parse", "statement": "Parsing with the ParseComment option gives the same statements or the same failure as parsing without it.", "quantifier": "every token list", "why_tests_cant": "relates two runs of a backtracking parser on every input", "anchors": ["parser.go: ParseComment", "parser.go: Parser.nextTokenWithParseComment", "parser.go: Parser.ParseSQL"]}
{"id": "C18", "title": "Every comment is collected exactly once", "statement": "When ParseFile succeeds with ParseComment, the comments of all groups in File.Comments, read in order, are exactly the comment tokens of the source in source order, each once, although the parser re-reads tokens while backtracking.", "quantifier": "every token list with strictly increasing positions, every successful parse", "why_tests_cant": "depends on every backtracking point of the parser", "anchors": ["parser.go: Parser.ParseFile", "parser.go: Parser.nextTokenWithParseComment"]}
{"id": "C19", "title": "Comment groups never span code", "statement": "All comments of one group in File.Comments are separated only by whitespace and comments, groups are sorted by position, and a comment behind code on the same line is not merged with comments on later lines.", "quantifier": "every token list with strictly increasing positions", "why_tests_cant": "all layouts", "anchors": ["parser.go: Parser.nextTokenWithParseComment", "parser.go: Parser.ParseFile"]}
{"id": "C20", "title": "The parser always terminates", "statement": "Every parser entry point returns, reports an error or panics after finitely many steps on every token list the tokenizer can produce; no input makes it loop. The nesting of calls and loop iterations is bounded linearly in the number of tokens left, and more budget never changes the outcome.", "quantifier": "every source text and dialect; every token list whose words carry the upper-cased value as keyword; every position the parser may stand at; both comment modes", "why_tests_cant": "termination cannot be sampled", "anchors": ["parser.go: Parser.ParseStatement", "parser.go: Parser.ParseSQL", "parser.go: Parser.ParseExpr", "parser.go: Parser.ParseDataType"]}
{"id": "C21", "title": "Malformed input is an error, not a panic", "statement": "ParseSQL and ParseStatement return an error on input they cannot parse; they never panic.", "quantifier": "every token list", "why_tests_cant": "the panics sit at particular truncation points and grammar positions", "anchors": ["parser.go: Parser.parseSelectList", "parser.go: Parser.expectKeyword", "parser.go: Parser.expectToken", "parser.go: Parser.parsePrefix", "parser.go: Parser.parseInfix", "parser.go: Parser.ParseDataType"]}
{"id": "C22", "title": "Operator precedence and associativity", "statement": "ParseExpr groups operators by the documented precedence levels, left-associatively within a level: for any sequence of operands and operators the result is the unique tree of that sequence that respects the levels.", "quantifier": "every sequence of operators and operands of any length and nesting", "why_tests_cant": "unbounded sequences; tests fix two or three operators", "anchors": ["parser.go: Parser.parseSubexpr", "parser.go: Parser.parseInfix", "parser.go: Parser.getPrecedence", "parser.go: Parser.parsePrefix"]}
{"id": "C23", "title": "Expressions survive printing and parsing", "statement": "For every expression tree the grammar can express, tokenizing and parsing its ToSQLString gives the same tree up to positions.", "quantifier": "every well-formed expression tree of any depth", "why_tests_cant": "unbounded trees", "anchors": ["sqlast/ast.go: WriteTo methods", "parser.go: Parser.ParseExpr", "sqltoken/tokenizer.go: Tokenizer.Tokenize"]}
{"id": "C24", "title": "Queries survive printing and parsing", "statement": "For every query tree the grammar can express (CTEs, set operations, joins, derived tables, window functions, grouping, ordering, limit), tokenizing and parsing its ToSQLString gives the same tree up to positions.", "quantifier": "every well-formed query tree of any depth", "why_tests_cant": "unbounded trees", "anchors": ["sqlast/query.go: WriteTo methods", "parser.go: Parser.parseQuery"]}
{"id": "C25", "title": "Statements survive printing and parsing", "statement": "For every INSERT, UPDATE, DELETE, CREATE, ALTER, DROP and EXPLAIN statement tree the grammar can express, tokenizing and parsing its ToSQLString gives the same tree up to positions.", "quantifier": "every well-formed statement tree", "why_tests_cant": "unbounded trees and option combinations", "anchors": ["sqlast/stmt.go: WriteTo methods", "sqlast/type.go", "sqlast/table_option.go", "parser.go: Parser.ParseStatement"]}
{"id": "C26", "title": "Statement lists split at semicolons", "statement": "ParseSQL accepts a token list exactly when, after at most one leading semicolon, it consists of statements each of which ParseStatement reads up to a following semicolon, and then it returns these statements in order; in particular the texts of well-formed statements, each followed by a semicolon, give back these statements, and a list in which the last statement lacks its semicolon is never accepted.", "quantifier": "every token list; every list of well-formed statements", "why_tests_cant": "lists of any length", "anchors": ["parser.go: Parser.ParseSQL", "parser.go: Parser.ParseFile"]}
{"id": "C27", "title": "Printing a parsed statement and parsing it again changes nothing", "statement": "If ParseStatement accepts a token list, the ToSQLString of the result parses again, to the same tree up to positions (the property the end-to-end tests sample).", "quantifier": "every accepted token list", "why_tests_cant": "the e2e tests check about fifty files", "anchors": ["e2e/e2e_test.go", "parser.go: Parser.ParseStatement", "sqlast: WriteTo methods"]}
{"id": "C28", "title": "Integer literals keep their value", "statement": "An integer literal in the source is parsed to the number it denotes.", "quantifier": "every digit string", "why_tests_cant": "needs literals beyond 64 bits", "anchors": ["parser.go: Parser.parseValue", "parser.go: Parser.parseLiteralInt"]}
{"id": "C29", "title": "No table of a FROM clause is lost", "statement": "Every table reference in a parsed FROM clause appears in the resulting join tree.", "quantifier": "every sequence of joins", "why_tests_cant": "only some sequences of join kinds lose a table", "anchors": ["parser.go: Parser.parseTableReference", "parser.go: Parser.parseTableReferenceRight"]}
{"id": "C30", "title": "CREATE MATERIALIZED VIEW is recognised", "statement": "A CREATE MATERIALIZED VIEW statement parses to a CreateViewStmt with Materialized set.", "quantifier": "every token list", "why_tests_cant": "the existing tests only create plain views", "anchors": ["parser.go: Parser.parseCreate", "parser.go: Parser.parseCreateView"]}
{"id": "C31", "title": "LIMIT after a table name is a limit", "statement": "In SELECT ... FROM t LIMIT n the LIMIT clause is parsed as a limit, not as a table alias.", "quantifier": "every query whose FROM clause is directly followed by LIMIT or HAVING", "why_tests_cant": "the reserved-word tables interact with every clause order", "anchors": ["parser.go: Parser.parseOptionalAlias", "dialect/keywords.go: ReservedForTableAlias", "dialect/keywords.go: ReservedForColumnAlias"]}
{"id": "C32", "title": "WriteTo reports the bytes written", "statement": "The count returned by WriteTo is the sum of the counts returned by the Write calls it made on the writer.", "quantifier": "every node, every writer including failing and short-writing ones", "why_tests_cant": "all nodes times all writer behaviours", "anchors": ["sqlast/writer.go: sqlWriter", "sqlast: WriteTo methods"]}
{"id": "C33", "title": "WriteTo stops at the first write error and returns it", "statement": "WriteTo returns a nil error if and only if no Write call failed; after a failed Write it makes no further Write call and returns that error.", "quantifier": "every node, every writer", "why_tests_cant": "failure can strike at any of the calls", "anchors": ["sqlast/writer.go: sqlWriter", "sqlast: WriteTo methods"]}
{"id": "C34", "title": "Interrupted output is a prefix", "statement": "On a writer that honours the io.Writer contract (0 <= n <= len(p), non-nil error if n < len(p)) the bytes accepted from WriteTo are a prefix of the node's ToSQLString, and all of it if no error was returned. On any writer the pieces handed over are consecutive pieces of ToSQLString from its beginning.", "quantifier": "every node, every writer (the accepted bytes: every writer honouring the contract)", "why_tests_cant": "all interruption points", "anchors": ["sqlast/writer.go: sqlWriter", "sqlast/writer.go: toSQLString", "sqlast: WriteTo methods"]}
{"id": "C35", "title": "ToSQLString and WriteTo agree", "statement": "ToSQLString returns exactly the text WriteTo sends to a writer, for every node type, including those with a hand-written ToSQLString.", "quantifier": "every node", "why_tests_cant": "all node types and contents", "anchors": ["sqlast/writer.go: toSQLString", "sqlast/value.go", "sqlast/operator.go", "sqlast/type.go"]}
{"id": "C36", "title": "Walk visits in proper nesting", "statement": "Inspect calls f on a node before its children, on the children one after the other in an order fixed by the node type, and with nil after them: the call sequence is the depth-first traversal of the child relation. The order is that of the struct fields, except for CTE and CrossJoin.", "quantifier": "every tree, every visitor state", "why_tests_cant": "unbounded trees", "anchors": ["sqlast/walk.go: Walk", "sqlast/walk.go: Inspect"]}
{"id": "C37", "title": "Returning false prunes exactly the subtree", "statement": "If f returns false for a node, Inspect visits none of its children, makes no closing nil call for it, and continues with its next sibling.", "quantifier": "every tree and every f", "why_tests_cant": "all pruning patterns", "anchors": ["sqlast/walk.go: Walk", "sqlast/walk.go: Inspect"]}
{"id": "C38", "title": "Walk reaches every sub-node and never panics", "statement": "Inspect with a function that always returns true visits every node that occurs in a tree built by the parser, and does not panic.", "quantifier": "every tree", "why_tests_cant": "each node type has its own list of children", "anchors": ["sqlast/walk.go: Walk"]}
{"id": "C39", "title": "Walk uses the visitor returned by Visit", "statement": "The children of a node are visited with the Visitor that Visit returned for the node (the go/ast contract).", "quantifier": "every visitor", "why_tests_cant": "needs a visitor that changes its state by returning another visitor", "anchors": ["sqlast/walk.go: Walk"]}
{"id": "C40", "title": "Apply without edits is the identity", "statement": "Apply with callbacks that return true and make no edits leaves the tree unchanged and calls pre before and post after the children of every node it reaches.", "quantifier": "every tree for which Apply knows all node types", "why_tests_cant": "unbounded trees", "anchors": ["sqlastutil/rewrite.go: Apply", "sqlastutil/rewrite.go: application.apply", "sqlastutil/rewrite.go: application.applyList"]}
{"id": "C41", "title": "List edits through the cursor behave as documented", "statement": "While Apply walks a list, Delete, Replace, InsertBefore and InsertAfter have the documented effect: every original element is visited exactly once, in order; inserted and replacing nodes are not visited; the final list is the original with exactly the requested edits.", "quantifier": "every list, every script of edits", "why_tests_cant": "edit scripts are unbounded and interact through a shared index", "anchors": ["sqlastutil/rewrite.go: Cursor", "sqlastutil/rewrite.go: application.applyList"]}
{"id": "C42", "title": "Stopping Apply stops everything", "statement": "When post returns false, Apply makes no further callback and returns the (possibly replaced) root.", "quantifier": "every tree, every callback", "why_tests_cant": "all abort points", "anchors": ["sqlastutil/rewrite.go: Apply", "sqlastutil/rewrite.go: application.apply"]}
{"id": "C43", "title": "Replace works on every field", "statement": "Cursor.Replace on a node reached through a single-valued field stores the new node in exactly that field.", "quantifier": "every node type and field", "why_tests_cant": "one reflective field name per child", "anchors": ["sqlastutil/rewrite.go: Cursor.Replace", "sqlastutil/rewrite.go: application.apply"]}
{"id": "C44", "title": "NewCommentMap keeps every comment", "statement": "NewCommentMap associates every comment group of the file with exactly one node and invents none.", "quantifier": "every file tree and every list of comment groups", "why_tests_cant": "all relative positions of comments and nodes", "anchors": ["sqlast/commentmap.go: NewCommentMap"]}
{"id": "C45", "title": "Node positions bracket the node", "statement": "For a node returned by the parser, Pos is the start of its first token and End is the end of its last token.", "quantifier": "every parsed expression, data type, table reference, query and statement", "why_tests_cant": "each node type computes positions differently", "anchors": ["sqlast/ast.go: Pos and End methods", "parser.go: Parser.parsePrefix", "parser.go: Parser.parseInfix"]}
{"id": "C46", "title": "Parsing is local", "statement": "A successful parse of a statement that did not reach the end of the token list gives the same result when more tokens are appended.", "quantifier": "every token list and every appended suffix", "why_tests_cant": "relates infinitely many inputs", "anchors": ["parser.go: Parser.ParseStatement", "parser.go: Parser.peekToken"]}
{"id": "C47", "title": "Positions never influence parsing", "statement": "Two token lists whose significant tokens have the same kinds and texts, at whatever source positions, have the same parse outcome, and the trees differ at most in the positions stored in them.", "quantifier": "every pair of token lists, every entry point", "why_tests_cant": "relates infinitely many pairs of layouts of one input, in particular hand-made token lists with arbitrary positions", "anchors": ["parser.go: all parse functions", "sqltoken/kind.go"]}
{"id": "C48", "title": "Printing ignores positions and is stable", "statement": "Two trees that differ only in positions are printed as the same text, and printing a well-formed statement, parsing the text and printing again gives the same text.", "quantifier": "every pair of expression, query, type or statement trees that differ only in positions; every well-formed statement", "why_tests_cant": "unbounded trees and arbitrary positions", "anchors": ["sqlast/ast.go: WriteTo methods", "sqlast/query.go: WriteTo methods", "sqlast/stmt.go: WriteTo methods"]}
{"id": "C49", "title": "Every parsed tree is structurally sound", "statement": "Whatever the input, a tree returned by ParseStatement, ParseExpr or ParseSQL is structurally sound: operators respect their levels and group to the left, name lists, argument lists that may not be empty, WHEN/THEN pairs, VALUES rows and assignments are non-empty and match, LIMIT values fit 64 bits, no node kind that the grammar lacks (materialized view, partitioned join, time literal, COPY) appears, and a natural join takes all joins that follow it.", "quantifier": "every token list, every entry point, every returned tree of any depth", "why_tests_cant": "an invariant of all outputs over all inputs", "anchors": ["parser.go: all parse functions"]}
{"id": "C50", "title": "The input is a sentence of the grammar for the tree", "statement": "If ParseStatement, ParseExpr or ParseDataType succeeds, the tokens it has read are a sentence that the SQL grammar has for the returned tree: each keyword, operator, name, literal and bracket of the input is at the place the tree says and nothing else is there; every position stored in the tree is that of the token the grammar assigns to it, or is unset where the grammar says so. If ParseSQL or ParseFile succeeds, this holds for the whole input, each statement being followed by a semicolon.", "quantifier": "every token list, every entry point, every returned tree of any depth", "why_tests_cant": "relates all accepted inputs to their trees, in particular inputs that should have been rejected", "anchors": ["parser.go: all parse functions"]}
{"id": "C51", "title": "Keywords may be written in any letter case", "statement": "Two token lists whose significant tokens are equal except that unquoted keywords may be spelled with different case of ASCII letters are parsed to the same outcome by every entry point; on success the trees are equal up to positions and up to the letter case of identifiers that spell a keyword.", "quantifier": "every pair of token lists related in this way, every entry point, both comment modes", "why_tests_cant": "two runs are compared for all inputs, all subsets of keywords and all spellings; the parser recognises keywords in two different ways (Keyword field, EqualFold on the value) and both must agree", "anchors": ["parser.go:3095-3111 parseKeyword", "parser.go: every switch on word.Keyword", "sqltoken/tokenizer.go:57-78 MakeKeyword"]}
{"id": "C52", "title": "Renaming identifiers and string literals commutes with parsing", "statement": "For every renaming of identifiers that maps non-keywords to non-keywords and leaves keywords alone, and every replacement of the texts of string literals: parsing the renamed token list has the same outcome as parsing the original, and the tree is the original tree with the renaming applied, up to positions. The parser never looks inside identifiers and string literals.", "quantifier": "every renaming (also one that identifies names), every token list, every entry point", "why_tests_cant": "quantifies over all renamings and compares two runs", "anchors": ["parser.go: all parse functions"]}
{"id": "C53", "title": "Every node has its own part of the input", "statement": "If ParseSQL succeeds, every node at any depth below a returned statement has a contiguous part of the input tokens that is a sentence of the grammar for this node; the part of a node lies inside the part of the node above. In particular every identifier, string and integer of the tree is a word, string or number token of the input with the same text and the same From and To positions.", "quantifier": "every token list, every returned statement, every node below it", "why_tests_cant": "the nodes of all trees of all accepted inputs", "anchors": ["parser.go: all parse functions", "sqlast: all nodes"]}
{"id": "C54", "title": "Every sentence of the grammar is accepted and read as its tree", "statement": "If the tokens of a text are a list of statements of the grammar of C50 without the rules that accept input by accident (and their names are no keywords except 66 that the parser does not look for where a name may stand, and their words do not contain the dotless i, the long s or the Kelvin sign), then ParseSQL and ParseFile accept it and return these statements, up to positions; likewise ParseStatement, ParseExpr and ParseDataType for a sentence that is followed by a semicolon. Hence two lists of statements with the same tokens are equal up to positions: this grammar is unambiguous.", "quantifier": "every token list whose keywords are set as the tokenizer sets them, every tree of the grammar, both comment modes, every budget of at least three times the number of tokens plus three", "why_tests_cant": "all sentences of an infinite grammar; that the precedence climbing, the look-ahead decisions and the backtracking never choose a wrong alternative shows only on combinations of constructs", "anchors": ["parser.go: all parse functions"]}
{"id": "C55", "title": "Comments are attached to the node they belong to", "statement": "If NewCommentMap returns a map, every comment group is attached to a node that it belongs to. Let the next node be the first one, in the order of Inspect, that does not start before the end of the comment, and let the comment follow on a node if it starts on the line where the node ends, or on the line below with an empty line between the comment and the next node. Then the comment is attached to a statement, column or table constraint that has ended and that it follows on, or to the previous node, if it follows on this one or there is no next node, or to the next node, if it does not follow on the previous one. A comment that follows on a statement that is in no other one is attached to this statement; a comment directly above the next node, with no node ending on its first line, is attached to the next node.", "quantifier": "every tree, every list of comment groups in source order (as in every parsed file), every result of the Pos and End methods for which NewCommentMap returns", "why_tests_cant": "depends on the relative positions of any number of nodes and comments, and on the history of a stack", "anchors": ["sqlast/commentmap.go: NewCommentMap, nodeStack"]}
{"id": "C56", "title": "Parsing does linear work", "statement": "ParseStatement, ParseExpr, ParseDataType and ParseSQL (and hence ParseFile) call nextToken, peekToken and prevToken no more than 200 times for every significant token that is left, and 150 times more, whether they return a tree, report an error or panic: the backtracking of the parser (prevToken, the index reset of parseKeywords, and lookahead) never makes it read a stretch of tokens again and again. For a source text the bound is 200 calls per character and 150 more. A call that succeeds makes at least one call per token it consumes, so that the bound is tight up to its constants.", "quantifier": "every token list whose words carry the keyword the tokenizer gives them (every output of the tokenizer), every position in it, every dialect, with and without comments, every outcome", "why_tests_cant": "a quadratic or exponential worst case shows only on the texts that provoke it; the claim is about all texts, including those that are rejected", "anchors": ["parser.go: every parse function", "parser.go:2911-3111"]}
{"id": "C57", "title": "Exactly which trees survive printing and parsing", "statement": "If the text that ToSQLString makes of an expression, statement, list of statements or data type is read back as the same tree (up to positions), the tree has the shape of a parsed tree: operators respect the precedence levels unless a Nested node stands between them, lists that must not be empty are not, and clauses that exclude each other do not occur together. Conversely every tree of that shape whose names are none of the 18 keywords of C64 and whose literals and clauses are printed correctly is read back as itself. In particular a tree built or edited by a program (for example with Apply), in which the right operand of an operator is an operator of the same or a lower level, or the left operand one of a lower level, without a Nested node, is never read back: ToSQLString adds no parentheses, and `a - (b - c)` is printed as `a - b - c`.", "quantifier": "every tree of the package (not only parsed ones), every built-in dialect, with and without comments; for the operands, all expressions and all operators", "why_tests_cant": "the claim covers all trees, including those no text is parsed to, and says for each whether a text with the right reading exists; a test compares single trees", "anchors": ["sqlast/ast.go:283-400", "parser.go:1717-2191", "sqlast/sql_writer.go"]}
{"id": "C58", "title": "The runes the tokenizer gets are those of its reader", "statement": "The tokenizer reads its source with Peek and Next of text/scanner. For every sequence of these calls the answers are those of one list of characters: the bytes of the reader decoded as UTF-8 (an encoded character is read as itself, a byte with which no encoded character begins as U+FFFD), without a byte order mark at the beginning. Every byte sequence decodes to exactly one such list, and how the reader cuts the bytes into reads, even within a character, makes no difference. The texts of the tokens, encoded again, are the source bytes if and only if these are valid UTF-8 without a leading byte order mark. A read that returns an error other than io.EOF is not reported: the text before it is tokenized as if it were all (and what follows it is ignored), or, when the error comes with bytes or within a character, reading goes on as if there had been none.", "quantifier": "all readers (any sequence of reads, of any bytes, with or without errors), all sequences of Peek and Next calls, all dialects", "why_tests_cant": "the claim is about all ways of cutting all byte sequences into reads; tests read from strings, in one piece and without errors", "anchors": ["sqltoken/tokenizer.go:129-138", "sqltoken/tokenizer.go:221-460"]}
{"id": "C59", "title": "The names and literals of the tree are those of the text, in the same order, none twice", "statement": "If the parser accepts its input, the names, strings and numbers of the tree, listed in the order of SQL (a column's default and constraints in one of the two possible orders), are read from different tokens of the input, in the order of these tokens: a name from a word with its text and place, a string from a string token with its text and place, a number from a number token that denotes it. For the tokens of a text the places increase strictly, so no token gives rise to two of them. If the input has no keyword CROSS and the statements define no column, no string and no number of the input is missing in the tree, so its strings are exactly those of the text in the same order; with CROSS, or with a column with two DEFAULT clauses, strings can get lost.", "quantifier": "for all token lists, floats and entry points; the places for all source texts and dialects", "why_tests_cant": "That no accepted input has its names permuted, duplicated or invented concerns all inputs and all parts of all trees; tests compare some trees.", "anchors": ["parser.go:57-3123", "sqlast/ast.go:1-831"]}
{"id": "C60", "title": "A string literal with a quote in it never survives printing and parsing", "statement": "The printer writes string literals without doubling the quotes in them. Whatever else is in the tree, and however the quotes of several literals pair up in the printed text, a tree (expression, statement or list of statements) with a quote in a string or national string literal is never read back as the same tree up to positions. In particular, if ParseSQL accepts a text with a doubled quote in a literal (without the word CROSS and without column definitions, where literals can get lost), the printed statements are not read as the same statements.", "quantifier": "every tree of the package (not only parsed ones) and every text; all literals; every dialect; every budget; every formatting function for floats that writes no quote", "why_tests_cant": "the claim denies that any text with this origin has the right reading, including texts like 'a'b' = 'c'd' in which the quotes pair up and which could tokenize; tests can only show single literals to fail", "anchors": ["sqlast/value.go:81-155", "sqltoken/tokenizer.go:478-506", "parser.go:57-3123"]}
{"id": "C61", "title": "A statement ends at its semicolon, and a script is its parts", "statement": "What ParseStatement, ParseExpr and ParseDataType do on tokens followed by a semicolon (the tree, an error or a panic) does not depend on anything behind the semicolon, and a statement that is read ends before it: no construct of the grammar swallows a semicolon. So ParseSQL on a script is ParseSQL on the part up to any semicolon and then on the rest from this semicolon on: the statements are joined, and the first part that fails decides how the whole fails.", "quantifier": "all token lists in which the keyword of a word is its upper-cased text (all lists the tokenizer produces), all semicolons in them, all outcomes; all entry points", "why_tests_cant": "the claim is that no error path, lookahead or loop of any parse function reaches beyond a semicolon, whatever stands there; tests use scripts of a few good statements", "anchors": ["parser.go: Parser.ParseSQL", "parser.go: Parser.ParseStatement", "parser.go: Parser.ParseExpr", "parser.go: Parser.ParseDataType", "parser.go:86-3123"]}
{"id": "C62", "title": "A call of the parser looks neither back nor, before a semicolon, beyond the end", "statement": "The outcome of ParseStatement, ParseExpr, ParseDataType and ParseSQL on a parser that stands anywhere in its token list is that of a fresh parser on the tokens from there on: nothing read before has an influence. No call ever goes back before the first token (where prevToken would dereference nil), and as long as a semicolon is still to come, the first three never ask for a token beyond the end of the list (where mustNextToken panics and many functions dereference nil).", "quantifier": "all parser states, all token lists, all entry points", "why_tests_cant": "every prevToken in the code must be preceded by a token read in the same call on all paths; tests run fresh parsers on good inputs", "anchors": ["parser.go: Parser.prevToken", "parser.go: Parser.mustNextToken", "parser.go: Parser.nextToken", "parser.go: Parser.peekToken", "parser.go:86-3123"]}
{"id": "C63", "title": "Inspect visits the nodes of a parsed tree in the order of the text", "statement": "For a file, statement, expression or type that the parser returns, and for any function passed to Inspect (which may prune subtrees), the positions (Pos) of the nodes passed to the function, in the order of the calls, are those where tokens of the text begin, in the order of the text: no position comes after a greater one. Nodes whose position the parser never set are left out. This holds for every tree without the six exceptions: a query in parentheses as an expression (its Pos is where the parenthesis ends), a CTE, CROSS JOIN, a table function with alias, CREATE INDEX with a name, and a column with a default value and constraints. For each of the six the positions go back.", "quantifier": "all texts, all parsed trees, all functions passed to Inspect", "why_tests_cant": "about 100 node types, each with its own case in Walk and its own Pos method, whose orders must agree with that of the grammar in every combination", "anchors": ["sqlast/walk.go: Walk", "sqlast/walk.go: Inspect", "sqlast/ast.go", "sqlast/query.go", "sqlast/stmt.go", "parser.go: Parser.ParseFile", "parser.go: Parser.ParseStatement"]}
{"id": "C64", "title": "Which keywords may serve as names", "statement": "Of the 111 words the parser looks for, exactly 37 cannot be given as a name to anything in a statement without risk: TRUE, FALSE, NULL, CASE, CAST, EXISTS, NOT, DISTINCT, CONSTRAINT, PRIMARY, CHECK, FOREIGN, UNIQUE, LATERAL, SELECT, WITH, ON and WHEN, and the 19 words that begin a built-in type. For each other keyword k, every statement that the round-trip theorem covers and every name x in it, replacing x by k gives a statement whose text is read back as that statement. For each of the 37 there is a statement that is read back, while the one with the keyword in place of a name is not.", "quantifier": "every keyword, every well-formed statement, every name, every built-in dialect, both comment modes", "why_tests_cant": "111 words times all positions of a name in all statements; that no parse function takes the word for a keyword depends on what follows it", "anchors": ["parser.go: all parse functions", "dialect/keywords.go", "sqlast: WriteTo methods"]}
{"id": "C65", "title": "The places where the parser can panic", "statement": "If ParseSQL, ParseStatement or ParseDataType panics, then the input ends where more is required, or the next token or the one just read is a word such as \"WıTH\" (with a dotless i) that Keyword and parseKeyword treat differently, or the place is one of 45 listed ones: before the token stands one of a few tokens (for example CREATE, or a word after UPDATE), one of a few is required next (TABLE, MATERIALIZED, VIEW or INDEX; SET), and another one stands there. ParseExpr also panics if its input does not begin like an expression. If a semicolon is still to come, the end of the input is not a reason. Each of the 45 places occurs: for each there is a text on which ParseSQL panics for that reason and no other (table elements apart).", "quantifier": "every token list, every state, both comment modes; for the semicolon part every source text that tokenizes", "why_tests_cant": "a test finds panics but cannot show that there are no other places", "anchors": ["parser.go: Parser.expectKeyword", "parser.go: Parser.expectToken", "parser.go: Parser.mustNextToken", "parser.go: all parse functions"]}
{"id": "C66", "title": "Trees with the same text are the same", "statement": "Two expressions, types, statements or lists of statements to which the round-trip theorems apply have the same text exactly if they are equal up to positions; so have two statements read from source texts, if they are plain. Outside of these, texts can coincide: a literal whose value contains ' OR ' between quotes is printed like a disjunction. The values of a COPY statement can be read back from its text if none contains a tab or line break or is \\N, and not always otherwise.", "quantifier": "every pair of well-formed trees, every built-in dialect; every COPY statement", "why_tests_cant": "a collision is a property of two trees; tests print one tree at a time", "anchors": ["sqlast: WriteTo methods", "sqlast/stmt.go: CopyStmt.WriteTo", "sqlast/value.go: SingleQuotedString.WriteTo"]}
{"id": "C67", "title": "Which tokens occur in accepted scripts", "statement": "Every token of a script that ParseSQL accepts is a space, a comment, a word, a number, a string, a national string, the semicolon or one of 18 punctuation tokens; a text with : \\ & { } or a character that begins no token (outside of strings, comments and quoted identifiers) is never accepted. The same holds for the tokens that ParseStatement, ParseExpr and ParseDataType have read; they do not look at what follows. Each of the 19 punctuation tokens occurs in an accepted script, in each of its spellings, and so do the other kinds.", "quantifier": "every token list with the keywords of the tokenizer, every dialect, both comment modes", "why_tests_cant": "that no path of the parser skips or swallows such a token concerns every function of the parser; the lists of tokens it skips are nowhere written down", "anchors": ["parser.go: Parser.ParseSQL", "parser.go: Parser.ParseStatement", "parser.go: Parser.ParseExpr", "parser.go: Parser.ParseDataType", "sqltoken/tokenizer.go: Tokenizer.next"]}
{"id": "C68", "title": "The same text under two dialects", "statement": "If ParseSQL accepts a text under two of the three built-in dialects, the text has the same tokens under both, with the same positions, and so the same statements. A text accepted under one dialect is accepted under another exactly if all its words can be written in the other one; in particular the MySQL dialect accepts whatever the generic one accepts, with the same result, and a text whose words have no @, $, leading _ and backquote is accepted under all or none. Otherwise each of the dialects accepts texts that another does not.", "quantifier": "all texts, all pairs of built-in dialects, both comment modes", "why_tests_cant": "tests run one dialect at a time; where words end differently under two dialects all later tokens could differ, and only the parser's rejection of what is left over prevents that", "anchors": ["dialect/dialect.go: GenericSQLDialect", "dialect/mysql.go: MySQLDialect", "dialect/postgres.go: PostgresqlDialect", "sqltoken/tokenizer.go: Tokenizer.next", "sqltoken/tokenizer.go: Tokenizer.tokenizeWord", "parser.go: Parser.ParseSQL"]}
{"id": "C69", "title": "The span of a file", "statement": "For a file that ParseFile returns with comments, File.Pos is where the first token of the text begins that is neither a space nor a semicolon (it may be a comment), or (0, 0) if the first statement begins with WITH, EXPLAIN or a parenthesis or is CREATE INDEX. File.End is where the last such token ends, if End of the last statement is right (C45). Whenever both return, all comments of the text are between them.", "quantifier": "all texts, all dialects", "why_tests_cant": "the smaller of two positions is chosen by a comparison that looks right for any one text; the claim relates it to the whole token list", "anchors": ["sqlast/ast.go: File.Pos", "sqlast/ast.go: File.End", "sqlast/comment.go: CommentGroup.Pos", "sqlast/comment.go: CommentGroup.End", "parser.go: Parser.ParseFile"]}
{"id": "C70", "title": "The texts of kinds and positions", "statement": "Kind.String returns for every int without an index out of range: the name of the constant that has this value, if there is one (they are 0 to 31), and Kind(n) otherwise. Different kinds, and so tokens of different kinds, have different texts; different positions have different texts under Pos.String.", "quantifier": "all ints (a Kind may be any of them), all kinds of tokens, all positions", "why_tests_cant": "the generated table is a string and 33 offsets in it, and a shifted offset changes only the names around it; that no two of infinitely many values share a text is not a finite matter", "anchors": ["sqltoken/kind_string.go: Kind.String", "sqltoken/kind.go: Kind", "sqltoken/tokenizer.go: Pos.String"]}
{"id": "C71", "title": "The names genmark makes", "statement": "toSnake makes a capital small at the beginning and after a small letter, with an underscore between, and leaves every other character alone, after writing SQL as Sql everywhere; on a name made of capitalised words and SQL it gives the words in small letters joined by underscores. Two such names get the same file name exactly if they differ at most by SQL for Sql; two public names get the same marker method exactly if they are equal or differ by SQL and Sql at the beginning. run does not panic, and it makes a file exactly if the type name begins with a capital.", "quantifier": "all ASCII names, all flags", "why_tests_cant": "the generator is run on sixteen names; a collision would silently overwrite a generated file", "anchors": ["tools/genmark/main.go: toSnake", "tools/genmark/main.go: toPrivate", "tools/genmark/main.go: run"]}
{"id": "C72", "title": "A parser as an object", "statement": "Exported methods of a parser, called one after the other as long as they succeed, only go forward in the tokens, and each answers as a fresh parser on the tokens that are left would. ParseFile returns all comments of the text even if other calls have read parts of it before. ParseSQL, where no semicolon comes next, is ParseStatement and then ParseSQL if a semicolon follows, and an error otherwise; a second ParseStatement at a semicolon is an error. SetTokens on a parser that has read k tokens skips the first k of the new ones. cmd/astprinter panics where tokenizing fails; otherwise what it prints depends on the part up to the first semicolon only, and it ends.", "quantifier": "all sequences of calls that succeed, all token lists, both comment modes, all outcomes of the last call", "why_tests_cant": "tests make one call per parser; what is left over in the object between calls (index, comments) shows only in sequences", "anchors": ["parser.go: NewParserWithOptions", "parser.go: Parser.SetTokens", "parser.go: Parser.ParseFile", "parser.go: Parser.ParseSQL", "parser.go: Parser.ParseStatement", "cmd/astprinter/main.go: main"]}
{"id": "C73", "title": "Brackets of accepted scripts", "statement": "In a script that ParseSQL accepts, every closing bracket, round or square, closes the innermost open bracket, which is of the same kind and in the same statement. No part from the start closes more brackets of a kind than it opens, and square brackets are all closed. The only brackets left open are '(' directly behind a word: the parser does not read the ')' behind the arguments of a table function, so FROM f(1; is accepted and FROM f(1); is not. An accepted script with as many ')' as '(' is balanced. The same holds for the part of the text that ParseStatement, ParseExpr and ParseDataType read.", "quantifier": "every token sequence and every source text, in both modes", "why_tests_cant": "brackets are matched by some thirty functions that call each other to any depth, and what is dropped by a CROSS JOIN is not in the tree", "anchors": ["parser.go: Parser.ParseSQL", "parser.go: Parser.parseTableFactor", "parser.go: Parser.parseOptionalArgs", "parser.go: Parser.expectToken"]}
{"id": "C74", "title": "Texts one behind the other", "statement": "A text that does not begin at line 1, column 1 has the same tokens, or the same failure, with shifted positions. Whatever is written behind a text that Tokenize accepts, its tokens but the last stay the same, and the last one too unless it is continued by the next character. A line break ends every token: the tokens of a, a line break and b are those of a, the line break and those of b on later lines. If ParseSQL accepts a, then on a, a line break and b it returns the statements of a and those of b, up to positions, or fails or panics as on b alone, provided b does not begin with a semicolon. Without the line break, or with the semicolon, that is not so.", "quantifier": "all pairs of texts, the three dialects, with and without comments, both modes", "why_tests_cant": "the last token of the first text can be of any kind (a comment without end of line, a carriage return, half an operator), and the second text can fail in any way", "anchors": ["sqltoken/tokenizer.go: Tokenizer.Tokenize", "sqltoken/tokenizer.go: Tokenizer.next", "parser.go: Parser.ParseSQL"]}
{"id": "C75", "title": "The first words of a statement", "statement": "A statement that is accepted begins with the words for its kind from a table of 13 rows (SELECT or WITH; INSERT INTO; UPDATE; DELETE FROM; CREATE [MATERIALIZED] VIEW; CREATE TABLE; CREATE [UNIQUE] INDEX; ALTER TABLE; DROP TABLE; DROP INDEX), after exactly as many EXPLAINs as the tree has. No tokens begin like two kinds of statements, so the first words decide which kind of statement is returned. In an accepted script every part between semicolons begins like its statement; the statements and the parts are in the same order and equally many.", "quantifier": "all token lists of the tokenizer, both modes, all budgets; for scripts every budget that suffices", "why_tests_cant": "a second way into a parsing function (INDEX or VIEW without CREATE, a query that begins with a parenthesis, EXPLAIN before anything) shows only for inputs nobody writes", "anchors": ["parser.go: Parser.ParseStatement", "parser.go: Parser.parseCreate", "parser.go: Parser.parseDrop", "parser.go: Parser.ParseSQL"]}
{"id": "C76", "title": "Printing does not amplify: a factor of 11/3, and no less", "statement": "What is printed for an accepted text is at most 11/3 times as long as the text, counted in runes and counted in UTF-8 bytes: for the file of ParseFile, for all statements of ParseSQL together, and for the results of ParseStatement, ParseExpr and ParseDataType. The factor is the least: no bound a/b * length + c with a/b < 11/3 holds for any constant c, because for `DELETE FROM t WHERE a::a::a...` 11 characters are printed for every 3 of the source.", "quantifier": "all dialects, all source texts, both modes, all budgets, every way to parse and print floating point numbers that prints none longer than it was written with a point (C77 proves this of strconv)", "why_tests_cant": "an upper bound on the output over all inputs; a printer that writes an operand twice is exponential only in nested inputs", "anchors": ["sqlast/ast.go: File.WriteTo", "sqlast/ast.go: Cast.WriteTo", "parser.go: Parser.ParseFile", "parser.go: Parser.ParseSQL"]}
{"id": "C77", "title": "Floating point literals: read as the nearest number, printed shortest, lost if integral", "statement": "With strconv as documented: the text of a number token is read as a float64 exactly if it is a decimal number in range, and then as the nearest one, ties to even; so no literal is negative, infinite or NaN. A literal is printed so that strconv reads the same number back, with no more digits after the point than any text for the number and no longer than any text for it with a point; of the texts with as many (one or more) digits after the point none is nearer, and of two equally near ones it is the one with the even last digit. A point is printed exactly if the number is not an integer. Hence a floating point literal survives printing and parsing exactly if its value is not an integer; otherwise the parser reads an integer literal instead, clamped to 2^63-1 (99999999999999999999.0 becomes 9223372036854775807).", "quantifier": "all texts, all float64 values that are neither negative nor infinite nor NaN, all dialects, all positions, all token lists", "why_tests_cant": "2^63 values and unboundedly many texts; rounding errors show only at halfway cases; the loss of the point shows only when the printed text is parsed again and its type inspected", "anchors": ["parser.go: Parser.parseValue", "sqlast/value.go: DoubleValue.WriteTo", "sqlast/value.go: LongValue.WriteTo"]}
{"id": "C78", "title": "Printing invents nothing beyond 65 characters of its own", "statement": "The printer writes on its own only the upper case letters except Z, the lower case letters except j, k and q, the digits, newline, blank and the five characters ! ( ) , =. Any other character (a quote, a bracket [ or ], a point, a semicolon beyond the one after each statement, a minus, any character outside ASCII) occurs in what is printed for an accepted text at most as often as in the text itself. The list is exact: each of its characters is invented for some accepted text. Hence a tree with a floating point literal that is an integer (2.0), anywhere in it, is never read back from what is printed for it: a point is missing.", "quantifier": "all source texts, all dialects, both comment modes, all characters, all files, scripts, statements, expressions and types", "why_tests_cant": "a quantity that must hold for every character and every text; a printer that adds a quote or a bracket in one rare case passes every test that does not reach the case", "anchors": ["parser.go: Parser.ParseFile", "parser.go: Parser.ParseSQL", "parser.go: Parser.ParseExpr", "parser.go: Parser.ParseDataType", "sqlast/value.go: DoubleValue.WriteTo", "sqlast/ast.go: File.ToSQLString"]}
{"id": "C79", "title": "A parser can be used on after a call has failed", "statement": "A call of ParseSQL, ParseFile, ParseStatement, ParseExpr or ParseDataType that returns an error leaves a usable parser: the tokens are unchanged, what is left to read is an end of what was left before, and the next call answers as a fresh parser on that end would; ParseFile still returns all comments of the text. A failed call of ParseStatement, ParseExpr or ParseDataType has read nothing behind the next semicolon. Every call reads at least one token, failed or not, so any loop over calls reaches the end after at most as many calls as there are tokens - except that ParseStatement fails without reading anything exactly if the next word is INSERT written with a dotless i, and ParseExpr exactly if it is EXISTS written so: a loop that goes on after errors then never ends. A loop over ParseStatement that ignores errors returns the statements of ParseSQL if ParseSQL accepts.", "quantifier": "all token lists, all states, all sequences of calls, both comment modes", "why_tests_cant": "tests stop at the first error; which state an error leaves depends on the one of about fifty error returns that was taken, and the loop that never ends needs one particular letter", "anchors": ["parser.go: Parser.ParseSQL", "parser.go: Parser.ParseFile", "parser.go: Parser.ParseStatement", "parser.go: Parser.ParseExpr", "parser.go: Parser.ParseDataType", "parser.go: Parser.parseInsert", "parser.go: Parser.parseExistsExpression"]}
{"id": "C80", "title": "The size of a parsed tree is linear in the number of tokens, with factor 7/3", "statement": "A tree that the parser returns has at most 7/3 as many nodes as significant tokens were read (tokens other than whitespace and comments); for ParseFile with comments one node for the file and at most two for each comment come on top. The factor is the least possible: a query with k natural joins has 3k+5 tokens and 7k+8 nodes. sqlast.Inspect, whatever the function answers, therefore calls it for fewer than 7/3 nodes per token of the statement, and fewer than seven times per token altogether, the calls with nil included.", "quantifier": "all token lists, all texts, all dialects, all functions given to Inspect", "why_tests_cant": "tests look at the trees of a few texts; that no construct of the grammar builds more nodes than that for its tokens, at any depth of nesting, is a statement about all of them", "anchors": ["parser.go: Parser.ParseFile", "parser.go: Parser.ParseStatement", "parser.go: Parser.ParseExpr", "parser.go: Parser.ParseDataType", "parser.go: Parser.parseTableAndJoins", "sqlast/walk.go: Inspect", "sqlast/walk.go: Walk"]}
{"id": "C81", "title": "Apply and Inspect make the same traversal, USING aside", "statement": "sqlastutil.Apply, with callbacks that make no edits, makes the same calls in the same order as sqlast.Inspect: pre is called with a node where Inspect calls its function with it, post where Inspect calls it with nil behind the children, a subtree is skipped where the function answers false, and a nil operand of CASE or a missing WHERE of UPDATE is handed on by both; both return or both panic, after the same calls, and the tree is as before. The one difference is the node of JOIN ... USING, for which Apply has no case: with callbacks that see everything Apply panics on a parsed file exactly if it comes to a USING, and otherwise returns the file. Apply makes fewer than seven calls per token of a statement.", "quantifier": "all trees whose nodes have the fields of their types, all functions with any state and any answers, all parsed files, all placements of the tree in memory", "why_tests_cant": "the two functions are separate code with a case for each of some hundred node types; tests compare neither with the other and use a few trees and functions only", "anchors": ["sqlastutil/rewrite.go: Apply", "sqlastutil/rewrite.go: application.apply", "sqlastutil/rewrite.go: application.applyList", "sqlast/walk.go: Walk", "sqlast/walk.go: Inspect"]}
{"id": "C82", "title": "Rewriting with Apply and Replace changes exactly the pointers to the replaced nodes", "statement": "If post replaces nodes of a tree by other nodes with Cursor.Replace, Apply changes every pointer to a replaced node that a node of the tree holds into a pointer to the new node, keeps lists, their lengths and their order, changes nothing else in memory, and returns the root or what replaces it. If the nodes are replaced by trees of their own, the result is the tree with these trees in place of the nodes. The new node may also be one of the tree, for instance the expression inside a pair of parentheses that is removed. Nodes that Apply does not visit, such as the conditions of CASE, are not replaced.", "quantifier": "all trees without the node types and fields that Apply does not visit, whose nodes have distinct addresses; all replacements, of any number of nodes, that the types of the fields allow and that outside of lists leave nodes of type QueryStmt alone; all contents of the rest of the memory", "why_tests_cant": "each of some hundred node types has its own code in Apply, and replacements at several places and depths interact through the shared iterator; tests replace one kind of node in a few statements", "anchors": ["sqlastutil/rewrite.go: Apply", "sqlastutil/rewrite.go: application.apply", "sqlastutil/rewrite.go: application.applyList", "sqlastutil/rewrite.go: Cursor.Replace"]}
{"id": "C83", "title": "Edits all over a tree take effect exactly where they are made", "statement": "If post edits nodes anywhere in a tree with Replace, Delete, InsertBefore and InsertAfter, any number of nodes in any lists and at any depth, Apply ends normally and every struct of the tree holds afterwards exactly what the edits say: each list is the old one with every element replaced by what was inserted before it, the element or its replacement unless deleted, and what was inserted after it; each other field holds the last replacement; nothing else in memory changes, and the result is the root or its replacement. In particular deleting a set of list elements yields the tree without them.", "quantifier": "all trees without the node types and fields that Apply does not visit, whose nodes have distinct addresses; all assignments of edits to nodes that the types allow, that do nothing after a deletion, and that outside of lists only replace and leave QueryStmt nodes alone; all contents of the rest of the memory", "why_tests_cant": "all lists share one iterator whose index and step the edits change while nested lists are walked; the combinations of edits at several depths are unbounded", "anchors": ["sqlastutil/rewrite.go: Apply", "sqlastutil/rewrite.go: application.apply", "sqlastutil/rewrite.go: application.applyList", "sqlastutil/rewrite.go: Cursor.Replace", "sqlastutil/rewrite.go: Cursor.Delete", "sqlastutil/rewrite.go: Cursor.InsertAfter", "sqlastutil/rewrite.go: Cursor.InsertBefore"]}
{"id": "C84", "title": "Edits through the cursor keep the memory well typed", "statement": "Whatever sequence of Replace, Delete, InsertBefore and InsertAfter the callbacks of Apply make through their cursors, and however Apply ends (also with a panic in the middle; an insertion that panics counts as not made), every field of every struct holds values of its declared type, no struct loses a field, no set pointer becomes nil, and what Apply returns is a node. For a cursor that says where its node is, Delete panics exactly if the node is not in a list, Replace exactly if the field does not take the type of the new node, and the insertions exactly in these two cases.", "quantifier": "for all well typed memories, roots, callbacks that change the memory only through their cursor (which edits may depend on everything), and all ways Apply can end; in particular for the tree of every file", "why_tests_cant": "Callbacks are arbitrary programs and a wrongly typed field shows only when something reads it later.", "anchors": ["sqlastutil/rewrite.go: Apply", "sqlastutil/rewrite.go: Cursor.Replace", "sqlastutil/rewrite.go: Cursor.Delete", "sqlastutil/rewrite.go: Cursor.InsertAfter", "sqlastutil/rewrite.go: Cursor.InsertBefore"]}
{"id": "C85", "title": "Apply does not panic by itself", "statement": "If every struct in memory is well typed, of a type that Apply knows, and has the fields set that Apply takes for granted, and the callbacks do not panic themselves and together call Delete at most once for a node, then Apply does not panic, whatever edits the callbacks make with their cursors at whatever depth. With two deletions for one node it can panic although neither callback does (witness).", "quantifier": "for all such memories (trees, shared nodes, also cycles), all roots, all callbacks that change the memory only through their cursor", "why_tests_cant": "The callbacks are arbitrary programs, and the index of the shared iterator depends on the whole history of edits at all depths.", "anchors": ["sqlastutil/rewrite.go: Apply", "sqlastutil/rewrite.go: application.apply", "sqlastutil/rewrite.go: application.applyList"]}
{"id": "C86", "title": "Edits do not change what Apply visits", "statement": "Apply on a tree (distinct nodes, types that Apply knows, no exceptions of C38) with callbacks that make any edits through their cursors, but none to a node after deleting it, terminates. The callbacks are called for the nodes of the tree as it was at the start, pre before and post after the children, each at most once, in the order of the tree; inserted and substituted nodes are not visited, deleted and replaced ones still are; below a node only if pre answered true. It stops early only if post answers false, and panics only if a callback panics. Memory outside of the tree is left alone.", "quantifier": "for all such trees in any memory and all callbacks whose edits may depend on everything seen so far", "why_tests_cant": "The callbacks are arbitrary programs; termination and the order of visits under all possible histories of edits at all depths cannot be sampled.", "anchors": ["sqlastutil/rewrite.go: Apply", "sqlastutil/rewrite.go: application.apply", "sqlastutil/rewrite.go: application.applyList", "sqlastutil/rewrite.go: Cursor.Delete", "sqlastutil/rewrite.go: Cursor.InsertBefore"]}
{"id": "C87", "title": "The memory after Apply with editing callbacks", "statement": "Apply on a well-typed tree of distinct nodes, such as the tree of any parsed file, with callbacks that make any edits through their cursors, chosen from everything they can see; pre deletes only nodes below which it does not go, and no node is touched after its deletion. However Apply ends (normally, because post answers false, because of a node type that Apply does not know, or because a callback panics, which it does before its first edit if at all, and always where the cursor's node is nil), every struct of the tree has the fields that it had at the start with the edits that were made at its children carried out in their order; all other memory is left alone; the result is the root or what last replaced it.", "quantifier": "for all such trees in any memory, all callbacks whose edits may depend on cursor, memory and history, and all ways to end", "why_tests_cant": "The callbacks are arbitrary programs, and edits of pre, of the visits below and of post interleave on the same lists; each test fixes one history.", "anchors": ["sqlastutil/rewrite.go: Apply", "sqlastutil/rewrite.go: application.apply", "sqlastutil/rewrite.go: application.applyList", "sqlastutil/rewrite.go: Cursor.Replace", "sqlastutil/rewrite.go: Cursor.Delete", "sqlastutil/rewrite.go: Cursor.InsertBefore", "sqlastutil/rewrite.go: Cursor.InsertAfter"]}
{"id": "C88", "title": "What Apply returns is a tree again", "statement": "Apply as in C87, ending normally or because post answers false. If every node that the edits put in is the root of a tree of its own, outside of the given tree, then the returned node is the root of a tree in memory: the given tree in which every list element is what its edits made of it and every replaced node is the tree put there, at all depths; edits below a node that was itself replaced or deleted are of no importance.", "quantifier": "for all trees, memories, new trees and callbacks whose edits may depend on cursor, memory and history", "why_tests_cant": "Edits at different depths and by pre and post combine in one tree; tests fix the edits and compare one printed result.", "anchors": ["sqlastutil/rewrite.go: Apply", "sqlastutil/rewrite.go: application.apply", "sqlastutil/rewrite.go: application.applyList", "sqlastutil/rewrite.go: Cursor.Replace", "sqlastutil/rewrite.go: Cursor.InsertAfter"]}
{"id": "C89", "title": "What the list edits do to Go's arrays, and what a panic leaves", "statement": "Cursor.Delete, InsertBefore and InsertAfter, executed step by step with reflect's operations on slices (append, copy, set an element, set the length), make of the list in the field the list without the element, or with the node before or after it, and panic for exactly the same arguments as the list operations of the model of Apply; so do whole sequences of edits, with Replace among them. Delete works in place: a slice taken from the field before shows the shorter list followed by a nil. An insertion leaves such a slice as it is if the array was full, and otherwise shows in it the new list up to the old length. An insertion that panics never leaves the list as it was: it is longer by one element; for a node of the wrong type the element at that place is there twice, or a nil has been appended. Other arrays, and cells that the slice cannot reach, are left alone, however the edit ends.", "quantifier": "for all arrays, slices (offset, length, capacity), growth policies of append, indices and nodes", "why_tests_cant": "The effect depends on the capacity and on who else has the slice; tests see the field only, after edits that succeed.", "anchors": ["sqlastutil/rewrite.go: Cursor.Delete", "sqlastutil/rewrite.go: Cursor.InsertBefore", "sqlastutil/rewrite.go: Cursor.InsertAfter"]}
