# Formal model of xsqlparser in Lean 4: design

Source: `/repo` (akito0107/xsqlparser, Go), read as text only. The model lives in `lean/Verif`. Nothing in `/repo`
is built, run or changed.

## 1. Layout

| layer | files | content |
|---|---|---|
| model | `Verif/Model/*.lean` | the Go code, function by function; each definition cites file and lines |
| spec | `Verif/Spec/*.lean` | what a user expects, stated without the functions of the model: spellings of tokens, decimal numbers, lines and columns, the grammar, operator levels, tree shapes, list edits, sequences of visits |
| proofs | `Verif/Proofs/*.lean` | helper lemmas |
| properties | `Verif/Props/*.lean` | the theorems `Cnn_…` for each property, with concrete cases that meet their hypotheses |
| tests | `Verif/Tests/*.lean` | the cases of the repository's own tests, evaluated in the model |

`properties.jsonl` has the properties in English, `MANIFEST.json` their status and theorems, `seeded/LOG.jsonl` the
wrong programs on which the theorems were tried.

Names: `Cnn_…` is a full statement, `Cnn_…_partial` a part of the property (the comment says what is missing),
`Cnn_…_false` a concrete input on which the property fails.

## 2. What is modelled

| Go code | model | left out |
|---|---|---|
| `sqltoken/tokenizer.go` | `Tokenizer.lean`: all of `Tokenize`, `NextToken`, `Scan`, `next` and the helper functions | error messages, debug output |
| Go's `text/scanner` and `unicode/utf8` (not in /repo) | `Utf8.lean`: `Init`, `Peek`, `Next`, `next`, `DecodeRune`, `FullRune` | the size of the buffer, positions (the tokenizer keeps its own), messages on stderr |
| `sqltoken/kind.go`, `kind_string.go` | `Token.lean`; `KindString.lean`: the numbers of the constants, `Kind.String`, `Pos.String` | — |
| `dialect/*.go` | `Dialect.lean`, `Kw.lean`: three dialects, keyword table, reserved words | concurrency (the keyword tables are filled in `init` and only read afterwards) |
| `parser.go` | `ParserMonad.lean` (cursor), `Parser.lean` (every parse function, `ParseSQL`, `ParseFile`, `ParseStatement`, `ParseExpr`, `ParseDataType`), `Session.lean` (`SetTokens`, sequences of calls, with and without errors) | debug helpers, error messages; the parser's use of the tokenizer (`NewParser` is modelled on the token list it gets from `Tokenize`) |
| `sqlast/*.go` types | `Ast.lean`: every node the parser can build, with positions | the generated marker methods |
| `sqlast` `WriteTo`/`ToSQLString` | `Print.lean`, `Writer.lean` | `int64` overflow of the byte count, writers that panic |
| `sqlast/walk.go` | `Kinds.lean`, `Walk.lean`, `Embed.lean` | typed nil pointers inside interfaces |
| `sqlast/commentmap.go` | `CommentMap.lean` | `Pos` and `End` are parameters there; `Embed.lean` gives them for parsed files |
| `sqlast` `Pos`/`End` | `NodePos.lean`: all nodes | — |
| `sqlastutil/rewrite.go` | `Apply.lean`; the list edits also on arrays: `Slices.lean` (C89) | in `Apply.lean`: nil slice elements, nil arguments of Replace/Insert, shared backing arrays, what an insertion that panics leaves behind |
| `tools/genmark/main.go` | `Genmark.lean`: `toSnake`, `toPrivate`, `run` up to the text handed to `go/format` | names that are not ASCII, formatting, the file system, `main` |
| `cmd/astprinter` | `Session.lean` | flags, opening the file, the pretty printer |
| `*_test.go`, `e2e` | `Verif/Tests/*` | their cases, evaluated in the model (see "The repository's own tests" below); the benchmarks are left out |
| `example`, `testhelper.go` | — | all of it |

## 3. Modelling decisions

* **Text.** Go's `text/scanner` is used only through `Peek` and `Next`. A source text is the list of runes `Next`
  would return (`List Char`); at the end both return EOF for ever, as in `text/scanner`. UTF-8 decoding, replacement
  of invalid bytes, the skipped BOM and reader errors are modelled apart, in `Utf8.lean`, after the sources of the
  standard library; C58 says that a reader is, for the tokenizer, such a list. `len(string)` is the UTF-8 byte length.
* **Outcomes.** Results, returned errors, panics (`log.Panic*`, failed type assertion, nil dereference, index out of
  range) and non-termination are different, explicit outcomes. Loops and recursion without a structural bound take a
  budget; running out of it is its own outcome. So divergence can be proved (no budget suffices: C05) and termination
  too (C20 has an explicit sufficient budget, and C20/C05 show that the result does not depend on it).
* **Parser.** A parse function is a program in a free monad whose operations are the parser's cursor primitives
  (`nextToken`, `peekToken`, `prevToken`, saving and restoring `p.index`, returning an error, panicking). `P.run`
  executes them on the token list, index and comment table as the Go code does, in both comment modes. An error
  keeps no state in `P.run`; `P.attempt` turns errors into values, so that the state after a failed call can be looked at
  (C79). The recursion is tied by `Parsers.at n`, the parse functions with call depth at most `n`. Properties of *all* cursor programs
  (C16-C19, C46, C47) are proved once by induction over programs; properties of the grammar unfold the functions.
* **Simpler semantics used in proofs.** `run_runI` and `outcome_runZ` prove that a run equals one on the significant
  tokens alone, with an index (`runI`) or a zipper (`runZ`); `wp` and `pc` are total and partial correctness for it.
* **Unicode.** `strings.ToUpper` and `EqualFold` are exact on ASCII and on the runes that fold into ASCII (U+0131,
  U+017F, U+212A); other runes are left alone. All keywords are ASCII, so comparisons with keywords are exact.
* **Floating point.** `strconv.ParseFloat` and `AppendFloat` are a parameter `fns`, about which nothing is assumed
  except where a theorem says so. Model/Strconv has the value `goFloats` for it: the results that the documentation of
  Go promises, for texts that start with a digit and consist of digits and points (number tokens have no others), not
  the algorithms of the library. C77 is about `goFloats`; that `strconv` returns what it promises is trusted there.
* **Concrete inputs** in `_false` theorems and examples are evaluated by the kernel (`kernel_rfl`, a `decide`-free
  `Eq.refl`), not by compiled code.

### The repository's own tests

`Verif/Tests` replays the tests of the repository in the model: all cases of `tokenizer_test.go` (tokens with positions,
end positions, errors), `parser_test.go` (23 statements compared with the whole expected tree, positions included;
`ParseSQL`; the comment groups of `ParseFile`), `sqlast/*_test.go` (30 trees and their text), the 41 files of `e2e/testdata`
(parse, print, parse, print; `Inspect`; `Apply`), `commentmap_test.go` and `rewrite_test.go`. The inputs and expected
results were translated by a script from the Go literals. All of them agree with the model, without any change to it.
They prove nothing about other inputs; their use is to show that the model is of this code. Not replayed: the benchmarks.
In `rewrite_test.go` fields of nodes are compared instead of the printed text, as the heap of `Apply.lean` has no texts.
In `e2e/testdata/create_table/my_create.sql` the second table option is lost when the text is printed and read again
(C27); the test of the repository does not notice, as it compares only the second and the third tree.

Hypotheses that occur in theorems:

* `BuiltIn d`: one of the three dialects of the package. `Sane d`: the character classes of a dialect do not overlap;
  `BuiltIn` implies it.
* `KwOK toks`: every word token carries its own upper case as keyword. `tokenizeFrom_kwOK` proves it for everything
  the tokenizer returns. It is false only for token lists made by hand.
* `wf` (`Spec/WellFormed.lean`): trees whose printed form means the tree. `shape` and `plain` (`Spec/Shape.lean`) split
  it: `shape` relates parts of a tree to each other and holds for every tree the parser returns (C49), `plain` restricts
  single names (which must be none of 18 keywords, C64), literals and clauses. What `plain` excludes is excluded because the code prints it wrongly; C27 has
  counterexamples.

## 4. Properties

| id | status | theorems about | method |
|---|---|---|---|
| C01 | proved | tokenizer | induction over the scan loop against an inductive spelling relation (`Spec/Spelling.lean`) |
| C02, C03 | proved | tokenizer, ComparePos | invariant of the scan loop |
| C04 | partial, false as stated | tokenizer | witness (line break inside a literal); exact positions of all tokens (`tokenEnd`), and an iff for the lines |
| C05 | partial, false as stated | tokenizer | an unclosed quoted identifier diverges; exact characterisation of divergence |
| C06 | proved | tokenizer | exact characterisation of error and success |
| C07 | proved | tokenizer | induction on the literal |
| C08 | partial, false as stated | tokenizer | witness (`*` inside a comment); the text is characterised for every body (`Spec/CommentText.lean`), and with it when it is preserved |
| C09 | proved | tokenizer | simulation of the two modes |
| C10 | proved | tokenizer | longest match |
| C11 | proved | MakeKeyword, cache | lookup lemma over the whole table |
| C12 | partial, false as stated | parser | witness; quotes never matter to a keyword test |
| C13 | proved | ComparePos | arithmetic |
| C14, C15 | proved | tokenizer | induction over the tokens |
| C16, C17 | proved | cursor programs | simulation |
| C18, C19 | proved | comment collection | invariant of the comment table; the sorted order is unique although Go's map order is not |
| C20 | proved | parser | lexicographic measure (tokens left, rank of the function) |
| C21 | partial, false as stated | parser | witnesses of panics; input that does not begin like a statement; a condition on neighbouring tokens that excludes panics (`C21_safe_partial`); C65 says where panics happen |
| C22 | proved | parser | existence and uniqueness of the tree; all returned trees respect levels |
| C23-C25 | partial | printer, tokenizer, parser | mutual induction on trees; for `wf` trees |
| C26 | proved | ParseSQL | exact characterisation of accepted lists |
| C27 | partial, false as stated | parser, printer | witnesses; proved for all accepted texts with a `plain` tree |
| C28 | partial, false as stated | parser | clamped above 2^63-1; exact characterisation |
| C29 | partial, false as stated | parser | CROSS JOIN loses the joins before it; nothing is lost without CROSS. What is lost are well nested blocks directly before CROSS, and the tree is that of the text without them (`C29_cut_partial`, `C29_same_tree`: by induction over the grammar, `Thin`, and C54) |
| C30 | partial, false as stated | parser | no input gives a materialized view |
| C31 | partial, false as stated | parser | LIMIT and HAVING become aliases; exactly behind a table or column without alias: elsewhere they are what they should be (`C31_limit_partial`, `C31_having_partial`, from C54), there never (`C31_limit_only`, `C31_having_only`, from C49) |
| C32-C35 | proved | WriteTo | refinement to a list of writes, for an arbitrary writer |
| C36, C37 | proved | Walk, Inspect | trace semantics, for an arbitrary stateful visitor |
| C38, C39 | partial, false as stated | Walk | witnesses; exact characterisation of panics |
| C40-C42 | proved | Apply | heap of nodes, arbitrary callbacks |
| C43 | partial, false as stated | Apply | Replace panics for five node types |
| C44 | partial, false as stated | NewCommentMap | loop invariant; for parsed files, Pos and End are defined at every node that Inspect reaches, except at the listed traps, by induction on the tree; with a comment in the file and a trap at its end the function panics; exact condition for the panic by induction over the nodes (`PanicNode`, Spec/CommentPlace.lean) |
| C45 | partial, false as stated | Pos, End of all nodes | invariant of all parse functions for what an entry point returns, and from the grammar (C50, C53) for all nodes below a statement; the exceptions for expressions, types, queries and statements have witnesses |
| C46 | proved | cursor programs | a run that does not reach the end is unchanged by more tokens (C61 and C62 say when this is so) |
| C47 | proved | parser | relational parametricity: two runs on token lists that differ in positions |
| C48 | proved | printer | induction on trees |
| C49 | proved | parser | invariant of all parse functions |
| C50 | proved | parser | invariant of all parse functions: the tokens read, with their positions, belong to the language of the tree (`Spec/Grammar.lean`) |
| C51 | proved | parser | relational parametricity with a renaming: keyword spellings differ in letter case |
| C52 | proved | parser | the same relation: renaming identifiers and string texts commutes with every parse function |
| C53 | proved | parser, all nodes | C50 and one lemma per grammar rule: a sentence for a node contains one for each child (`Spec/Within.lean`) |
| C54 | proved | parser, all entry points | per grammar rule a symbolic execution of the parse function on any sentence of the rule followed by any permitted token (`Proofs/Read*.lean`), mutual induction on the tree (`ReadTree`), then from position-free tokens to the tokens by C47 |
| C55 | proved | NewCommentMap | loop invariant: what the stack, the last removed statement and the previous node are; the specification (`Spec/CommentPlace.lean`) speaks only of the list of nodes and positions |
| C56 | proved | parser.go, all parse functions | a cost semantics (`P.ops`, Spec/Cost.lean) that counts cursor operations; rules for it and one bound per parse function in the style of the termination proof: consuming a token pays 200 operations, and every loop consumes a token per iteration; the calls are counted, not the insignificant tokens skipped in a call |
| C57 | proved | sqlast printing, parser | from C49 (parsed trees have the shape), invariance of `shape` under `erase`, and C23–C26; the shape conditions are in Spec/Shape.lean and name neither printer nor parser |
| C58 | proved | text/scanner, unicode/utf8, NewTokenizer | refinement: an invariant between scanner state and the list of characters still to come, kept by `Peek` and `Next`; decoding is compared with the encoder of Lean's library (`String.utf8EncodeChar`), not with a second decoder |
| C59 | proved | all parse functions | the atoms of a tree are listed by a separate recursion (`Expr.atoms`, …), and each grammar construct of C50 is shown to have the atoms of its parts in order; the parser enters only through C50. That no string is lost holds without CROSS and column definitions, and `C59_kept_false` shows both conditions are needed |
| C60 | proved | sqlast printing, tokenizer, parser | counting: the printed text has q + 2 quotes for a literal with q quotes in it (induction over the printer), a text from which the tree is read has at least 2q + 2 (C01 for the tokens, C59 for the tree), and nothing else in a tree makes up the difference |
| C61 | proved | all parse functions | a Hoare logic for cursor programs with two fences (`P.within`: never go back before `lo`, never ask behind a semicolon at `L`), proved for every parse function in Proofs/Barrier.lean; a run between the fences is the same in any other list that agrees there (`within_runI`); `C61_script` then by induction over the loop of ParseSQL |
| C62 | proved | all parse functions | the same logic with the left fence at the start of the call, and with the right fence at the end of the list |
| C63 | proved | sqlast Walk, Pos methods, parser | `Placed L t`: every sentence of the language `L` of C50 begins at `Pos` of the tree `t` (or `Pos` is unset), and every traversal of `t` (C36) has its positions in the order of the sentence; one lemma per node type. The specification (`Spec/Order.lean`) speaks of tokens and positions only; `Tree.reordered` lists the six exceptions, and `C63_exceptions_false` has a text for each |
| C64 | proved | all parse functions, printing | the round-trip induction of C23–C25 is done for names that may be keywords: at every place where the parser looks ahead for a keyword, either no name can stand there or the keyword is one of the 18 of `KW.hard`; a renaming keeps `wf` (`Proofs/RenameWf.lean`), and for each of the 37 others a statement is run in the kernel |
| C65 | proved | all parse functions | a Hoare logic (`pw`, Proofs/Panic.lean) whose assertion about a panic is that the cursor is at a row of the table of Spec/Panic.lean; one lemma per parse function. The table lists tokens before and after the cursor and does not mention the parse functions. Each row is shown to be needed by a text run in the kernel (`C65_table`). What remains coarse: 6 of the 45 rows say only that some token was read earlier (such as BETWEEN, and AND is required now), since an expression stands between; the row for the elements of a table holds at most places of a table definition |
| C66 | proved | sqlast printing, parser | from C23-C26 (a text is read to at most one tree) and the independence of the text from positions (`wt_erase`); for COPY, which the parser never builds, the values are read back with a separate reader of the data line (`Spec/CopyData.lean`). `C66_literal_false`, `C66_read_false` and `C66_copy_false` show that the conditions are needed |
| C67 | proved | parser | the sentences of the grammar of C50 consist of tokens `inStatement` (`Proofs/Alphabet.lean`, by induction over the trees), and the input is such a sentence; what a CROSS JOIN drops (C29) has been read as joins before. That the tokens occur is evaluated for one text |
| C68 | proved | dialects, tokenizer, parser | every token of a text without `char` tokens is a token under the union of the dialects (`joinDialect`, `Proofs/Dialects.lean`): where a word would go on, the character that ends it is a `char` token. By C67 accepted texts have none. Words are described by `Spec/Dialects.lean`. `C68_statement_false`: not so for `ParseStatement` |
| C69 | proved | sqlast/ast.go, parser | from the grammar (C50), the comments of the file (C18, C19), the positions of tokens (C02, C03) and those of statements (C45). `C69_span_false` has the two kinds of exceptions |
| C70 | proved | sqltoken/kind_string.go | the 32 constants by evaluation, all other `int`s by the range check; `Kind.name` is the specification. Injectivity from that of decimal numbers |
| C71 | proved | tools/genmark | `snakeSpec` says what becomes of a letter, given the one before it. The regular expression replaces non-overlapping matches from left to right; no two matches can overlap, which is why the specification is local |
| C72 | proved | parser.go, cmd/astprinter | a call stays in front of where it began (C62), so the cursor only goes forward and C62 applies again; the comment table by the invariant of C18, which every program keeps. Disagreement: `SetTokens` keeps the index |
| C73 | proved | parser | the sentences of the grammar of C50 nest (`Proofs/Alphabet.lean`, the same induction as for C67); the input is such a sentence. For what a CROSS JOIN drops (C29), the invariant of the loop over joins says that the tokens since the first table nest. Disagreement: the `)` of a table function is not read |
| C74 | proved | tokenizer, parser | every situation in which `next` returns a token (`NextRel`) is one with more text behind, unless the token ends the text and is continued, and with another starting position; then the loop law of C61 for tokens and C47 for the positions. Disagreement: a semicolon may begin a script but not the second of two joined ones |
| C75 | proved | parser | from the grammar (C50), except that the grammar alone would allow a query to begin with `(`: there, and for EXPLAIN, the switch of `ParseStatement` is run on the first token; scripts by the splitting of C26 and the barrier of C61. The table (`beginnings`) and the kind of a tree (`Stmt.form`) are in Spec/Beginnings, no row of the table is a prefix of another |
| C76 | proved | parser and printer | from the grammar (C50): by induction over the grammar every sentence of a tree is long enough for the text of the tree (`Fits`, in thirds of a character, with a slack of 4/3 for expressions and 8/3 for types; the cast `x::t` is tight). Measures and token sizes in Spec/Size. The least factor from completeness (C54) for a family of texts. `strconv` enters as the hypothesis `FloatFns.Short` (no text with a point is printed longer; `goFloats_short` proves it of `strconv`. Without `with a point` it would be false: `99999999999999999999` is printed with 21 digits, but such a token is read as an integer). Source texts are rune lists: a byte that is not valid UTF-8 is read as U+FFFD, so it counts 3 bytes |
| C77 | proved | `strconv`, parser, printer | `goFloats` computes the documented results of `ParseFloat` and `AppendFloat('f', -1)` with exact natural arithmetic: bisection over the bit patterns for reading, largest power of ten first for printing. The spec (Spec/Float) is independent: IEEE values as fractions, `Nearest` over all floats, `DecimalText` as an inductive relation. The rest by C23, C28, C59. It also discharges the hypotheses about numbers of C60 (`goFloats_no_quote`) and C76 (`goFloats_short`, `C77_file_size`). The algorithms of the library (Eisel-Lemire, Ryu) are not modelled |
| C78 | proved | tokenizer, parser, printer | each token counts the character at most as often as its piece of the text (C33); every sentence of the grammar (C50) has at least the counts of the printed tree (`Expr.keeps`, `Stmt.keeps`, one lemma per production); the numbers by `goFloats_keeps` (C77). `C78_least`: a witness for each character in the list. The last part counts points twice, with and without those of the numbers (`Expr.floats_text`) |
| C79 | proved | parser with the state after an error (`P.attempt`: an error becomes a value, the state stays) | the theorems about programs (view, bounds, comments) apply to the attempt of a program; progress by symbolic execution of the first step of each entry point (`adv`), the rest by the bounds of C61. `C79_statement_stuck` and `C79_expr_stuck` are exact |
| C80 | proved | parser, embedding of the tree, `Walk` | every rule of the grammar (C50) is charged: a sentence with `n` tokens has a tree of at most `7n/3` nodes, with a surplus per kind of phrase that makes the induction work (4/3 for expressions, 2/3 for queries and statements, -2/3 for tables and types). For this the rule for dotted names was tightened: the parser never builds a `CompoundIdent` of one name, which would break the bound. `C80_least`: accepted texts with 7 nodes for 3 tokens (completeness of the grammar, C54). Calls of `Inspect`: `Traversal` (C36) counted, with at most one nil child per node by a table over all kinds |
| C81 | proved | Apply, Walk, parser | `apply` (budget, heap of nodes, names of fields) and `walk` (structural, trees) side by side, for an arbitrary function `g` with state: outcome and final state agree (`C81_alike`). The tables of cases are compared over all kinds (`decide`, lifted); USING is hidden from `Inspect` by giving its nodes an unknown type, which turns the difference into an equation. Panics by C38, number of calls by C80; for every placement of a parsed tree in memory |
| C82 | proved | Apply | The whole memory after `Apply` is given: `Obj.replaced` for the nodes of the tree, unchanged elsewhere (`C82_replace`, a corollary of `C83_edit`). In the middle of a struct the invariant is a list of fields done and a set of addresses done, inside a list the part done and the rest. A table of all kinds (`decide`, lifted) says that every field but `unwalkedFields` is visited once and under its own name unless it holds a QueryStmt. `C82_tree` reads the result as a tree; `C82_case_false` shows what is not replaced |
| C83 | proved | Apply | C41 is about one list, with other nodes left alone; here all nodes are edited in one run. The whole memory after `Apply` is given (`C83_edit`): `Obj.edited` for the nodes of the tree, unchanged elsewhere. Induction over the budget as for C82, which is a corollary; the effect of the edits of one element is that of C41 (`edits_at`, `edits_total`), the iterator is saved and restored around nested lists. `C83_delete` reads the result as a tree for deletions |
| C84 | proved | Apply | Arbitrary callbacks that change the memory only through their cursor (`Through`; the edits may depend on everything), over an arbitrary heap; `Heap.Typed` (Spec/Typed.lean) is Go's typing of fields. Every edit preserves `Typed` and `SameStructs` (Proofs/Typed.lean); then induction over the budget of `apply`. `C84_typed`; `C84_panics` says exactly when each method panics; `C84_tree` and `C84_file`: trees of files meet the hypothesis; `C84_through`: the editing callbacks of C83 do. Found missing by a mutant (Replace without the type check) that the earlier claims let pass |
| C85 | proved | Apply | Invariant for every call of `apply`: `Typed`, `Ready` (Spec/Typed.lean), and the iterator: outside lists unchanged, in a list the index does not go back and the step sinks by at most the number of deletions, so that the next index is not negative. What the cases of the type switch take for granted is a table over all kinds (`needs_table`, `decide` lifted). `C85_tree`: trees without the exceptions of C38 are ready. Memories that hold comment groups are not covered (Apply has no case for them). `C85_twice_false`: Delete in `pre` and again in `post` removes the next element and makes the index -1 |
| C86 | proved | Apply | The calls are a `Tour` (Spec/Tour.lean) of the tree as it was at the start. Induction on the budget: the visit of a child changes only nodes of its subtree and one field of its parent; the subtrees and fields that are still to be visited are as at the start because addresses are distinct and no step edits a field that a later step visits (`label_table`, all kinds). In a list the next index is right after what became of the element (`At`, from C41). Generalises C40 to callbacks that edit, answer false and panic. `C86_twice_false`: after a second Delete the first element is visited again and the next one never; `C86_endless_false`: with two deletions a callback can make Apply visit a node that it has put in, here the row itself, and the recursion has no end |
| C87 | proved | Apply | The callbacks (`noted`, Spec/Rewrite.lean) make the edits that an arbitrary function of cursor and world gives and log them; if not all edits of a call are possible, the callback panics without making any. What an edit that panics leaves behind is not part of this model (C89 has it): an insertion of a node of the wrong type panics after the list has been made longer (rewrite.go:82-85 and 95-98). `C87_memory`: the memory is that of the start with `Obj.edited (madeAt log)` at each node. `C87_file`: every file's tree, also where Apply panics: at node types that it does not know (`unknown_table`) and at nil fields that it does not check (`unchecked_table`), as the callbacks panic for nil. Induction on the budget; `Wrote` says what a part of the run did to the visited subtrees, `Stage` what the calls for one node did to the field of the parent. Where the cursor has a wrong name (C43) no field has that name (`misnamed_table`, all kinds), so no edit is possible there. Generalises C82 and C83, where the edits are fixed in advance, made by post only and possible |
| C88 | proved | Apply | `Tree.remadeRoot` (Spec/Remake.lean) is the tree with the edits made, by recursion over the tree only. `C88_tree`, and `C88_file` for every file's tree: the memory after Apply has it at the result; from C87 and, by induction on the tree, that a struct with edited fields (`Obj.edited`) is the root of the remade tree. Generalises `C82_tree` and `C83_delete` to edits that depend on the run. The hypothesis on the new nodes is about the edits that were made (the log) |
| C89 | proved | Cursor | Model/Slices.lean: arrays as lists of cells, slices with offset, length and capacity; `reflect.Append` in place or into a new array of any capacity; `reflect.Copy` as memmove; a panic keeps the steps done so far. Cell by cell (`shift_left`, `shift_right`), `insert_spec`, `delete_spec`. `C89_kept`: nothing else in memory changes. `C89_model`: `Cursor.delete/insertBefore/insertAfter` of Model/Apply.lean panic for the same arguments and leave the same list, so that these are no longer trusted as they stand. `C89_edits`: the same for the sequences of edits that a callback makes (`Cursor.edits`), for every policy of `append`. "An edit that panics leaves the list as it was" is false of the insertions: `C89_undone_false`. That a runtime panic, which the caller of Apply might recover from, leaves a duplicate or a nil in the tree is not part of the model of Apply itself. Whether two fields share an array is not modelled there either |

## 5. Where the code and the properties disagree

Each item is a theorem (given in parentheses) or follows from the grammar rules marked QUIRK in `Spec/Grammar.lean`, which
C50 proves the parser to follow.

Tokenizer: a line break inside a literal is not counted (C04); an unclosed quoted identifier loops for ever (C05); a
`*` inside a block comment garbles its text, and CR LF loses its LF there (C08); an error of the reader is
not reported, and the text before it is parsed as if complete: a truncated `DELETE FROM t WHERE ...` can be read as
`DELETE FROM t` (C58).

Parser: quoted words are keywords (C12); 18 keywords cannot be used as names at all, while others, such as FROM or KEY, can (C64); malformed input panics, for example `SELECT 1` without semicolon (C21), at 45 places besides the end of the input (C65); integers
are cut off at 2^63-1 (C28); CROSS JOIN forgets the joins before it (C29); MATERIALIZED is lost (C30); LIMIT and HAVING
after a table become its alias (C31); every statement needs a semicolon, even the last (C26); the `)` after the arguments
of a table function is not read; NUMERIC needs a precision; a type can say WITH WITHOUT TIME ZONE, and TIME forgets
its zone; only the last of several defaults or groups of constraints of a column counts; the name of a constraint that does
not follow is lost; a comma after a table option ends the options; `REFERENCES t (a, b,)` loses the columns; `CREATE INDEX
UNIQUE INDEX` is accepted; an AS at the end of the input is lost.

Printer: quotes inside strings are not doubled (C60), table options are joined by commas that the parser does not accept (C27);
a float without fraction prints as an integer; no parentheses are added, so that a tree built by hand without Nested nodes
can be printed as a text with another meaning (C57).

Printing: a string literal with a quote in it can be printed as a different condition, as in `DELETE FROM t WHERE a = 'x'' OR ''1'` (C66); the values of COPY are not escaped (C66).

`FROM f(1;` is accepted and `FROM f(1);` is not; `FROM (SELECT b FROM f();` is accepted (C73, `parseTableFactor` and `parseOptionalArgs`).

`SetTokens` on a used parser skips as many tokens as have been read before; astprinter panics on texts that cannot be tokenized, since it drops the error of `NewParser` (C72).

ParseStatement fails at `"ınsert"` (dotless i) without reading it, ParseExpr at `"exısts"`: a loop that goes on after an error never ends (C79).

Other packages: Walk panics on, or skips, some node types (C38), visits the parts of six node types in another order than
that of the text (C63), and ignores the visitor that Visit returns (C39); Replace
panics for fields named QueryStmt (C43); Delete called twice for a node, in pre and in post, removes its neighbour and can make Apply panic (C85); NewCommentMap panics on files with comments only, and on files with a comment
whose last statement is CREATE TABLE with a last column without constraints (C44); a comment inside a statement can be
attached to an earlier statement (C55); Pos and End of subqueries are exchanged, and many positions are never set: parenthesised queries, derived tables, set operations, WITH,
CREATE INDEX, EXPLAIN, VALUES, ASC and DESC, date and time types (C45), `::` casts, window frames, LIMIT, USING, RIGHT and
FULL (C50, rules with `unset`); the number after OFFSET has the position of the keyword, NOT LIKE ends after NOT, LEFT OUTER
after LEFT, and BIGINT without UNSIGNED stores the position of the token after it (C50); End panics for a column definition without
constraints and for a CREATE TABLE without elements (C45). genmark would write the files of types named `SQLx` and `Sqlx` under one name, and leaves
a capital after a digit or another capital as it is, so that `FooBAr` becomes `foo_bAr` (C71).

## 6. Trusted base

* Lean's kernel (4.33.0) and the definitions of core Lean. No Mathlib module is imported.
* The axioms below, as `#print axioms` reports them. No axiom is added, there is no `sorry`, no `native_decide`, no
  `bv_decide`.
* That the definitions in `Verif/Model` say what the Go text says. They were written by reading; no Go code was run.
* That the statements in `Verif/Spec` and `Verif/Props` say what `properties.jsonl` says.

<!-- axioms begin -->
Axioms of each theorem:

* **none** (1): `C37_unique`
* **propext** (30): `C15_blank_separates`, `C36_cte_order`, `C38_panic_false`, `C38_missing_false`, `C39_depth_false`, `C40_unchanged`, `C42_record`, `C43_exists_false`, `C44_panic_false`, `C44_last_comment`, `C44_comments_only_false`, `C45_exceptions`, `C45_false`, `C45_statement_exceptions`, `C55_inside_false`, `C63_exceptions_false`, `C67_kind_occurs`, `C67_unread_false`, `C68_differ`, `C69_span_false`, `C73_unclosed`, `C74_conditions`, `C81_using_false`, `C82_case_false`, `C84_through`, `C85_mild`, `C85_twice_false`, `C86_all`, `C86_orderly`, `C86_twice_false`
* **propext, Quot.sound** (96): `C01_tokenize_lossless`, `C04_lines_false`, `C04_lines_partial`, `C04_columns_partial`, `C04_exact`, `C05_fuel_irrelevant`, `C05_unclosed_identifier_diverges`, `C05_terminates_partial`, `C07_string_literal`, `C07_national_literal`, `C07_string_alone`, `C08_comment_text_false`, `C09_disable_comments`, `C10_longest_match`, `C10_word`, `C10_number`, `C11_make_keyword`, `C11_case_insensitive`, `C12_quoted_keyword_false`, `C12_quotes_ignored`, `C18_no_comments_without_option`, `C21_panic_false`, `C27_string_quote_false`, `C27_options_false`, `C28_overflow_false`, `C28_clamped`, `C28_value_partial`, `C28_denotes`, `C29_cross_join_false`, `C30_materialized_false`, `C31_alias_taken`, `C31_limit_false`, `C32_trace_faithful`, `C32_count`, `C33_nil_iff`, `C33_stops`, `C34_offered`, `C35_agree`, `C35_builder`, `C36_record`, `C36_nesting`, `C36_field_order`, `C36_typed`, `C37_siblings`, `C37_pruned`, `C38_nil_iff`, `C38_all_nodes_partial`, `C38_stmt_partial`, `C38_panics_iff`, `C38_exceptions`, `C39_ignored`, `C39_self_partial`, `C41_edits`, `C42_stop`, `C43_cursor_partial`, `C43_replace`, `C43_false`, `C45_source`, `C48_text_ignores_positions`, `C53_nested`, `C59_kept_false`, `C64_names`, `C65_table`, `C66_literal_false`, `C66_read_false`, `C66_copy_data`, `C66_copy_false`, `C67_sym_occurs`, `C68_statement_false`, `C68_alphabets`, `C70_pos_string_injective`, `Genmark.C71_snake`, `Genmark.C71_snake_words`, `Genmark.C71_private`, `Genmark.C71_run`, `Genmark.C71_output`, `C77_survives_false`, `C78_least`, `C79_same`, `C82_replace`, `C82_tree`, `C83_edit`, `C83_delete`, `C84_typed`, `C84_panics`, `C84_tree`, `C84_file`, `C85_no_panic`, `C85_tree`, `C86_tour`, `C86_once`, `C86_endless_false`, `C87_memory`, `C87_file`, `C88_tree`, `C88_file`
* **propext, Classical.choice, Quot.sound** (274): `C02_positions_contiguous`, `C03_positions_increase`, `C04_lines_iff`, `C05_diverges_iff`, `C06_error_iff`, `C06_success_iff`, `C08_comment_text_exact`, `C08_preserved_iff`, `C08_comment_text_partial`, `C08_star_garbled`, `C12_quoted_partial`, `C13_comparePos`, `C13_comparePos_lex`, `C14_word_string`, `C15_render_tokenize`, `C16_trivia_irrelevant`, `C16_trivia_irrelevant_state`, `C16_entry_points`, `C17_comment_mode`, `C17_entry_points`, `C18_comments_complete`, `C18_comments_complete_text`, `C18_sort_unique`, `C19_sorted`, `C19_no_code_inside`, `C19_trailing_comment`, `C19_maximal`, `C19_tokenized`, `C20_terminates`, `C20_budget_irrelevant`, `C20_source`, `C21_safe_partial`, `C21_unknown_partial`, `C22_precedence`, `C22_unique`, `C22_levels`, `C23_expr_roundtrip_partial`, `C24_query_roundtrip_partial`, `C25_statement_roundtrip_partial`, `C25_type_roundtrip_partial`, `C26_splits`, `C26_last_semicolon`, `C26_statements_roundtrip`, `C27_reparse_partial`, `C27_expr_reparse_partial`, `C27_statements_reparse_partial`, `C29_cut_partial`, `C29_same_tree`, `C29_no_cross_partial`, `C30_never`, `C30_view_partial`, `C31_limit_partial`, `C31_limit_only`, `C31_having_partial`, `C31_having_only`, `C34_prefix`, `C38_parsed`, `C40_calls`, `C40_order`, `C41_returns`, `C44_parsed_partial`, `C44_file_span_false`, `C44_plain_column_false`, `C44_panics_iff`, `C44_parsed_panics_iff`, `C44_parsed_otherwise`, `C44_distributes_partial`, `C44_returns`, `C45_bracket_partial`, `C45_subquery_exchanged`, `C45_statement_partial`, `C45_query_partial`, `C45_table_ref_partial`, `C45_data_type_partial`, `C45_statement_pos`, `C45_nodes_partial`, `C45_reference_key`, `C46_local`, `C46_statement`, `C47_statement`, `C47_expr`, `C47_data_type`, `C47_sql`, `C48_reprint`, `C49_statement_shape`, `C49_expr_shape`, `C49_statements_shape`, `C50_statement_grammar`, `C50_expr_grammar`, `C50_dataType_grammar`, `C50_script_grammar`, `C50_file_grammar`, `C51_statement`, `C51_expr`, `C51_data_type`, `C51_sql`, `C52_statement`, `C52_expr`, `C52_data_type`, `C52_sql`, `C53_parts`, `C53_identifier`, `C53_string`, `C53_integer`, `C54_script_complete`, `C54_statement_complete`, `C54_expr_complete`, `C54_dataType_complete`, `C54_unambiguous`, `C54_file_complete`, `C55_place`, `C55_trailing`, `C55_leading`, `C55_in_order`, `C55_parsed`, `C56_linear`, `C56_at_least`, `C56_source`, `C57_expr_shape`, `C57_expr_survives_iff`, `C57_statement_shape`, `C57_statement_survives_iff`, `C57_statements_survive_iff`, `C57_type_survives_iff`, `C57_right_operand`, `C57_left_operand`, `C58_runes`, `C58_decodes`, `C58_chunks`, `C58_valid`, `C58_lossless_iff`, `C58_error_ends`, `C58_error_ignored`, `C59_expr`, `C59_dataType`, `C59_statement`, `C59_script`, `C59_expr_kept`, `C59_statement_kept`, `C59_script_kept`, `C59_places`, `C59_names_and_strings`, `C59_strings_kept`, `C60_expr_no_quotes`, `C60_statement_no_quotes`, `C60_quote_never_survives`, `C60_statements_no_quotes`, `C60_text_with_quote`, `C61_barrier`, `C61_stops`, `C61_script`, `C61_pieces`, `C62_context`, `C62_never_backs_out`, `C62_semicolon_guards_end`, `C63_expr`, `C63_dataType`, `C63_statement`, `C63_file`, `C63_sorted`, `C64_keyword_as_name`, `C64_keyword_not_a_name`, `C65_panicAt`, `C65_causes`, `C65_semicolon`, `C65_terminated`, `C65_mismatch`, `C65_source`, `C66_expr_text_iff`, `C66_type_text_iff`, `C66_statement_text_iff`, `C66_script_text_iff`, `C66_read_text_iff`, `C67_script`, `C67_source`, `C67_statement`, `C67_expr`, `C67_dataType`, `C68_agree`, `C68_exact`, `C68_mysql`, `C68_common`, `C69_pos`, `C69_covers`, `C69_end`, `C70_kind_string`, `C70_kind_string_injective`, `C70_token_kinds`, `Genmark.C71_file_names`, `C72_forward`, `C72_fresh`, `C72_comments`, `C72_stepwise`, `C72_second_statement`, `C72_set_tokens`, `C72_astprinter`, `C73_pieces`, `C73_nested`, `C73_prefix`, `C73_square`, `C73_balanced`, `C73_source`, `C73_statement`, `C73_expr`, `C73_dataType`, `C74_shift`, `C74_local`, `C74_newline`, `C74_tokens`, `C74_script`, `C75_begins`, `C75_one_kind`, `C75_decides`, `C75_script`, `C75_source`, `C76_file`, `C76_script`, `C76_statement`, `C76_expr`, `C76_dataType`, `C76_runes`, `C76_bytes`, `C76_least`, `C77_nearest`, `C77_readback`, `C77_parsed`, `C77_shortest`, `C77_closest`, `C77_point`, `C77_floatOK`, `C77_fraction_survives`, `C77_integer_lost`, `C77_literal_survives_iff`, `C77_file_size`, `C77_expr_numbers`, `C77_script_numbers`, `C78_file`, `C78_script`, `C78_statement`, `C78_expr`, `C78_dataType`, `C78_mem`, `C78_expr_fractions`, `C78_statements_fractions`, `C78_integer_never_survives`, `C79_forward`, `C79_fresh`, `C79_comments`, `C79_progress`, `C79_statement_stuck`, `C79_expr_stuck`, `C79_dataType_reads`, `C79_drain`, `C79_semicolon`, `C79_harvest`, `C80_expr`, `C80_dataType`, `C80_statement`, `C80_script`, `C80_file`, `C80_inspect`, `C80_least`, `C81_alike`, `C81_same`, `C81_panics_iff`, `C81_parsed`, `C81_calls`, `C89_delete`, `C89_insert`, `C89_wrong_type`, `C89_undone_false`, `C89_kept`, `C89_model`, `C89_edits`
<!-- axioms end -->
