{"id": "C01", "title": "Token spans are exact", "statement": "For every input text and every lexer state reachable on it, a token handed to the parser satisfies 0 <= Pos <= End <= len(input), and its String is byte-for-byte input[Pos:End] (the content without delimiters for quoted identifiers and strings).", "quantifier": "all byte strings as input; all tokens produced while scanning it, in every lexer state (including after lookahead and backtracking)", "why_tests_cant": "Tests fix a few hundred SQL texts; the span arithmetic differs per token class and depends on arbitrary surrounding bytes (escapes, comments, EOF boundaries).", "anchors": ["parser/lexer.go:consumeToken", "parser/lexer.go:consumeNumber", "parser/lexer.go:consumeIdent", "parser/lexer.go:consumeString"]}
{"id": "C02", "title": "Tokenisation makes progress and terminates", "statement": "Scanning any input yields finitely many tokens: each successful scan either reports end of input or strictly advances the offset, so at most len(input) tokens exist, and token spans are strictly ordered and never overlap.", "quantifier": "all byte strings; the complete scan of each", "why_tests_cant": "An infinite loop on one unlucky byte sequence cannot be excluded by finitely many runs.", "anchors": ["parser/lexer.go:consumeToken", "parser/lexer.go:skipComments", "parser/lexer.go:skipSpace"]}
{"id": "C03", "title": "No source text disappears between tokens", "statement": "Between the end of one token and the start of the next the input holds only white space, complete comments and the delimiters of quoted tokens: every other byte of the input belongs to some token.", "quantifier": "all byte strings; every pair of consecutive tokens", "why_tests_cant": "A tokenizer that silently skips bytes looks right on every test that does not contain exactly those bytes.", "anchors": ["parser/lexer.go:consumeToken", "parser/lexer.go:skipComments", "parser/lexer.go:skipSpace"]}
{"id": "C04", "title": "White space and comments are insignificant", "statement": "Putting any sequence of white space and well-formed comments in front of a token changes neither the token's kind nor its text; only its position shifts by the length of what was inserted.", "quantifier": "all gap texts (any mix of white space and comments), all remaining inputs, all lexer states", "why_tests_cant": "The set of gaps is infinite and interacts with every token class.", "anchors": ["parser/lexer.go:skipComments", "parser/lexer.go:consumeSingleLineComment", "parser/lexer.go:consumeMultiLineComment"]}
{"id": "C05", "title": "String literals are scanned by their grammar", "statement": "A scan starting at a single quote succeeds exactly when the text has a closing quote reachable through characters, backslash escapes and doubled quotes; the token is that body unchanged, and it ends at the first unescaped, undoubled quote.", "quantifier": "all byte strings following an opening quote", "why_tests_cant": "Escapes and doubled quotes interact in unboundedly many ways; a single missed case is an injection vector.", "anchors": ["parser/lexer.go:consumeString"]}
{"id": "C06", "title": "Number literals are scanned by their grammar", "statement": "A number token is exactly sign? (0x hexdigit+ | digit+ ('.' digit*)? ([eE] sign? digit+)?), its kind (integer / float) and base follow from its form, and the byte after it cannot continue an identifier.", "quantifier": "all byte strings; every number token", "why_tests_cant": "The scanner is a hand written state machine with flags; the space of flag histories is unbounded.", "anchors": ["parser/lexer.go:consumeNumber"]}
{"id": "C07", "title": "Identifiers and keywords are classified correctly", "statement": "An unquoted word is the longest run of identifier bytes; it is a keyword token iff its upper-cased text is in the keyword table, whatever its letter case; a quoted identifier is never a keyword and contains every byte up to the matching quote.", "quantifier": "all byte strings; every word and quoted identifier", "why_tests_cant": "Case variants of each keyword and arbitrary quoted contents cannot be enumerated by tests.", "anchors": ["parser/lexer.go:consumeIdent", "parser/keyword.go:keywords"]}
{"id": "C08", "title": "A sign is part of a number only where an operand may start", "statement": "'+' or '-' directly followed by a digit is absorbed into the number token iff the preceding token cannot end an operand; hence a-1, a -1 and a - 1 all tokenise as a, -, 1.", "quantifier": "all inputs and all preceding tokens", "why_tests_cant": "The decision depends on the unbounded history through the last token; tests cover a handful of predecessors.", "anchors": ["parser/lexer.go:hasPrecedenceToken", "parser/lexer.go:consumeToken"]}
{"id": "C09", "title": "Lookahead has no side effects", "statement": "Looking at the next token leaves the parse state untouched, so a parse decision based on lookahead never changes what is parsed next.", "quantifier": "all inputs and lexer states", "why_tests_cant": "Only a state-based argument over all inputs covers the failing-lookahead paths.", "anchors": ["parser/lexer.go:peekToken"]}
{"id": "C10", "title": "Non-ASCII bytes outside quotes and comments are rejected", "statement": "A byte >= 0x80 that does not start a white-space character produces an error when a token is wanted there, never a token and never silence; hence every token outside quotes is pure ASCII.", "quantifier": "all inputs; all start bytes of a token", "why_tests_cant": "256 start bytes times all contexts.", "anchors": ["parser/lexer.go:consumeToken", "parser/helper.go"]}
{"id": "C11", "title": "Line and column are right for every offset", "statement": "The line reported for an offset is 1 + the number of newlines before it and the column is 1 + the distance to the last line start; offset and (line, column) determine each other.", "quantifier": "all inputs and all offsets 0..len(input)", "why_tests_cant": "Binary search over line starts: boundary errors (offset on a newline, at EOF, empty lines) need the general argument.", "anchors": ["parser/source.go:newLineStarts", "parser/source.go:position"]}
{"id": "C12", "title": "The excerpt line is the right line", "statement": "The text shown for line k is the k-th line of the input without its newline, for every input; the lines joined by newlines give back the input.", "quantifier": "all inputs, all line numbers", "why_tests_cant": "Depends on every newline layout.", "anchors": ["parser/source.go:lineText", "parser/source.go:newLineStarts"]}
{"id": "C13", "title": "The caret points at the offending byte", "statement": "In the rendered error message the caret line is as wide as the excerpt up to the error column, so the caret stands under the byte at the error position.", "quantifier": "all inputs, all error positions", "why_tests_cant": "Arbitrary excerpts (tabs, long lines).", "anchors": ["parser/error.go:renderCaret", "parser/error.go:Error"]}
{"id": "C14", "title": "Errors carry a position inside the input", "statement": "Whenever ParseStmts fails it returns a ParseError whose position lies in 0..len(input) and whose Line/Column are the line and column of that position.", "quantifier": "all inputs for which parsing fails", "why_tests_cant": "Failing inputs are unbounded and each of several hundred error sites computes its own position.", "anchors": ["parser/parser_common.go:wrapError", "parser/parser_table.go:ParseStmts", "parser/error.go:ParseError"]}
{"id": "C15", "title": "Set behaves as a mathematical set", "statement": "After any sequence of inserts, Contains answers true exactly for the inserted members.", "quantifier": "all operation sequences", "why_tests_cant": "Histories are unbounded.", "anchors": ["parser/set.go"]}
{"id": "C16", "title": "Multi-keyword lookahead is all or nothing", "statement": "Trying to consume a keyword sequence either consumes exactly those keywords in order, or reports false and leaves the parser where it was.", "quantifier": "all keyword sequences, all inputs and states", "why_tests_cant": "Partial matches at arbitrary depth and at end of input.", "anchors": ["parser/parser_common.go:tryConsumeKeywords"]}
{"id": "C17", "title": "Reserved words are never taken as plain identifiers", "statement": "Where the grammar asks for a plain identifier, a token is accepted iff it is an identifier token or a keyword that is not reserved; quoting a reserved word makes it acceptable.", "quantifier": "all inputs and parser states; all keywords", "why_tests_cant": "Every keyword in every letter case.", "anchors": ["parser/parser_common.go:matchTokenKind", "parser/parser_common.go:parseIdent", "parser/keyword.go:reservedKeywords"]}
{"id": "C18", "title": "Parsing terminates on every input", "statement": "ParseStmts returns for every input text: no input makes the recursive descent loop for ever or recurse without consuming input.", "quantifier": "all byte strings", "why_tests_cant": "Non-termination on one input is invisible to any finite test set.", "anchors": ["parser/parser_table.go:ParseStmts", "parser/parser_column.go", "parser/parser_query.go"]}
{"id": "C19", "title": "Parsing never panics", "statement": "ParseStmts returns a value or an error for every input text; it never dereferences nil.", "quantifier": "all byte strings", "why_tests_cant": "A panic needs one specific truncated statement among infinitely many inputs.", "anchors": ["parser/parser_table.go:ParseStmts", "parser/parse_system.go", "parser/parser_column.go:parseColumnTypeArgs", "parser/parser_alter.go"]}
{"id": "C20", "title": "A successful parse accounts for the whole input", "statement": "If ParseStmts succeeds, no token of the input was left unparsed: the statements and their ';' separators account for every token.", "quantifier": "all byte strings accepted by the parser", "why_tests_cant": "Silent truncation is only visible on inputs the test author thought of.", "anchors": ["parser/parser_table.go:ParseStmts", "parser/parser_table.go:parseStmt"]}
{"id": "C21", "title": "Lexical errors are never swallowed", "statement": "If some part of the input cannot be tokenised, ParseStmts fails; it never returns statements for a text with an unterminated comment, quoted identifier or string.", "quantifier": "all byte strings containing a lexical error", "why_tests_cant": "Discarded error values only matter on inputs where the failing scan coincides with an ignored result.", "anchors": ["parser/lexer.go:peekToken", "parser/parser_table.go:ParseStmts", "parser/lexer.go:consumeIdent"]}
{"id": "C22", "title": "Memoising failed INTERVAL attempts does not change the result", "statement": "The parser with the memo of failed INTERVAL positions returns the same AST or error as the parser that retries every time.", "quantifier": "all inputs, all contents of the memo reachable during a parse", "why_tests_cant": "The memo only pays off on nested backtracking; equality of outcomes must hold for every backtracking history.", "anchors": ["parser/parser_column.go:parseColumnExpr"]}
{"id": "C23", "title": "Backtracking restores the parse position exactly", "statement": "When a speculative INTERVAL or GLOBAL/LOCAL JOIN attempt fails, the following parse sees exactly the state before the attempt.", "quantifier": "all inputs and states in which a speculative attempt fails", "why_tests_cant": "The attempt may fail after arbitrarily long consumption.", "anchors": ["parser/parser_column.go:parseColumnExpr", "parser/parser_query.go:parseJoinModifiers"]}
{"id": "C24", "title": "Operators bind by the precedence table", "statement": "In every parsed expression tree an operator's operands bind at least as tightly as the table requires: no child that is itself an unparenthesised operation of lower precedence appears under a tighter operator, and equal precedence groups to the left.", "quantifier": "all expressions (all operator sequences of any length)", "why_tests_cant": "The number of operator sequences is unbounded.", "anchors": ["parser/parser_column.go:getNextPrecedence", "parser/parser_column.go:parseSubExpr", "parser/parser_column.go:parseInfixLoop", "parser/parser_column.go:parseInfix"]}
{"id": "C25", "title": "Parsed positions lie inside the input", "statement": "Every Pos stored in a returned AST is a byte offset 0..len(input), so callers can slice the source with Pos()/End().", "quantifier": "all accepted inputs, all nodes", "why_tests_cant": "Each of some 200 node kinds computes its own positions; the end-of-input cases differ.", "anchors": ["parser/ast.go", "parser/parser_common.go:End"]}
{"id": "C26", "title": "Pos() and End() never panic on parsed ASTs", "statement": "For every node of every AST returned by ParseStmts, Pos() and End() return.", "quantifier": "all accepted inputs, all nodes", "why_tests_cant": "Optional children are nil in combinations tests do not enumerate.", "anchors": ["parser/ast.go"]}
{"id": "C27", "title": "Formatting round-trips", "statement": "For every expression AST the parser can produce, formatting it compactly and parsing the text again gives the same AST up to positions.", "quantifier": "all parsed ASTs", "why_tests_cant": "Golden files only cover fixed statements; the printer must re-insert exactly the separators the lexer needs for every combination.", "anchors": ["parser/format.go", "parser/ast.go:FormatSQL", "parser/parser_column.go"]}
{"id": "C28", "title": "Formatting is idempotent", "statement": "Formatting, parsing and formatting again gives the same text as formatting once.", "quantifier": "all parsed ASTs", "why_tests_cant": "Follows only from the round-trip for all ASTs.", "anchors": ["parser/format.go"]}
{"id": "C29", "title": "Beautified and compact output differ only in white space outside tokens", "statement": "Beautify prints the same characters as compact formatting except for white space, so both texts denote the same statement.", "quantifier": "all ASTs, all indentation strings made of white space", "why_tests_cant": "Each of the printing functions may branch on the mode.", "anchors": ["parser/format.go:Formatter", "parser/format.go"]}
{"id": "C30", "title": "Formatting restores the indentation level", "statement": "After printing any node the formatter is back at the indentation level it started with, so nodes can be printed one after another with the same formatter.", "quantifier": "all ASTs, both modes, all start levels", "why_tests_cant": "Indent/Dedent pairs are spread over all node kinds and early returns.", "anchors": ["parser/format.go:Formatter.Indent", "parser/format.go:Formatter.Dedent"]}
{"id": "C31", "title": "Walk visits every node once, parents first", "statement": "With a callback that always returns true, Walk calls it exactly once for each non-nil node reachable through the fields of the AST, each parent before its children.", "quantifier": "all ASTs of all node kinds", "why_tests_cant": "About 200 node kinds with optional fields in all combinations.", "anchors": ["parser/walk.go:Walk"]}
{"id": "C32", "title": "Returning false from a Walk callback prunes only that subtree", "statement": "As documented, when the callback returns false the children of that node are skipped and the walk continues with the rest of the tree.", "quantifier": "all ASTs and callbacks", "why_tests_cant": "Depends on every traversal order and callback.", "anchors": ["parser/walk.go:Walk", "parser/walk.go:WalkFunc"]}
{"id": "C33", "title": "FindAll and Find agree with the traversal", "statement": "FindAll returns exactly the nodes satisfying the predicate, in traversal order, and Find returns the first of them or reports absence.", "quantifier": "all ASTs and predicates", "why_tests_cant": "Quantifies over predicates and trees.", "anchors": ["parser/walk.go:Find", "parser/walk.go:FindAll", "parser/walk.go:WalkWithBreak"]}
{"id": "C34", "title": "WalkWithBreak stops at the first false", "statement": "WalkWithBreak calls the callback on nodes in traversal order up to and including the first one that returns false, never after it, and reports whether it ran to the end.", "quantifier": "all ASTs and callbacks", "why_tests_cant": "Quantifies over callbacks and trees.", "anchors": ["parser/walk.go:WalkWithBreak"]}
{"id": "C35", "title": "Transform rewrites every node", "statement": "As documented, Transform applies the transformer to all nodes of the tree.", "quantifier": "all ASTs and transformers", "why_tests_cant": "Quantifies over transformers and trees.", "anchors": ["parser/walk.go:Transform"]}
{"id": "C36", "title": "Accept and Walk see the same nodes", "statement": "The visitor protocol visits exactly the nodes Walk visits; each node is visited after all its children.", "quantifier": "all ASTs", "why_tests_cant": "Two independent hand written traversals over 200 node kinds.", "anchors": ["parser/ast.go:Accept", "parser/ast_visitor.go", "parser/walk.go:Walk"]}
{"id": "C37", "title": "Visitor Enter/Leave calls are properly nested and errors abort", "statement": "For every AST the Enter and Leave calls form a balanced bracket structure; the first error returned by a visitor stops the traversal and is what Accept returns.", "quantifier": "all ASTs, all visitors", "why_tests_cant": "Quantifies over visitors failing at any node.", "anchors": ["parser/ast.go:Accept", "parser/ast_visitor.go:DefaultASTVisitor"]}
{"id": "C38", "title": "Keywords are case-insensitive everywhere", "statement": "Changing the letter case of keywords in an input does not change whether it parses or what it means.", "quantifier": "all inputs and all case changes of keyword tokens", "why_tests_cant": "2^n case variants per statement.", "anchors": ["parser/parser_common.go:matchKeyword", "parser/parser_query.go:parseJoinRightExpr", "parser/parse_system.go"]}
{"id": "C39", "title": "Statements are parsed independently", "statement": "The statements returned for a text are the statements of its ';'-separated parts in order: parsing 'a;b' yields what parsing 'a' yields followed by what parsing 'b' yields.", "quantifier": "all pairs of accepted texts", "why_tests_cant": "Quantifies over all statement pairs.", "anchors": ["parser/parser_table.go:ParseStmts"]}
{"id": "C40", "title": "Maximal munch for operators", "statement": "Among the operator spellings the lexer knows, the longest one that matches at the current position is taken.", "quantifier": "all inputs, all operator start bytes", "why_tests_cant": "Depends on arbitrary following bytes.", "anchors": ["parser/lexer.go:consumeToken"]}
{"id": "C41", "title": "Formatting never panics on parsed ASTs", "statement": "Format, Beautify and String return for every AST produced by ParseStmts.", "quantifier": "all accepted inputs", "why_tests_cant": "Optional children may be typed nil pointers in combinations tests do not enumerate.", "anchors": ["parser/format.go", "parser/ast.go"]}
{"id": "C42", "title": "The parse depends on the tokens only", "statement": "Two texts whose token sequences agree in kinds and spellings, and both or neither of which go on behind the last token, are both accepted, with equal trees up to positions, both rejected, or both crash; white space, and comments after white space, may be added in front of any token without effect on the result.", "quantifier": "all pairs of texts without lexical errors with the same tokens; all insertions of white space and comments in front of a token, in all texts", "why_tests_cant": "It relates the runs of the parser on two arbitrary texts; tests only compare finitely many pairs, while a position-dependent decision in any of some 200 methods could hide anywhere.", "anchors": ["parser/parser_common.go", "parser/parser_table.go:ParseStmts", "parser/lexer.go:skipComments"]}
{"id": "C43", "title": "Formatting does not depend on the layout of the source", "statement": "Two texts whose token sequences agree in kinds and spellings, and both or neither of which go on behind the last token, are formatted to the same text, statement by statement, in compact and in beautified mode, if they are accepted.", "quantifier": "all pairs of accepted texts with the same tokens; all indentation strings", "why_tests_cant": "It compares the formatter's output for two arbitrary layouts of the same tokens; a FormatSQL method that looks at a position, of some 220 methods, would show only for particular offsets.", "anchors": ["parser/format.go", "parser/parser_common.go"]}
{"id": "C44", "title": "A formatted query has the tokens of its source, up to listed rewritings", "statement": "The text written by Format or by a beautifying Formatter for a parsed SELECT query contains no lexical error, and its tokens are the tokens of the source in the same order, except for: keywords put in capitals, AS added before an alias, a comma dropped before a closing bracket, keyword or the end, a signed number split into sign and number, parentheses dropped around a query or after USING, LIMIT a, b turned into LIMIT b OFFSET a, and FORMAT or semicolons behind the statement dropped. Queries with a construct that the formatter is known to lose or reorder (CAST, INTERVAL, window frames, WINDOW, GROUP BY ... WITH, WITH TOTALS, DISTINCT in arguments, FINAL with SAMPLE on a table, an empty list of columns, member access on anything that could end with a digit), and tokens with two spellings (==, <>, ASCENDING), are left out.", "quantifier": "all accepted texts of one such query; compact mode and beautified mode with every indentation made of blanks (for texts without a line end inside a token)", "why_tests_cant": "It compares the parser's reading of every possible query with the formatter's writing of the resulting tree, token by token; tests check the formatted text of a fixed list of queries.", "anchors": ["parser/format.go", "parser/parser_query.go", "parser/parser_column.go", "parser/ast.go:FormatSQL"]}
{"id": "C45", "title": "The parser accepts the core of SQL with the expected trees", "statement": "Every text whose tokens are queries of a core of SQL, separated by semicolons, is accepted by ParseStmts, and the trees returned are, up to positions, the ones that a grammar written with precedence levels assigns to the tokens. The core consists of names, paths, numbers, strings, *, calls, window functions, lists, arrays, subqueries, CASE, casts with :: to a named type, all other operators except [ ] and . behind a value; WITH, SELECT with DISTINCT and aliases, FROM with tables, subqueries, aliases, FINAL and joins with ON or USING, PREWHERE, WHERE, GROUP BY, HAVING, ORDER BY, LIMIT BY, LIMIT, OFFSET, SETTINGS and FORMAT; and UNION ALL, UNION DISTINCT, EXCEPT and INTERSECT of such queries.", "quantifier": "all texts that scan without error to tokens derived by the grammar; any nesting, any length, any case of keywords, any white space and comments", "why_tests_cant": "It is a statement about every sentence of an infinite language; the test suite parses a fixed list of queries and compares with stored output of the same parser.", "anchors": ["parser/parser_query.go:parseSelectStmt", "parser/parser_column.go:parseSubExpr", "parser/parser_column.go:parseColumnExpr", "parser/parser_table.go:ParseStmts"]}
{"id": "C46", "title": "Core queries survive formatting", "statement": "For every query of the core of SQL of C45, Format and a beautifying Formatter return a text; this text is accepted by ParseStmts as one statement with the same tree up to positions, and formatting that statement again gives the same texts, compact and beautified. Excepted are queries the formatter is proved to damage: DISTINCT in an array, a comma after the parenthesised list of USING, and a list of USING that begins with a parenthesis or a signed number.", "quantifier": "all texts that scan without error to tokens derived by the grammar, every statement of them; compact mode and beautified mode with every indentation made of blanks (for texts without a line end inside a token)", "why_tests_cant": "It is a round trip through lexer, parser and formatter for every sentence of an infinite language; the test suite formats a fixed list of queries and compares the text with stored output.", "anchors": ["parser/format.go", "parser/ast.go:FormatSQL", "parser/parser_query.go:parseSelectStmt", "parser/parser_query.go:parseJoinConstraints", "parser/parser_column.go:parseSubExpr"]}
{"id": "C47", "title": "The parser accepts a core of all other statements with the expected trees", "statement": "Every text whose tokens are statements of a grammar, separated by semicolons, is accepted by ParseStmts, and the trees returned are, up to positions, the ones that the grammar assigns to the tokens; no such text makes the parser fail or crash. The grammar has the queries of C45; USE; SET; CREATE DATABASE; CREATE TABLE with columns (types, NULL, DEFAULT, MATERIALIZED, ALIAS, COMMENT, CODEC, TTL), ON CLUSTER, an engine with its clauses in any order, COMMENT, or AS and a query; CREATE VIEW; DROP; TRUNCATE; RENAME; INSERT with VALUES, FORMAT or a query; DELETE; ALTER TABLE with ADD, MODIFY, DROP and RENAME of columns, DROP INDEX, DROP PROJECTION, DELETE and UPDATE; OPTIMIZE; CHECK; EXPLAIN; SHOW; and DESCRIBE.", "quantifier": "all texts that scan without error to tokens derived by the grammar; any nesting, any length, any case of keywords, any white space and comments", "why_tests_cant": "It is a statement about every sentence of an infinite language; the test suite parses a fixed list of statements and compares with stored output of the same parser.", "anchors": ["parser/parser_table.go:ParseStmts", "parser/parser_table.go:parseStmt", "parser/parser_table.go:parseCreateTable", "parser/parser_table.go:parseTableColumnExpr", "parser/parser_table.go:parseInsertStmt", "parser/parser_alter.go:parseAlterTable", "parser/parser_drop.go", "parser/parser_view.go:parseCreateView"]}
{"id": "C48", "title": "Statements of the grammar are formatted without loss", "statement": "Every statement of the grammar of C47 can be formatted, in one line and in several, and the text obtained is parsed as exactly one statement whose tree is, up to positions, the tree that was formatted; formatting that tree gives the same text again. Proved for all kinds of statements, CREATE and ALTER TABLE included, under restrictions without which it is false of the code: a column with a COMMENT has neither CODEC nor TTL (they are printed before the comment and rejected there); an engine with PARTITION BY that is followed by AS and a query also has PRIMARY KEY, SAMPLE BY, TTL or SETTINGS (else PARTITION BY is printed directly before AS and the text is rejected); the name of an engine is not quoted (the quotes are dropped). Exceptions inside queries as in C46. DETACH, which is not in the grammar, is formatted as DROP.", "quantifier": "all texts that scan without error to tokens derived by the grammar of C47, every statement in them; any nesting, length, case of keywords, white space and comments; for several lines any blank indentation and no line end inside a token", "why_tests_cant": "The test suite compares formatted output of a fixed list of files with stored output; it does not check that the output parses back to the same tree, and cannot for all statements.", "anchors": ["parser/format.go", "parser/ast.go:InsertStmt", "parser/ast.go:RenameStmt", "parser/ast.go:DropStmt", "parser/ast.go:TruncateTable", "parser/ast.go:OptimizeStmt", "parser/ast.go:DeleteClause", "parser/parser_table.go:ParseStmts", "parser/ast.go:CreateTable", "parser/ast.go:EngineExpr", "parser/ast.go:ColumnDef", "parser/ast.go:AlterTable"]}
{"id": "C49", "title": "The command line tool prints statements that parse back, and prints its own output unchanged", "statement": "Run with -format or -beautify on a text of statements of the grammar of C47, the command line tool prints a text and neither reports an error nor crashes. Under the restrictions of C48 the text consists of one piece per statement, in their order, and each piece by itself is parsed as one statement with the same tree up to positions. For a text of one statement the tool, run on what it has printed, prints exactly the same again. For several statements this is false of the code, because the semicolons between them are not printed: INSERT INTO t; SELECT 2 is printed as one statement that inserts the result of the query, and SELECT 1; SELECT 2 as a text that is rejected.", "quantifier": "all texts that scan without error to tokens derived by the grammar of C47, both options; for -beautify no line end inside a token", "why_tests_cant": "The command line tool has no tests at all, and tests could only run it on a fixed list of files.", "anchors": ["main.go:99-118", "parser/format.go:27-38", "parser/format.go:113-117", "parser/parser_table.go:ParseStmts"]}
{"id": "C50", "title": "Formatted statements ended by semicolons parse back to the same list", "statement": "Take a text of any number of statements of the grammar of C47, parse it, format each statement, and write after each of the texts a semicolon and at least one blank or line end, possibly also blanks in front of the semicolon. The result is parsed as a list of as many statements, in the same order and with the same trees up to positions, and formatting them gives the same texts again. So the semicolon is all that is missing in what the command line tool prints (C49). The restrictions are those of C48.", "quantifier": "all texts that scan without error to tokens derived by the grammar of C47, all lengths of the list, all blanks around the semicolon with at least one after it, one line and several lines; for several lines an indentation of blanks and no line end inside a token", "why_tests_cant": "The tests in parser_test.go check this for the files of the test data only; no finite list of files covers every sequence of statements in which the end of one could be taken for a part of the next.", "anchors": ["parser/parser_table.go:1548", "parser/format.go:27-38", "parser/format.go:113-117", "main.go:99-118", "parser/parser_test.go:99-106", "parser/parser_test.go:159-171"]}
{"id": "C51", "title": "Formatted texts tell statements apart", "statement": "Two statements of the grammar of C47, from one text or from two, have the same formatted text exactly if they have the same tree up to positions; the same holds for the beautified texts. So a formatted text can serve as a key for the statement. The restrictions are those of C48. Without them it is false of the code: SELECT [DISTINCT a] and SELECT [a] have different trees and the same formatted text.", "quantifier": "all pairs of texts that scan without error to tokens derived by the grammar of C47, all pairs of statements in them, one line and several lines; for several lines an indentation of blanks and no line end inside a token", "why_tests_cant": "It is about all pairs of statements; the tests compare the text of each statement with a golden file and never two statements with each other.", "anchors": ["parser/format.go:27-38", "parser/format.go:113-117", "parser/parser_table.go:1548"]}
