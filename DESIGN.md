# Design of the model and the proofs

Subject: `AfterShip/clickhouse-sql-parser`, Go package `/repo/parser`.
The code was read as text; it was never built or run.  Everything below is about the Lean model under
`lean/Verif/`.  Every definition of the model cites the Go file and lines it follows and names its simplifications.

## Trusted base

* Lean's kernel (Lean 4.33.0) and the standard axioms `propext`, `Quot.sound`, `Classical.choice`.  No other axiom, no
  `sorry`, no `native_decide`, no `bv_decide`.
* The reading of the Go source: that the definitions of the model say what the cited Go code does.
* The specifications under `lean/Verif/Spec/`, which say what the property theorems mean.

Nothing else is trusted.  The static checks described below (`Analysis`, `Relation`, `Semi`, `Group`) and the tables
they use are proved sound or checked in the kernel; the Python and Lean programs that wrote tables are not
part of any proof.

### Axioms per theorem

`lean/Verif/Axioms.lean` (generated) prints the axioms of every property theorem during the build.

* only `propext`: C09_lookahead_pure_partial, C09_lookahead_disturbs_on_error, C16_in_parser, C23_lookahead,
  C29_line_feed_in_string, C31_walk_skips_rename_pairs, C35_children_untouched
* `propext` and `Quot.sound`: C12_lines_join, C15_set, C15_keyword_sets, C19_each_line_panics, C20_last_token_ignored,
  C21_lexical_errors_ignored, C23_join_modifiers, C24_literal_fails, C25_end_beyond_input, C26_end_panics, C26_pos_panics,
  C32_false_stops_everything, C39_end_is_not_semicolon, C41_format_panics
* `propext`, `Quot.sound` and `Classical.choice`: all others

### What is modelled

| Go code | model | how it got there |
|---------|-------|------------------|
| `helper.go`, `set.go`, `keyword.go` (both tables) | `Bytes`, `GoSet`, `Keyword` | by hand |
| `lexer.go`, all of it | `Lexer` | by hand |
| `source.go`, `error.go` | `Source` | by hand |
| `ast.go`: all structs | `Ast/Ty`, `Ast/Schema` | written by `tools/genast.py` from the Go text |
| `ast.go`: all `Pos`, `End`, `Accept` bodies | `Ast/PosEndTable`, `Ast/AcceptTable` | the same |
| `walk.go`: all cases of `Walk` | `Ast/WalkTable` | the same |
| `walk.go`: `WalkWithBreak`, `Find`, `FindAll`, `Transform` | `Ast/Methods` | by hand |
| `format.go`: the `Formatter` | `Ast/Methods` | by hand |
| `format.go`: all `FormatSQL` bodies, compact and beautified | `Ast/FormatTable` | `tools/genast.py` |
| `parser_common.go`: operations on the lexer state, `wrapError` | `Parser/Lang` | by hand |
| `parser_*.go`, `parse_system.go`: 272 methods of `Parser`, that is all others | `Parser/Table*` | `tools/genparser.py` |

Method bodies are *deep embeddings*: terms of small languages (`Ast/Lang`, `Parser/Lang`) that follow the Go code
statement by statement and carry the Go line numbers.  The interpreters of these languages give them their meaning and
were written by hand.  The translators refuse anything they do not understand; nothing is skipped silently.
They run offline, their output is part of the sources, and the build does not use them.

Validation of the model (no proof): `tools/golden.py` runs the model on all SQL files of the Go test suite and
compares trees, formatted and beautified text with the golden files: 222 of 222 agree.

### What is not modelled

* error texts: of `fmt.Errorf` and `errors.New` only the format string is kept, the arguments are evaluated (they may panic)
* machine integers: offsets and lengths are unbounded naturals
* memory: a value is a tree.  `parseNumber` (parser_column.go) changes the text of a consumed token in place; no other
  reference to that token is read later, so the model returns the changed text.  The three methods that
  change a struct given to them (`parseCreateUserModifiers`, `parseDefaultClause`, `parseOptionalClauses`) return it as
  a further result.
* typed nil pointers in interfaces: a nil pointer stored in an interface field is `nil`; the dispatch on a
  statically known pointer type is kept (`Static.ptr t`), so `End()` of a nil `*T` runs the body of `T.End`
* the command line tool `main.go` but for the loop that formats the statements (`Verif/Cli.lean`): its arguments, files and JSON output; `String()` of nodes (it is `Format`), the default visitor of `ast_visitor.go`
  beyond the order of the calls

### Simplifications in the representation

* a Go string is `List Nat`; theorems hold for all lists of naturals, in particular for all byte strings
* the lexer keeps the unread suffix `rest = input[offset:]` next to `offset`; that they belong together is C01_rest_is_suffix
* `unicode.IsSpace`/`utf8.DecodeRune` are replaced by the list of UTF-8 encodings of the white space characters
* Go loops and calls carry fuel; running out of it is a separate result, proved unreachable (C18)
* dereferencing nil is a separate result `panic` with the Go line number, so that "never panics" is a statement

## Static checks with soundness proofs

The parser is large, so most facts about it are proved once about the interpreter, for every program that a
decidable check accepts; then the check is evaluated in the kernel (`decide +kernel`) on each of the 272 methods.

* `Analysis/` — an abstract interpreter.  It tracks which values may be nil, their types and required fields, bounds on positions, and
  whether a method has consumed a token.  `Analysis/Sound/` proves: if all conditions of all methods hold, then every run
  from every state behaves as the signatures say, with a bound on the recursion that is linear in the length of the input.
  `Analysis/Certificate` (generated, untrusted) holds the signatures, `Analysis/Checked*` checks them.
  Gives C14, C18, C19, C25, C26, C41.
* `Relation/` — an information-flow type system: which values depend on positions or on the spelling of words.  Two
  runs of a well-typed program on texts with the same tokens stay in step.  Four positions are compared with 0 (`INTERVAL`, dictionary arguments, ends of windows); `Relation/Guard.lean` and
  `Relation/First.lean` show that a parser which takes their maximum with 1 has the same runs, so the two runs agree on the comparison.  Gives C38, C42; with a simulation of the formatter (`Relation/Format.lean`) also C43 and parts of C27, C28.
* `Semi/` — a check that no method reads on when the current token is `;`.  Two runs on texts that agree up to a `;`
  stay in step.  Gives C20, C21, C39.
* `Group/` — a check that a method builds operations only from closed operands; the few methods that read
  operators (`parseInfix` and its relatives) are verified by hand with Hoare rules.  Gives C24.
* `Echo/` — what a query reads and writes.  `Echo/Elems` introduces elements (a token, a symbol written by the formatter, …); `Echo/Rules` to
  `Echo/All` show by Hoare rules, method by method, that each method of the query parser reads the tokens of the elements of the tree it
  returns; `Echo/Print*` that the formatter writes these elements; `Echo/Glue*` that neighbouring elements never merge into one token;
  `Echo/Lex` that the text therefore scans to their tokens.  `Echo/Rewrite` puts this into the terms of `Spec/Rewrite`.  Gives C44, and with `Relation/` C27 and C28 for queries.
* `Complete/` — which tokens the query parser accepts.  `Spec/Core` is a grammar over tokens.  `Complete/Rules` and `Complete/Tac` give Hoare rules for runs on
  texts of which the tokens ahead are known; `Complete/Leaf` to `Complete/Query` describe, method by method, what it does on the tokens of a part of the grammar,
  given the same for the smaller parts; `Complete/Main` closes the induction over the derivation.  `Complete/Prec` and `Complete/Expr` relate the levels
  of the grammar to the loop of `parseSubExpr`.  Panics are excluded with C19, endless runs with C18.  Gives C45.
  `Spec/Ddl` is the same for the other statements; `Complete/PartHeads`, `Parts`, `Types`, `Columns` and `Engine` are about their parts, `Simple`, `Create`,
  `Insert` and `Alter` about the statements, `Text` about a whole text.  `Alter` also shows that `End()` of the last alteration is defined, because
  `parseAlterTable` calls it and crashes for other alterations.  Gives C47.
- `Again` — the printed elements (`Echo`) of a tree of the core language are read as a sentence of the core language again.  `Again/Lex.lean` has the
  readings of single elements and the condition under which a signed number stays one token, `Expr`, `Atom`, `Tables`, `Query` one lemma for each rule
  of the grammar, `Main` the induction over derivations, `Norm` that the formatter does not look at positions, `Whole` the round trip.  Gives C46.
  `Say`, `SayInsert`, `SayCreate`, `Types`, `Alter`, `Create`, `Ddl`, `Ddl2`, `Statements` and `DdlWhole` do the same for the other statements; `Spec/Orderly.lean` has
  the restrictions.  `Create` takes the clauses of an engine, written in any order, apart and puts them together in the order in which they are printed.  Gives C48.
  `Line` and `Joined` are about statements with a line end or a semicolon after them.  Give C49 and C50.
* `Lemmas/Kids`, `Lemmas/Safe`, `Lemmas/Accept` — checks of the `Walk`, `Accept` and `FormatSQL` tables against the declarations
  of the fields (each child once; no nil dereference; balanced calls).  Gives C30, C31, C33–C37, C41.
* `Lemmas/Memo` — simulation between the parser and the parser that records no failed INTERVAL attempt.  Gives C22.

## Properties: what is modelled and how it is proved

| id | status | statement and proof |
|----|--------|---------------------|
| C01 | proved | lexer; case analysis of one scan, invariant over all reachable states |
| C02 | proved | lexer; measure `len - offset` |
| C03 | proved | lexer; the text is tiled by gaps and lexemes of the lexical grammar (`Spec/Lexical`) |
| C04 | proved | lexer; induction over the gap grammar.  The exception, a comment directly behind `-`, is C04_comment_after_minus |
| C05 | proved | `consumeString` against an inductive grammar, both directions |
| C06 | proved | `consumeNumber` against an inductive grammar, both directions |
| C07 | proved | `consumeIdent`, the keyword table, upper-casing |
| C08 | proved | `hasPrecedenceToken`, `consumeToken` |
| C09 | partial | `peekToken`: proved if the scan succeeds or ends; false if it fails, with witness |
| C10 | proved | `consumeToken` |
| C11 | proved | `source.go`, binary search; specification counts newlines |
| C12 | proved | `lineText`; split and join |
| C13 | proved | `renderCaret` |
| C14 | proved | whole parser, by `Analysis` |
| C15 | proved | `set.go` refines finite sets; the keyword sets |
| C16 | proved | `tryConsumeKeywords`, by induction over the keywords; every use in the parser is this step |
| C17 | proved | `parseIdent`: if and only if, for every lexer state |
| C18 | proved | whole parser, by `Analysis`: a linear bound on nested calls and loops is never reached |
| C19 | partial | false: 22 source lines can panic, with a witness for each; proved that no other line can |
| C20 | partial | false for a last token at the very end of the text; proved otherwise: pieces between `;` are read completely |
| C21 | partial | false for unterminated comments and quoted identifiers behind a statement; proved for all others |
| C22 | proved | simulation, every input and every method |
| C23 | proved | the backtracking methods from every state |
| C24 | partial | read literally false; proved for every pair of operators that compete for an operand; the tree is determined by this |
| C25 | partial | false for end positions (up to 4 behind the text); proved for all fields but 40, with bounds for those |
| C26 | partial | false for eight types, with witnesses; proved for all others |
| C27 | partial | false (`1 .a` becomes `1.a`), with witnesses; true where the formatted text has the same tokens (from C42); proved for plain queries to which the formatter adds no token and from which it drops none (C44 and C42) |
| C28 | partial | false for the same text; true where the formatted text has the same tokens, by a simulation of the formatter on two trees that differ in positions; proved for the plain queries of C27 |
| C29 | partial | equality up to white space proved for all values; that it lies outside tokens is false, with witness |
| C30 | proved | induction over the tree, for all values, both modes |
| C31 | partial | `Walk` against the field table; false for `TargetPair`, with witness |
| C32 | partial | false: `false` stops the whole walk, which is what is proved |
| C33 | proved | `Find`, `FindAll` in terms of the list of nodes of the tree |
| C34 | proved | `WalkWithBreak` |
| C35 | partial | false: only the root is transformed, which is what is proved |
| C36 | proved | `Accept` against `Walk`, all trees |
| C37 | proved | trace of the visitor calls, every visitor |
| C38 | partial | by `Relation`, all keywords but six; false for `ARRAY JOIN`, with witness |
| C39 | partial | by `Semi`, for `a; ` followed by `b`; false for `a` without its `;`, with witness |
| C40 | proved | `consumeToken` against the list of operators |
| C41 | partial | false for a dictionary source, with witness; proved for all other parsed trees and for all trees with their required fields |
| C42 | proved | by `Relation`, exact also for panics; the condition on the end of the text is needed, with witness |
| C43 | proved | simulation of the formatter on two trees that differ in positions (`Relation/Format.lean`) and C42; the condition on the end of the text is needed, with witness |
| C44 | proved | by `Echo`, for the trees of the class `V.plain` (`Spec/Plain.lean`) |
| C45 | proved | by `Complete`, induction over the derivations of the grammar `Core` (`Spec/Core.lean`) |
| C46 | proved | by `Again`: printed elements of a derivation are tokens of a derivation of the same tree; then C45 for the formatted text.  The exceptions are shown to be needed |
| C47 | proved | by `Complete`, cases of the derivation in the grammar `Statement` (`Spec/Ddl.lean`), with inductions over its lists |
| C48 | partial | by `Again` for statements: the elements that a statement is printed as (`Again/Say.lean`), read again along the grammar (`Again/Ddl.lean`, `Again/Ddl2.lean`, `Again/Alter.lean`, `Again/Create.lean`); all kinds of statements, under the restrictions `V.orderly` and `PlainEngine` (`Spec/Orderly.lean`), without which it is false of the code (witnesses `C48_comment_codec`, `C48_comment_ttl`, `C48_partition_as`, `C48_engine_quotes`) |
| C49 | partial | the loop of `main.go` (`Verif/Cli.lean`); C48 with a line end after the text (`Again/Line.lean`); false of the code for several statements (witnesses `C49_statements_merged`, `C49_statements_rejected`) |
| C50 | partial | by induction over the list: the elements of the statements with a semicolon and blanks after each are read again as `Statements` (`Again/Joined.lean`), then C47; `formatAll` in `Props/Joined.lean` is the text that `parser_test.go` makes; false of the code without the restrictions of C48 (its witnesses and `C50_valid_format_fails`) |
| C51 | partial | from C48, because a text is parsed in one way only, and because the formatter does not look at positions (`Again/Norm.lean`); false of the code without the restrictions of C48 (witness `C51_distinct_lost`) |

No property is "not applicable".

Where a property is false of the code, the theorem that says so has a concrete witness, and the part that holds is
proved under the suffix `_partial` with the missing part named in its comment.

## Files

* `Props/` — the property theorems, each with an `example` that meets its hypotheses
* `Spec/` — specifications, independent of the code
* `Lemmas/`, `Analysis/`, `Relation/`, `Semi/`, `Group/`, `Echo/`, `Complete/` — helper lemmas and checks
* `Check/` — executables that compute certificates and golden output; not imported by any proof
* `tools/` — `genast.py`, `genparser.py` (translators), `gencheck.py` (writes `Analysis/Checked*`), `golden.py` (validation),
  `manifest.py` (MANIFEST.json, Verif.lean, Axioms.lean), `mutate.py` (mutation tests)
* `seeded/LOG.jsonl` — mutation tests: wrong programs and the theorems that failed on them

## Status

See `MANIFEST.json` for the exact names of the theorems at this commit.
