# Formal model of bool-parser-java — design

Target: `sidhant92/bool-parser-java` (read as text under /repo, never built or run).
Prover: Lean 4.33.0 with Mathlib (only for rationals and list lemmas).

## 1. Shape of the model

The library is a pipeline, and the model follows it function by function:

    text --lexer--> tokens --parser--> parse tree --listener--> Node --evaluator--> value / failure

| Lean module (`lean/Verif/...`) | Java it models |
|---|---|
| `Model/Base` | exceptions seen through `Try`, Java `int`/`long` wrap-around, decimal digit printing/parsing |
| `Model/BigDecimal` | `java.math.BigDecimal` as (unscaled, scale): add, subtract, multiply, divide, compareTo, toString, parsing, intValue(Exact) |
| `Model/Double` | `double` only as far as `ValueUtils.castDecimal(double)` needs it |
| `Model/DateTime` | `LocalDate`, `LocalDateTime`, the two formatter patterns, ISO parsing, `toEpochDay` |
| `Model/Version` | maven `ComparableVersion` |
| `Model/Value`, `Model/DataType` | data values, `constant/DataType`, `datatype/*`, `ContainerDataType`, `ValueUtils` |
| `Model/Operators`, `Model/Functions` | `operator/*`, `function/*` |
| `Model/Node`, `Model/Eval` | `domain/*`, both evaluators |
| `Model/Lexer`, `Model/Parser`, `Model/Listener`, `Model/Api` | `BooleanExpression.g4`, generated lexer/parser behaviour, `BooleanFilterListener`, `BoolParser`, `evaluate` entry points |
| `Model/LexerData`, `Model/ATN`, `Model/LexerSim` | the automaton stored in `BooleanExpressionLexer` (`_serializedATN`), ANTLR's deserializer and lexer simulator |
| `Model/Recovery` | the generated parser again, on any token stream: `match`, ANTLR's `DefaultErrorStrategy` (`sync`, deletion, insertion, recovery sets), the listener on repaired trees, the entry points without `syntaxError` |
| `Model/ParserData`, `Model/ParserRun` | the automaton stored in `BooleanExpressionParser`; its language; the generated methods with every choice answered by the automaton |
| `Model/Cache` | `CachedBoolParser` over an abstract cache with arbitrary eviction |
| `Model/Registry` | the static factories as shared mutable state, interleavings |
| `Model/Lookup` | the evaluators again, with every read of the registries explicit; symbol lookup of operators |
| `Model/Session` | a program: registries and cache across constructions, registrations, evaluations, evictions |
| `Model/Locale` | the listener again, looking functions and operators up by name under a default locale |
| `Model/Heap` | the evaluators again, over objects with identity |
| `Model/Sharing` | parsers over that heap, programs that change nodes and data |
| `Model/Threads` | any number of threads on that heap, one read, write or allocation at a time |
| `Model/Ask` | the evaluators again, over a map the user implements, with every question to it written down |
| `Model/Message` | the evaluators again, with the key a `DataNotFoundException` names |
| `Model/Nested` | `getValueFromMap` again, through nested maps the user implements |
| `Model/HandMade` | the evaluators again, over nodes built by hand and parsers the user implements |
| `Model/Wrapped` | the evaluators again, over data with `EvaluatedNode` objects |
| `Model/Wording` | the parser and the evaluators again, with the messages of their exceptions |
| `Model/Verbatim` | the parser with error recovery again, with the text of every context and the names as written; its messages, and its outcome under a default locale |
| `Model/NullArgs` | the entry points with null allowed for the text and the data |
| `Lemmas/*` | helper lemmas, not part of the claims |
| `Spec/*` | small independent specifications (rationals, boolean meaning of expressions, field names, calendars, ...) |
| `Props/*` | one file per group of properties: the theorems and, beside each, a concrete instance |

Failures are `Except Exn`: `Try.of`/`Try.map` turn every (non-fatal) exception into `Failure(cause)`,
`Exn` is the class of the cause.

Texts are lists of Unicode scalar values (`List Char`); where Java counts UTF-16 units the model
encodes explicitly.

## 2. Plan per property

| Id | Modelled as | Proof idea |
|---|---|---|
| C01 | `evalBool` on AND/OR/NOT nodes, outcome = value or exception | decision table stated outright over the operands' outcomes |
| C02, C03 | `evaluateLogicalOperator` on any two values | both operators factor through the same coercions; ordering antisymmetry |
| C04, C05 | numbers as rationals | compareTo of aligned unscaled values vs. order on ℚ |
| C06 | UTF-16 lexicographic order | injectivity of the encoding, order lemmas |
| C07 | dates as (y,m,d), text via formatter model | lexicographic order; parse ∘ print = id |
| C08 | version parser and comparison | induction on component lists |
| C09-C13 | range / IN / CONTAINS nodes | list induction, permutation arguments |
| C14, C15 | missing lookups | case analysis of evaluator |
| C16, C54 | `getValueFromMap` vs. recursive path walk | induction on path |
| C17 | data maps agreeing on mentioned fields | induction on nodes |
| C18-C25 | operators over ints/longs/decimals | two's complement arithmetic, ℚ |
| C26-C34 | functions | fold lemmas, permutations, sorting |
| C35, C36, C43, C44, C52, C53, C55 | printer of a spec syntax, whole pipeline; `Spec/Order.lean` (what may follow what), `Spec/Seen.lean` (what a call sees of its arguments) | simulation: tokens, tree, stack invariant, evaluation |
| C37 | tree printer with minimal parentheses (`Expr.print`; `Arith.least`, `Cond.least`) | precedence-climbing round trip; through the API: exactly the trees the parser gets right (`Spec/Least`, `Lemmas/Least`) |
| C38-C42, C49 | lexer | longest-match lemmas |
| C45, C46 | cache as a state machine | invariant over histories with arbitrary eviction |
| C47, C48 | registry state machine | invariant over interleavings |
| C50 | BigDecimal text round trip | digit lemmas |
| C51 | range invariant of values | induction on nodes |
| C56 | grammar rules as an inductive predicate on token kinds | soundness by induction on the parser's fuel, completeness by flattening a derivation into a chain of atoms and operators |
| C57 | wrapping a token list | the parse of a closed tree does not look past its end; the listener's walk of a tree only touches its own part of the stack |
| C59 | outcome as a function of the world (clock, power function) | relational induction over tokens, tree, listener and evaluation (`Lemmas/Sim`, `SimEval`) |
| C60 | success with one map implies the same success with another | same parse; induction over the node, values found stay found |
| C62 | two texts with corresponding lexemes over two maps | relational induction as for C59, with the renaming as relation on FIELD tokens |
| C63 | failure `dataNotFound` of both evaluators | induction over the nodes with "every name looked up is named in the text" (relational induction as for C59) and a separate induction over parse trees showing where literals can stand (`Placed`) |
| C64 | failures of `parseExpression` | induction over parse trees through every listener callback: each failure is one of the listener's own or a conversion failure of a lexeme |
| C65 | `parseExpression` | a node is defined by recursion over the written condition (Spec/Nodes); induction over the condition through the listener's stack |
| C66 | both evaluators | replacing preserves what the parser reads as written; induction over the expression gives equal meanings |
| C67 | `+`, `*` on Integer/Long | the integer value of a polynomial (Spec/Polynomial); the 64-bit wrap is a ring homomorphism; induction |
| C68 | IN, NOT IN, CONTAINS | search of a concatenated list is the search of the parts in sequence; induction over the list |
| C69 | comparisons, ranges, IN, connectives | what a condition says of rationals (Spec/NumericLogic); induction over the condition |
| C70 | the automaton decoded from the string in the generated lexer, run by a model of the runtime's simulator | kernel evaluation decodes it and splits it into one small deterministic automaton per rule (checked for every character by representatives of intervals); a lemma that rules do not disturb each other; per rule, the accepted texts by induction; longest match by prefix arguments |
| C71 | comparison operators with their coercions | kinds of values (Spec/Mixed); shapes of printed numbers and dates show that no coercion crosses kinds |
| C72 | `=` on truth values and texts | the text type has the highest priority; printed forms compared; order refuses booleans |
| C73 | the parser with error recovery (`Model/Recovery`) and the parser of the grammar | simulation both ways by induction on fuel: a successful parse is repeated without a report; a run without a report is a parse; totality by a measure on tokens and errors |
| C74 | the same | a parse does not look beyond its end except for operators, names and signs (locality of the grammar's parser), then C73's simulation up to the end of the expression |
| C75 | the same | induction on the parse of the closed text: the recovering parser on the open text takes the same path to the end, from there each missing parenthesis is inserted or the list failed; the listener sees the difference only in the shape of lists |
| C76 | the same | invariant of the recovering parser: trees consist of tokens of the text; case analysis of the listener on such trees |
| C77 | the automaton decoded from the string in the generated parser; its language as an inductive relation; the generated methods as rules whose choices are predictions over it | soundness: every state gets a language, checked edge by edge; completeness by induction on the grammar; predictions by first-token sets closed under the edges; the run of the methods by induction on the run of `Model/Parser`; uniqueness by induction on the run |
| C78 | the same; slips as a relation between lists of lexemes | induction on the run of `Model/Parser` on the correct text: the recovering parser on the text with slips builds the same tree and reports once per slip |
| C79 | both evaluators; the table of causes is `Spec/Causes.lean` | two inductions: every operator, name and literal of a node stems from a token of the text (through parser and listener), and every exception of an evaluation stems from an operator of the node or a value that is a literal, stored in the data, or computed (`Explains`) |
| C80 | `ComparableVersion` (Model/Version.lean) as used by the version data type | the texts and their order are `Spec/Releases.lean`; lemmas compute the item lists the parser makes of such a text and the comparison of two of them |
| C81 | `toString` of every kind of value (Model/Value, DateTime, BigDecimal) | the printed forms are relations in `Spec/Printing.lean` that mention no function of the model; each value is shown to have exactly its model text as printed form, by mutual induction over values |
| C82 | parser with error recovery (Model/Recovery) followed by the evaluators | every part of a repaired tree comes from a token of the text (only upper bounds of ranges are put together from several), by induction over the recovering parser; the listener then builds a node whose names and literals come from such tokens; the evaluation lemmas of C17, C59, C60, C63 apply to that node |
| C83 | evaluators that fetch every type, operator and function object from the registries (Model/Lookup), programs as event lists (Model/Session) | the registries agree with the built-in ones on the types the evaluation meets (`Live.On`), by induction over the node for families; for single operations the one object an operator or function casts is computed |
| C84 | the formatters `yyyy-MM-dd`, `yyyy-MM-dd HH:mm:ss` and ISO_LOCAL_DATE, classification of texts, comparisons, DAYS_ELAPSED | the parsers accept exactly the texts of a declarative description (`Verif/Spec/DateTexts.lean`), both directions; the comparison lemmas then go by the class |
| C85 | the listener with its operand stack on every well-formed tree | if: the node lemmas of C01; only if: an invariant over the walk (`Verif/Lemmas/Stack.lean`, `Exact.lean`, `ExactCond.lean`): what is on the stack below an expression never reappears above it, so a node equal to the intended one forces each step to have consumed its own operands; other spellings by a simulation (`Respell.lean`) |
| C86 | `castLong`, `castDecimal` and every operator and function | inversion of a successful evaluation; for any text the top node decides |
| C87 | the listener with its look-ups of functions and operators by name (`Model/Locale`), `toUpperCase`/`toLowerCase` of ASCII letters in Turkish and elsewhere | simulation of the listener of C01–C86 by the listener with names, in which every name of the tree is a token of the text; for any text the same with the trees of `Model/Verbatim`, which on a text of the grammar have the same names (induction over trees) |
| C88 | the evaluators once more, on a heap of objects with addresses (`Model/Heap`): every list, map and node is an object, every `new`, read and write explicit | frame lemma for every method (writes only to addresses allocated since); refinement: on a heap showing data and tree, the outcome is that of `Model/Eval`, by induction on depth |
| C89 | programs over that heap and the cache (`Model/Sharing`): parse, evaluate, evict, create, change | the listener's nodes are allocated new; invariant over programs: each cached address shows the tree of its request, kept by steps that touch nothing reachable from the cache |
| C90 | threads over that heap and the cache (`Model/Threads`): methods as trees of single reads, writes and allocations, interleaved in any order | weakest preconditions that rely only on the objects reachable from what the call was given; invariant over schedules: private objects of busy threads are apart, cached trees are intact; termination by induction on the rest of the method |
| C91 | evaluators and caching parser with nullable arguments (`Model/NullArgs`) | induction over nodes: null data fail at the first look-up or make no difference; invariant: cache entries come from texts |
| C92 | `BigDecimal(String)` with the digits of all scripts (`Model/BigDecimal`, `Model/Base`) | the parser reads exactly the texts of a grammar (`numeral_iff`), then case analysis on the other operand |
| C93 | parser with error recovery, listener and evaluators on any token sequence (`Model/Recovery`, `Model/Eval`) | invariant of repaired trees: what each part of the tree is made of, with the place of every repair in the token sequence; then the argument of C79; malformedness of the slips by induction over the grammar |
| C94 | parser with error recovery, listener and evaluators on any token sequence (`Model/Recovery`, `Model/Eval`) | simulation: parsers started on token sequences of the same kinds make the same repairs and build related trees, which listener and evaluators treat alike |
| C95 | parser with error recovery and listener on any token sequence (`Model/Recovery`, `Model/Listener`) | invariant by induction on the walk: what lies on the listener's stack is paid for by the lexemes read; the lower bound by induction on the nesting depth |
| C96 | both evaluators over a map of the user, with the names asked for written down (`Model/Ask`) | one induction over the evaluators for every property kept by asking and by doing one thing after another (`LiftsAsk`); refinement to `Model/Eval` for plain maps |
| C97 | the evaluators of `Model/Ask` with the key given to every `DataNotFoundException` (`Model/Message`) | simulation with the model without keys: a key is the last question and its answer was nothing (`Voices`); single tests and calculations stop at the first such answer (`Halts`) |
| C98 | `getValueFromMap` over maps of the user at every level, as one map in the sense of C96 (`Model/Nested`) | induction over the keys of a name: each call, each exception, each answer; lifted to evaluations by the theorems of C96 |
| C99 | the evaluators over an arbitrary `BoolExpressionParser`, and over references to nodes with null and any operator in every place (`Model/HandMade`) | induction over the node (equal to the evaluation of the library's nodes; what is not looked at), induction over a filling of its nulls |
| C100 | the evaluators with the branches on `EvaluatedNode` objects in the data (`Model/Wrapped`) | induction over expressions: equal to an evaluation over other data |
| C101 | the evaluators with the message of each exception (`Model/Wording`) | equal to the evaluators once the messages are dropped; induction over expressions: a message if and only if a rule of `Spec/Wording` gives it; induction over nodes: a message if and only if the class is the library's |
| C102 | the parser with the message of each exception and the text of each context (`Model/Wording`) | equal to the parser once the messages are dropped; induction over trees: each context covers a piece of the tokens that is an expression of the grammar, and each message quotes such a piece; exact messages by following the walk; any text (`Model/Verbatim`): invariant of the parser with recovery that each context's text is spelt with consecutive tokens and marks; on a text of the grammar the two agree, contexts and messages alike (`parseTold_gram`), so all theorems speak of one parser |
| C58 | schemas, a typing relation and conforming data (`Verif/Spec/Typing.lean`) | induction over the typing derivation: the value exists and has the type |
| C61 | big-step rules over integers, rationals, texts, dates, versions (`Verif/Spec/Reference.lean`) | induction over the derivation, one lemma per operator, function and comparison from C02–C34 |

Properties marked “False of the code” in `properties.jsonl` get a theorem proving the negation on a
concrete witness and a `_partial` theorem with the hypothesis that makes the claim true.

## 3. How the theorems speak about texts

The end-to-end theorems are about texts, not about nodes. `Spec/Expr.lean` has a small syntax of expressions
(`Arith`, `Cond`), their lexemes, and their meaning written down independently of the evaluator. `Writes s c` says
that the text `s` spells the condition `c` (any white space, any accepted spelling of keywords) and that `c` lies in
the part of the language which the listener reads faithfully (`grouped`, `readable`); `WritesArith s e` is the same
for arithmetic. `h.eval` turns such a fact into an equation about `evaluate`. The restriction to the faithful part
is necessary, the code misreads the rest (findings below); `Cond.basic` is a large simple sub-language inside it
(`basic_writes`).

`Spec/Tokens.lean` describes the tokeniser without lexer rules, `Spec/Grammar.lean` the grammar as an ambiguous
context-free grammar, `Spec/Ladder.lean` the operator precedences and the
printing with minimal parentheses, `Spec/Ranges.lean` the ranges of the Java types.

## 4. Findings: where the code does not do what a user expects

Each is a theorem (negation with a concrete witness) beside the partial theorem that does hold.

| Finding | Theorem |
|---|---|
| `Integer - Integer` wraps silently in 32 bits | `C19_wraps`, `C19_wrong` |
| MIN/MAX/SUM of Longs beyond 2^53 lose precision | `C26_imprecise` |
| MIN, MAX and SUM of Longs never return a Long: a value too large for an Integer comes as BigDecimal; a whole quotient too large for an Integer fails | `C86_functions`, `C86_operators`, examples beside them |
| Under a Turkish or Azeri default locale `min(…)`, `int(…)`, `median(…)` in lower case fail, and `contains_all`, `contains_any` in lower case become EQUALS and fail | `C87_functions`, `C87_contains` |
| unary minus of a Double fails | `C23_double` |
| `a > 5 + 3` groups as `(a > 5) + 3` and evaluates to false for every `a` | `C53_arithmetic_is_false`, `C53_comparison_with_sum_is_false` |
| `- * / %` chains group unlike elsewhere (`10 - 2 + 3` is `10 - (2 + 3)`) | `C37_ladder`, `C37_chain` |
| calls and unary minus inside larger expressions get other operands | `C37_garbled` |
| `min(100, 2 + 3*4)` is 16: the operand `3*4` is replaced by the last compound argument, here the argument itself | `C44_three_operands_wrong`, `C44_seen`, `C44_twice_left` |
| `INT(1 * 2 + 3 * 4)` is refused | `C44_two_compounds` |
| `a IN (1, 2 + 3*4)` holds for 16, not for 14 | `C44_seen_in` |
| `a IN (1) AND b = 5` is rejected, the other order is accepted | `C43_order_matters`, `C43_swap_exact` |
| a bare boolean field is always false | `C52_bare_field_false` |
| numbers beyond Long: text when alone, unnoticed in one position | `C40_alone_is_text`, `C40_too_large_unnoticed` |
| mixed-case keywords are field names | `C41_mixed_case_not_keyword` |
| CONTAINS on a Set fails with ClassCastException | `C12_set_fails` |
| equality is not transitive across kinds | `C05_mixed_kinds` |
| text that reads as a date is no text for `=` and `+` | `C06_dates_differ`, `C25_date_glitch` |
| malformed text is evaluated: `a = 5) AND b = 6` is `a = 5` | `C74_not_refused`, `C74_trailing` |
| `(a = 5 OR (b IN (1, 2` is evaluated, `MIN(1, 2` refused, `MIN(2 + (1 + 1` evaluated | `C75_unclosed`, examples beside it |
| `a 5` (a range without TO and upper bound) is a null pointer | `C76_refusals`, example beside it |
| `a 1 5` is read as `a 1 TO 5` without complaint | `C78_slips`, examples beside it |
| any word after TO is taken as the upper bound: `a 0 TO 1e3` is evaluated, `a 0 TO x` fails only when evaluated | `C94_bounds_needed` |
| nested functions around three operands build the operands again at every level: the node grows with the square of the text | `C95_square_reached`, `C95_not_linear` |
| in `MIN(a * b + c)` the map is asked for `c` twice | `C96_asked_again` |
| a missing right operand of a comparison is reported as `NoSuchElementException: No value present`, without the name of the field | `C97_right_unnamed` |
| a ClassCastException of an inner map is a missing value, one of the data argument is a failure | `C98_class_cast`, `C98_throws` |
| a parser that returns null makes `evaluate` throw, although it returns a `Try` | `C99_thrown` |
| an `EvaluatedNode` in the data counts twice as a function argument or list item: `LEN(f)` is 2, `MAX(f, 3)` fails | `C100_twice`, `C100_function` |
| `5 * 'x'` fails with "Invalid left operand data type STRING for operator MULTIPLY", although the right operand is refused; `5 * b` with NaN for `b` prints DECIMAL in place of the operand | `C101_right_called_left`, `C101_operator` |
| `(a) = (b)` is refused with "Array does not support this expression (b)", although there is no array | `C102_sides` |
| a missing right operand fails as `NoSuchElementException`, a missing left one as data not found | `C79_no_such_element`, example beside it |
| `<` on versions is not transitive once a word follows a dot: 1 < 1.a, 1.a < 1-rc2, but not 1 < 1-rc2 | `C80_dotted_word`; transitive on staged versions: `C80_transitive` |
| a date-time equals only its ISO text with `T`, and `…T09:05:00` is not equal to the date-time it denotes, since zero seconds are not printed | `C81_equal_right`, example beside `C81_datetimes` |
| cache keys collide | `C45_collision`, `C45_empty_default` |
| after the text `null` was parsed, the caching parser accepts a null text | `C91_cached_null` |
| a text of a number in the digits of another script is ordered as that number but not equal to it | `C92_equality` |
| the text `2023-02-30` is the 28th of February for comparisons, an error for DAYS_ELAPSED; `2023-5-6` is no date and compared letter by letter | `C84_days`, `C84_days_refused`, `C84_ordinary`, examples beside them |
| a caller that changes a node of the caching parser (`setOperator`, …) changes the meaning of that text for all users of the parser | `C89_shared`, `C89_meddled` |
| any evaluator construction undoes registered data types | `C48_custom_lost`, `C48_custom_reset` |
| a program with its own LONG type cannot add integers, one with its own DECIMAL type cannot divide them (ClassCastException) | `C83_operator`, `C83_function`, examples beside them |

## 5. Trusted base

* Lean's kernel; theorems depend at most on `propext`, `Classical.choice`, `Quot.sound` (checked with
  `#print axioms` on every theorem named in MANIFEST.json; none uses `sorryAx` or `ofReduceBool`).
* `Verif/Util/KRfl.lean`: the tactic `krfl` closes a closed equation by `rfl` checked by the kernel, no more.
* The transcription of Java into the model (each definition cites file and lines).
* Third-party behaviour taken from its documentation/sources and written down as definitions:
  `BigDecimal`, `java.time` formatters, `ComparableVersion`, ANTLR's automaton format and lexer simulator (C70 derives
  longest-match lexing from them), the specification of its predictions (C77 derives
  precedence-climbing parsing from it), its error strategy and the outcome of its predictions (`Model/Recovery`), vavr `Try`, Caffeine (as a map that may
  drop entries at any time).

### Evidence for the transcription of the grammar

For the lexer the transcription is proved, not only tested: `Model/LexerData` is the string of the generated class
(copied by `tools/atn.py`), and C70 shows that running that automaton gives the tokens of `Model/Lexer` on every text.
What remains trusted is the model of ANTLR's deserializer and of `LexerATNSimulator`.

The same for the parser: `Model/ParserData` is the string of the generated class, and C77 shows that the generated
methods, choosing as that automaton predicts, build the trees of `Model/Parser`, with its precedences. What remains
trusted is the deserializer, the transcription of the methods (`GExpr` and so on) and the specification of
`adaptivePredict` (the lowest alternative through which the rest of the input can be parsed; precedence predicates
count in the asking method before a token is read).

ANTLR's behaviour on text outside the grammar (`Model/Recovery`) was written from the runtime's published sources,
which are not in the repository. `tools/recovery` is a second transcription of the same runtime, table driven and
running on the automaton in the generated parser; random token streams gave the same trees and numbers of errors in
both. The theorems up to C72 do not use `Model/Recovery`: they are about texts of the grammar, and say `syntaxError`
elsewhere. C73 connects the two.

### Not modelled

* The wording of ANTLR's error messages (only their number is).
* The wording of the exceptions of the JDK (the library's exceptions: C97, C101, C102).
* Fatal JVM errors (stack overflow on very deep input, out of memory).
* Texts with unpaired surrogates. In `ComparableVersion`, `toLowerCase` of letters outside ASCII (two versions that
  differ only in the case of such a letter are equal in Java, not in the model). Decimal digits are those of Unicode 7
  and later, as in Java 9 and later.
* `BigDecimal` scales outside the `int` range, exponents that need gigabytes.
* Sharing of data and nodes, and changes to them, are in `Model/Heap`, `Model/Sharing` and `Model/Threads` (C88–C90);
  elsewhere data and nodes are values, which `C88_condition`, `C88_arithmetic` and `C90_call` justify. In C90 a step is
  one read, write or allocation of an object and is seen by all threads at once (no Java memory model); ANTLR's shared
  prediction cache is left out, a parse being a function of its text; so are the registries (see C48). In the heap, texts, numbers and dates are values (they are immutable in Java), and depth
  limits `m`, `k` stand for Java's stack: a cyclic graph overflows it.
* Maps the user implements are in `Model/Ask` (C96), where the walk of a dotted name through nested maps is one question, and in `Model/Nested` (C98), where it is not;
  elsewhere data are plain maps, which `C96_plain` and `C96_snapshot` justify.
* The Java memory model: a registry write is visible to every later read. A reader of an `EnumMap` during its very
  first filling by another thread is covered only as "present or absent".
* Data containing the library's own `EvaluatedNode` objects outside of C100, such objects without a data type, and user data
  types that subclass the library's.
* Default locales: Turkish and Azeri are treated in `Model/Locale` (well-formed texts) and `Model/Verbatim` (any text), C87; everywhere else the model takes functions and operators from the kinds of tokens, which `C87_common` and `C87_common_any` justify for other locales.
* Tokens that the parser conjures up: their text is that of `DefaultErrorStrategy.getMissingSymbol` of the ANTLR runtime, `<missing X>` with the display name of the expected token; a set of expected tokens adds no node (`Model/Verbatim`). The runtime is not part of /repo; this is taken from its published source.
* When Caffeine evicts; `cachedParse` is atomic (`Cache.get(key, loader)` runs the loader under the key's lock), except in
  `Model/Threads`, where several threads may load one key at once and the first to finish is kept.
* C51 assumes that data lists and texts have at most 2^31 - 1 elements, which Java guarantees.
* `Math.pow` (on longs, and on decimals converted to double) and today's date are parameters (`Env`); theorems hold
  for every value of them.
