# Formal model of dherman/esprit in Lean 4

Property texts: `properties.jsonl`. Status of each property and the names of
its theorems: `MANIFEST.json`. Attempts to fool the theorems with wrong
programs: `seeded/LOG.jsonl`.

## 0. How the Lean project is organised

* `lean/Verif/Model`: the code of /repo, function by function. Every definition
  cites the file and lines it models.
* `lean/Verif/Spec`: small specifications that do not use the model's functions
  (only its data types: tokens, trees, errors). What a property means is to be
  read off here.
* `lean/Verif/Props`: the property theorems (`C01_...`, `C02_...`) and, beside
  each of them, an `example` showing that its hypotheses are met.
* `lean/Verif/Proofs`: lemmas. Nothing in it needs to be read to understand
  what is proved.

Everything is in the namespace `Esprit`. Names ending in `_partial` prove part
of a property; names ending in `_fails` prove that the full property is false
of the code, with a concrete witness.

## 1. What is modelled

| Part of /repo | Lean module(s) in `Verif/Model` | How |
|---|---|---|
| `crates/joker/src/track.rs` | `Track.lean`, `Text.lean` | `Posn`, `Span`, `span`, and how they are printed |
| `crates/joker/src/char.rs` | `Char.lean` | character classes; `ucd`'s `is_id_start/is_id_continue` are parameters (class `Env`) |
| `crates/joker/src/reader.rs` | `Reader.lean` | faithful two-buffer reader, plus the flat cursor that it is proved to refine |
| `crates/joker/src/word.rs`, `token.rs` | `Word.lean`, `Token.lean`, `F64.lean` | tables, tokens, literal values (doubles as exact rationals with an explicit rounding function) |
| `crates/joker/src/lexer.rs` | `Lexer.lean` | every function, over the flat cursor |
| `crates/joker/src/error.rs`, `src/error.rs` | `Base.lean`, `Parser/Base.lean`, `Text.lean` | the error values; their descriptions, causes and printed texts |
| `crates/easter/src/*.rs` | `Ast.lean`, `Punc.lean`, `Cover.lean`, `Untrack.lean`, `AstEq.lean`, `Builders.lean` | trees, operators, cover grammar, untrack, `PartialEq`, helper methods |
| `derive(Debug)` and the `Debug` impls of `crates/easter`, `crates/joker` for trees, tokens and errors | `Debug.lean`, `DebugToken.lean` | calls of the builders of `std::fmt`, and what the builders print for `{:?}` |
| `crates/derive/src/lib.rs` | `Derive.lean`, `AstDecl.lean`; `Ast.lean` (`loc`), `Untrack.lean` | the macros as functions from declarations to generated code, and what the generated code does; the declarations of `easter` are transcribed and the model's own `loc`, `setLoc` and `untrack` proved equal to the generated code (C65) |
| `src/atom.rs`, `context.rs`, `state.rs`, `stack.rs`, `tokens.rs`, `track.rs`, `expr.rs` | `Parser/Base.lean` | reserved words, parser context, token buffer, operator stack, spans |
| `src/parser.rs` | `Parser/Base.lean`, `Parser/Grammar.lean` | every parsing function |
| `src/lib.rs` | `Parser/Program.lean` | `script`, `strict`, `module`, `program` and the methods of `Program` |
| `crates/unjson` | `Unjson.lean` | JSON values and field access |
| `crates/estree` | `Estree.lean` | conversion of ESTree JSON |

All the trees of `easter` are one inductive family `Ast : Cat → Type` indexed
by a syntactic category, so that generic definitions (children, locations,
equality, untracking) and inductions are written once.

Outcomes are explicit: `ok`, `err` (a Rust `Err`), `panic` (an unwrap on
`None`, failed debug assertion, `unreachable!`, `unimplemented!`, arithmetic
overflow with overflow checks on) and `fuel` (the model ran out of its
recursion budget; proved impossible). `Env.overflowChecks` chooses between
debug and release builds; all theorems hold for both unless they say otherwise.
A Rust `&mut self` method is a function from state to outcome and new state.
After an `Err` the Rust parser state is never observed by any caller in the
crate, so the model drops it.

Rust loops and recursion become recursion on an explicit budget; properties C03
(lexer) and C23 (parser) prove that the budget the API functions supply is
never exhausted, so it does not truncate any behaviour.

The parser is written with open recursion: the two functions through which all
recursion goes (`assignment_expression`, `stmt_list_item`) are fields of a
record passed to every other function, and the fuel-indexed fixpoint ties the
knot. Proofs are by induction on the fuel with one lemma per parsing function.

### The grammar

`Spec/Grammar.lean` is the specification of the syntax: `Derives S env nt inp
rest node` is an inductive relation between token lists and trees, one
constructor per production, with the conditions of the language (strict mode
names, placement of `break`/`continue`/`return`, semicolon insertion,
restricted productions, `in` in `for` heads). It knows nothing of the parser.

* C34: what the parser returns is derived by the grammar.
* C50: what the grammar derives is returned by the parser, provided the flag
  `Scope.plain` is set. The flag switches off two known deviations: repeated
  nested labels, and rest elements in array assignment patterns.
* C53: for trees with distinct labels the two are one equivalence, without the
  flag.
* C51: the grammar is unambiguous.

Where the parser reads a token in the mode for operands before it is known that an
operator may follow (after a leading string, after `let` in a `for` head), the grammar
says that no `/` follows there (`NoDivision`, `LetNoDivision`); after an expression no
regular expression follows (`NoRegExp`).

The grammar carries explicit lookahead conditions where the language has them
(`[lookahead ∉ ...]`) and longest-match conditions at the ends of expressions
(what follows must not continue the expression), so it is deterministic.

## 2. How each property is proved

| Id | Model part | Proof |
|---|---|---|
| C01 | Reader | refinement: simulation between the buffered reader and a flat cursor, induction on the operation sequence |
| C02 | Reader | induction on the number of characters read, against an independent definition of line/column |
| C03 | Lexer | every loop iteration consumes a character; fuel = remaining length |
| C04 | Lexer | declarative `Trivia`/`Lexeme` relations, one lemma per lexer function, composition over token sequences |
| C05 | Lexer | same induction, newline flag tracked |
| C06 | Lexer | from C04 |
| C07, C08 | Lexer | declarative relation between lexeme text and token value |
| C09 | Lexer | false for 9 or more digits (32-bit wrap) and panics in debug builds: witness theorem plus `_partial` for at most 8 (release) / 7 (debug) digits |
| C10, C11 | Word | case analysis over the tables, for all strings |
| C12, C13 | Lexer | case analysis of the dispatch |
| C14 | Token, F64 | grammar of Rust's float parser as a recogniser; exact rational arithmetic with an explicit rounding function. `Spec/Double.lean` defines which rationals are doubles and which double is nearest, without the rounding function; `roundNat` is proved to return it. Decimal literals: nearest. Radix literals are rounded at each digit, so only adjacency and exactness hold (`C14_fails`). That `str::parse::<f64>` and `mul_add` round correctly is part of the model of the Rust library |
| C15 | Lexer, Parser | algebraic laws; lookahead bound is an invariant of all parser functions |
| C16 | Lexer | false: witnesses; exact characterisation as `_partial` |
| C17 | Stack | invariant on the frame stack, uniqueness of the precedence-respecting tree |
| C18 | Punc | finite case analysis |
| C19 | Cover | structural induction |
| C20 | Cover, Parser | false for parsed input: witness |
| C21, C22 | Ast | structural induction; equality is shown to be equality of normal forms |
| C23, C24 | Parser | per-function Hoare-style lemmas with a decreasing measure |
| C25-C28, C34-C38 | Parser | soundness of the parser for a declarative grammar relation; the individual properties follow by induction on derivations |
| C29 | Parser | false: witness |
| C30-C33 | Parser | relational induction over parser programs |
| C39, C40 | Parser | false: witnesses; `_partial` statements of what does hold |
| C41 | Parser | per-function lemma |
| C42, C43, C45 | Unjson, Estree | case analysis; induction on the nesting depth of the JSON object |
| C44 | Estree | `Spec/Estree.lean` defines which JSON values encode a tree; one lemma per conversion function, induction on the nesting depth. Partial: destructuring patterns are not convertible (witness) |
| C46 | Lexer | the trivia relation of `Spec/Lex.lean`; token sequences without positions (`Lexes`); a token reads only the next character after it, so a separator may be exchanged |
| C47, C48 | Parser | false: witnesses; partial: how nested `new` pairs with arguments, and what is read after `for (let` in accepted sources |
| C49 | Parser | induction on derivations down to token lexemes |
| C50 | Parser | converse of C34: a forward calculus (`P.cp`: runs to success), lookahead and follow sets of the grammar (`First.lean`), one lemma per production (`Proofs/Complete`), induction on the derivation. Where the parser reads a token in the mode for operands before it is known that an
operator may follow (after a leading string, after `let` in a `for` head), the grammar
says that no `/` follows there (`NoDivision`, `LetNoDivision`); after an expression no
regular expression follows (`NoRegExp`).

The grammar carries explicit lookahead conditions so that it is deterministic; `Scope.plain` switches off the known deviations of the parser |
| C51 | Parser | from C50: the parser is a function |
| C52 | Parser | a calculus of errors (`Proofs/Parser/Blame.lean`): every parser function, run from a state whose buffered tokens are tokens of the source, reports only errors that `Spec/Blame.lean` allows; one lemma per function, induction on the recursion budget |
| C53 | Parser | every derivation of the grammar (C34) with distinct labels is a derivation of the plain grammar (C50), by induction on derivations (`Proofs/Complete/Plain.lean`); labels are invariant under removal of locations (`Labels.lean`); then C34 and C50 are two directions of one equivalence |
| C54 | Lexer | a specification of malformed remainders per token class (`Spec/LexFault.lean`), independent of the lexer's control flow; soundness by evaluating each reader on the malformed text, completeness by case analysis on the readers with `tokens_split`; exclusiveness from determinism of the reader |
| C55 | Parser, Lexer | a relational (two-run) calculus `J`/`Cong` over the parser monad: every parser function maps blurred-equal states to blurred-equal results (`Proofs/Parser/LayoutFns.lean`); the recursion knot is tied by monotonicity of the fuelled parser in its fuel (`LayoutMono.lean`) and its limit (`LayoutKnot.lean`); separators are handled by the lexer theorem `separators_tokens` and by C54 for malformed sources |
| C56 | Parser | locations against tokens: `Spec/Extent.lean` says which edges are exact; `Proofs/Parser/Extent.lean` proves by induction over derivations that expression locations start and end with the tokens they are derived from, up to parentheses; `Near`/`Located` in `Spec/Grammar.lean` bound statement locations by the neighbouring tokens. Violated at conditionals, `++`/`--` and statements (`C56_fails`), so partial. |
| C57 | Text | `Model/Text.lean` models `description`, `cause`, `Display` and `Debug`; kinds of errors are in `Spec/Text.lean`; descriptions are a finite table, the texts of numbers are injective by induction on their digits, and lines and columns determine the offset in a source |
| C58 | Parser | inversion of the derivation of a body: a string literal expression is a token or in parentheses (induction on derivations), and what may follow the expression is not what continues a directive |
| C59 | Builders | case analysis; `from_init_opt` loses the initializer's extent (witness) |
| C60 | Estree | `Spec/EstreeReads.lean` relates trees to the JSON values they are read from; the conversion is shown sound (a predicate transformer over its field extractions) and complete (induction on nesting depth) for it |
| C61 | Estree | the same soundness pass carries, for errors, the truth of the error (`EError.Blames`) up through every enclosing node |
| C62 | Estree | `Reads` depends only on the listed fields (induction on `Reads`), then C60 and C61 |
| C63 | Unjson | from the exactness theorems of C42 for each function. Partial: the functions for i64, u64 and f64 disagree (witness) |
| C64 | EstreeText | the beginnings of the texts form a prefix-free finite set (decided by the kernel); the rest of each text is injective |
| C65 | Derive, AstDecl | the arm for the constructor of a value is the only one that matches, as paths are distinct (induction on the arms); its variables are distinct, so each statement of the block reaches its own field. For the syntax tree: case analysis on the nodes |
| C66 | Layout calculus | the calculus of C55 also tracks what has been read: each function, started with at most two tokens read or unread before it, consumes the tokens in its modes, keeps at most two within reach, and fails only with an error about one of these or at a malformed token (`Tight`). Changing the text after the tokens leaves them alone (`Lexes.change`). For `program` the negation is proved |
| C67 | Debug | printing is split into the calls of the builders of `std::fmt` (`Dbg`) and their text. The text is decoded from the left (induction on the calls): names end at a delimiter, quoted texts end by the laws of `Spec/Debug.lean`. The calls determine the tree up to locations by induction on trees. `C67_derived` checks the model against the declarations of C65 |
| C68 | Join | on tokens: in a derivation that ends at the end-of-file token, that token can be replaced by the tokens of the second text, whose first one starts on a new line (`derives_join`, induction on derivations: each side condition on the next token survives), and the two lists of statements are glued. On texts: the tokens of the joined text are those of the first and those of the second with the first blanked out (`tokens_join`); blanking does not change the outcome (C55). Soundness (C34) and completeness (C50) tie both ends to the parser |
| C69 | Wrap | as C68, with `}` in the place of the end of the program; what is derived outside a function is derived inside it (induction on derivations); the rest of the derivation is built from the tokens around the program |
| C70 | Wrap | as C69, with `)` or `]` in the place of the end of the expression |
| C71 | Leading | the tokens after `;` are those of the text (shift of positions as in C68); C34 one way, C50 the other; with leading directives, a statement that begins with a string literal and ends as a directive consists of the literal (Complete/Lone, by induction on the derivation); `C71_never`, `C71_misread` by cases on the rules of the grammar for directives |
| C72 | Rename | induction on the derivation of C34: each rule of the grammar is mapped to itself on the renamed tokens (patterns by `sourceExpr`/`intoAssignPatt`, labels by injectivity); then C50 |
| C73 | Unit | `find?`/`findSome?` as splits of the lists; the cause that is blamed is unique |
| C74 | Semis | induction over derivations: every construct can also be derived from the tokens with its inserted semicolons; the added characters change no token before them; then C50 |
| C75 | Closing | induction over derivations: every construct can also be derived from the tokens without its semicolons before `}`; a space in place of such a semicolon is trivia and changes no other token; then C50 |
| C76 | DebugToken | as C67: the calls of the builders of `std::fmt` are decoded from the text, and the token or error from the calls; values of tokens are neither NaN nor -0 by C14, and errors with trees are not reported by C52 |
| C77 | Closing | the proof of C75 is for any set of semicolons before `}` or the end of the source, without those at the end after a jump without argument; `break` and `continue` are counterexamples |
| C78 | Breaks | the derivations of C72 also allow more line breaks: each rule of the grammar that looks at one is shown to be unaffected; the text is read again token by token, and only `--` could become a comment |
| C79 | Breaks | as C78; line breaks can also be removed where the derivation does not insert a semicolon |
| C80 | Nesting | induction over derivations: every construct leaves the stack of open brackets as it was |
| C81 | Nesting | induction over derivations: every construct consumes the semicolons that its tree stands for |

## 3. Trusted base

* Lean 4.33.0's kernel.
* Axioms, as printed by `#print axioms` for the theorems in `MANIFEST.json`:
  - no axioms: `C10_tables`, `C11_string_roundtrip`, `C18_binop_roundtrip`,
    `C18_logop_roundtrip`, `C18_assop_roundtrip`, `C18_texts_distinct`,
    `C57_error_text`.
  - `propext`: `C11_atom_roundtrip`, `C11_from_exact`, `C11_texts_distinct`,
    `C18_unop_exact`, `C18_token_logop`, `C18_token_assop`, `C19_target`,
    `C21_idempotent`, `C21_nothing_else`, `C21_identical_iff`,
    `C59_declarator`, `C59_initialized`, `C59_constant`, `C59_agree_partial`,
    `C59_span_fails`, `C59_identifier`, `C59_directive`, `C59_directive_stmt`,
    `C65_ast`, `C73_blame_unique`.
  - `propext, Quot.sound`: `C02_position_unique`, `C09_braced_escape_partial`,
    `C18_token_binop`, `C18_token_unop`, `C18_token_complete`,
    `C21_no_locations`, `C21_semis`, `C45_prologue`, `C45_function`,
    `C57_error_cause`, `C65_trackable`, `C65_tracking_impl`, `C67_derived`,
    `C67_expr`, `C73_script`, `C73_strict`, `C73_module`, `C76_number_source`.
  - `propext, Classical.choice, Quot.sound`: all the other 287 theorems.
  There is no axiom of our own, no `sorry`, no `native_decide`, no `bv_decide`.
  `decide +kernel` is used for finite tables and for concrete witnesses; the
  kernel evaluates these itself.
* Mathlib is imported in `Proofs/Double.lean` only (facts about powers and
  rational inequalities); `Proofs/DoubleRadix.lean`, `Props/Number.lean`
  and `Props/DebugToken.lean` depend on it. Everything else uses Lean core only.
* The correspondence between the Rust text and the model (each definition cites
  file and lines). It is by reading; nothing was compiled or run.
* The specifications in `Verif/Spec` say what the English property says.
* `ucd`'s identifier tables are an arbitrary pair of predicates; the laws
  assumed about them (`LawfulEnv` in `Spec/Lex.lean`: what starts an identifier
  continues one, the ASCII part is letters, digits and `_`, white space and line
  terminators are not identifier characters) are hypotheses of the
  theorems that use them, and are shown to be satisfiable (`asciiEnv_lawful`).
* The `tristate` crate is not vendored in /repo: `TriState` is modelled as the
  three-valued enum with `From<bool>`.
* Rust std: `VecDeque`, `Vec`, `HashMap`, `String`, `char` behave as documented;
  `str::parse::<f64>` and `f64::mul_add` round correctly; `{:?}` of a character
  is injective; allocation never fails; the stack never overflows.
* serde_json: a `Value` is one of null, boolean, number, string, array, object
  with distinct keys; numbers are i64, u64 or f64; `as_i64`, `as_u64`, `as_f64`
  convert between these when the value fits (serde_json 0.8). `{:?}` of a string
  is quoted and injective.

## 4. Not modelled

* `{:#?}` of anything, the `Display` of the operator stack (used
  for debugging only, never called).
* Parsing of JSON text, and `serde`'s own errors for values that are not objects.
* In `crates/derive`: parsing of declarations and printing of code (`syn`,
  `quote`), lifetimes, `where` clauses and attributes. The model has its own small
  semantics of the Rust code that the macros generate: one `match` with struct and
  tuple patterns, and blocks of method calls.
* `import`/`export`: `unimplemented!()` in the code, a panic in the model.
* Test harness code (`crates/joker/src/test.rs`, `tests/`, `benches/`,
  the test-only functions at the end of `lexer.rs`).
* Stack exhaustion, memory limits; 32-bit overflow of positions (sources of
  2^32 characters or more).

## 5. Where the code violates a property

Each is proved as a theorem with a concrete witness.

| Property | What happens | Theorem |
|---|---|---|
| C09, C16 | `\u{h...h}` with nine or more digits wraps modulo 2^32; with overflow checks eight or more can panic | `C09_fails`, `C09_fails_debug` |
| C14 | hexadecimal, octal and binary literals are rounded once per digit, not once | `C14_fails` |
| C16 | an unterminated regular expression or `\u{` escape at the end of input panics | `C16_fails_regexp`, `C16_fails_escape` |
| C20 | `[...x] = y` is rejected in parsed code | `C20_fails`, `C20_rejects` |
| C29 | reserved words of strict code are accepted if spelled with escapes | `C29_fails` |
| C39 | `script` and `strict` stop silently at `}`, `case` or `default` | `C39_fails` |
| C40 | a `"use strict"` directive has no effect (the comparison includes the quotes) | `C40_never`, `C40_fails` |
| C44 | ESTree conversion rejects destructuring patterns; a parenthesised leading string becomes a directive | `C44_fails_destructuring`, `C44_fails_string` |
| C60 | the ESTree conversion ignores `computed` of a property: `({[a]: b})` becomes `({a: b})`; the rest parameter of a setter is dropped | `C60_computed_fails`, `C60_setter_fails` |
| C46 | a line terminator inside a block comment does not permit `-->` | `C46_block_comment_newline` |
| C47 | accessors after the arguments of an inner `new` are attached to the outer one | `C47_fails` |
| C48 | `for (let / 1;;)` is read as a regular expression | `C48_fails` |
| C53 | an inner statement with the label of an enclosing one is accepted, and the outer label is forgotten after it | example beside `C53_accepts_script` |
| C54 | a line terminator in a class of a regular expression is accepted; identifier escapes are not checked to be identifier characters | specification `Spec/Lex.lean` records it |
| C56 | conditionals, `++`/`--` and many statements have locations that start or end at a neighbouring token | `C56_fails` |
| C59 | `Dtor::from_init_opt` with a simple target takes the location of the name only | `C59_span_fails` |
| C63 | `get_i64` reads `3` stored as u64, but `get_i64_opt`, `extract_i64` and `extract_i64_opt` reject it (likewise u64, f64) | `C63_fails` |
| C71 | a string literal at the beginning of a program, module or function body cannot be divided: `'a' / 2` panics or is rejected | `C71_fails`, `C71_never` |
| C71 | if the division is on the next line (`'a'⏎/b/g`), the text is accepted as a directive and a regular expression instead of as a division | `C71_misread`, `C71_misread_fails` |
| C73 | a `"use module"` directive does not make a program a module (the comparison includes the quotes); `program()` never returns one | `C73_never`, `C73_use_module_fails` |
| C77 | `break` and `continue` at the end of the source need a semicolon: `while(1)break` is rejected (`has_arg_same_line`, src/state.rs:83-86, does not check for the end) | `C77_fails` |
