{"id": "C01", "title": "Character lookahead is transparent", "statement": "Interleaving any peeks (up to 4 characters ahead) with reads on the character reader never loses, duplicates or reorders a character: reads deliver exactly the input in order, and peek(n) always returns the character that the (n+1)-th following read would return (or None past the end).", "quantifier": "every input string and every finite sequence of peek(n)/next calls", "why_tests_cant": "unit tests fix one input and one call sequence; the claim is over all interleavings", "anchors": ["crates/joker/src/reader.rs: Reader::peek, Reader::next"]}
{"id": "C02", "title": "Source positions are exact", "statement": "After reading k characters of the input, the reported position has offset k, line equal to the number of line terminators completed in those k characters (LF, CR, LS, PS; CR LF counts once, at the LF), and column equal to the number of characters since the last completed line terminator.", "quantifier": "every input string and every prefix length k", "why_tests_cant": "depends on arbitrary mixtures of CR, LF, LS and PS including a CR at the very end or split from its LF", "anchors": ["crates/joker/src/reader.rs: Reader::next", "crates/joker/src/track.rs: Posn"]}
{"id": "C03", "title": "Reading a token always terminates and makes progress", "statement": "Reading a token from any input finishes; when it succeeds it has consumed at least one character of the token itself, unless it returned EOF.", "quantifier": "every input, every lexer position in it, both operator modes", "why_tests_cant": "termination over all inputs cannot be sampled", "anchors": ["crates/joker/src/lexer.rs: Lexer::read_token, read_next_token"]}
{"id": "C04", "title": "Tokens and trivia tile the source", "statement": "Every token's span delimits exactly the characters of its lexeme: from the end of the previous token the source consists of trivia (whitespace, line terminators, comments) up to the span's start, then the lexeme up to the span's end, where the next token's trivia begins. Spans are therefore ordered, disjoint, and non-empty except for EOF.", "quantifier": "every input and every sequence of successful token reads from its start", "why_tests_cant": "quantifies over all inputs and all prefixes of the token stream", "anchors": ["crates/joker/src/lexer.rs: read_next_token, SpanTracker::end", "crates/joker/src/token.rs: Token"]}
{"id": "C05", "title": "The newline flag is exact", "statement": "A token's newline flag is true exactly when a line terminator character occurs between the end of the previous token and the start of this one, including inside block comments.", "quantifier": "every input and every token read from it", "why_tests_cant": "ASI correctness rests on this for arbitrary comment/whitespace mixtures", "anchors": ["crates/joker/src/lexer.rs: read_next_token, skip_block_comment, skip_newlines"]}
{"id": "C06", "title": "EOF is sticky and only at the end", "statement": "A read returns EOF only when nothing but trivia remains, and once EOF has been returned every later read again returns EOF at the same position.", "quantifier": "every input, every number of further reads, both operator modes", "why_tests_cant": "quantifies over unboundedly many reads", "anchors": ["crates/joker/src/lexer.rs: read_next_token"]}
{"id": "C07", "title": "Token values are faithful to their lexemes", "statement": "A token's value determines its lexeme: punctuators and unescaped words are spelled by their value, a string's source field is the exact source text including quotes, a number's source fields re-assemble to the exact source text, and an escape-free regexp literal re-assembles from pattern and flags.", "quantifier": "every input and every token read from it", "why_tests_cant": "ranges over all literals and all surrounding text", "anchors": ["crates/joker/src/lexer.rs: read_string, read_number, read_regexp, read_word, read_punc", "crates/joker/src/token.rs: TokenData, NumberSource, StringLiteral"]}
{"id": "C08", "title": "String literal values follow the escape rules", "statement": "The value of a string literal is obtained from its source text by the ECMAScript escape rules: plain characters stand for themselves, single-character escapes map as specified, line continuations vanish, \\x, \\u, \\u{...} and legacy octal escapes denote their code point.", "quantifier": "every string literal accepted by the lexer", "why_tests_cant": "unbounded combinations of escapes", "anchors": ["crates/joker/src/lexer.rs: read_string, read_string_escape, read_unicode_escape_seq", "crates/joker/src/char.rs: unescape"]}
{"id": "C09", "title": "Code-point escapes denote their hexadecimal value", "statement": "\\u{h...h} denotes the code point whose hexadecimal notation is h...h.", "quantifier": "every non-empty digit string", "why_tests_cant": "fails only for long digit strings that unit tests do not contain", "anchors": ["crates/joker/src/lexer.rs: add_digits, read_unicode_escape_seq"]}
{"id": "C10", "title": "Words are classified by spelling", "statement": "A word without escapes becomes a reserved-word token exactly when its text is one of the 36 reserved words, a contextual identifier exactly when its text is one of the 18 contextual names, and otherwise an ordinary identifier; with escapes a reserved word is an error and every other word is an ordinary identifier with the decoded text.", "quantifier": "every character string", "why_tests_cant": "ranges over all strings, not just the table entries", "anchors": ["crates/joker/src/word.rs: Map::new, Map::tokenize, Reserved::name, Atom::name, Name::from"]}
{"id": "C11", "title": "Names round-trip through strings", "statement": "Converting a string to a name and back gives the same string; converting a contextual name to its text and back gives the same name; reserved and contextual texts never collide.", "quantifier": "every string, every contextual name, every reserved word", "why_tests_cant": "ranges over all strings", "anchors": ["crates/joker/src/word.rs: Name::from, Name::into_string, AsRef<str>, Atom::name"]}
{"id": "C12", "title": "Punctuators are lexed by longest match", "statement": "When the remaining input starts with a punctuator, the token returned is the longest punctuator of the supported set that is a prefix of the remaining input (for '/' subject to the operator mode and comments).", "quantifier": "every input position at which a punctuator starts", "why_tests_cant": "all continuations after each punctuator prefix", "anchors": ["crates/joker/src/lexer.rs: read_next_token, read_punc2_3"]}
{"id": "C13", "title": "Operator mode only decides how '/' is read", "statement": "Reading a token in operator mode and in non-operator mode gives the same result on every input, unless the first character of the token is '/'; in operator mode '/' is a division operator and otherwise it starts a regular expression.", "quantifier": "every input position", "why_tests_cant": "relational property over all inputs", "anchors": ["crates/joker/src/lexer.rs: read_next_token"]}
{"id": "C14", "title": "Numeric literals never panic and denote their mathematical value", "statement": "For every numeric literal the lexer accepts, computing its value does not panic, and the value is the IEEE double nearest to the number the literal denotes (ties to even, infinity on overflow), whatever its radix, number of digits, fraction and exponent.", "quantifier": "every numeric literal accepted by the lexer", "why_tests_cant": "unbounded digit strings, fractions and exponents", "anchors": ["crates/joker/src/token.rs: NumberSource::value, into_token_data", "crates/joker/src/lexer.rs: read_number, read_radix_int, read_exp_part"]}
{"id": "C15", "title": "Token push-back is transparent", "statement": "Peeking, reading, re-reading and un-reading tokens behaves like a cursor over one token sequence: peek does not change what read returns next, unread after read restores the previous state, and no more than two tokens of lookahead are ever held during parsing.", "quantifier": "every sequence of peek/read/unread operations allowed by the API; every parse of every input", "why_tests_cant": "all interleavings and all inputs", "anchors": ["crates/joker/src/lexer.rs: peek_token, read_token, unread_token, reread_token, repeek_token"]}
{"id": "C16", "title": "The lexer reports errors instead of panicking", "statement": "Reading a token never panics: malformed input yields an Err.", "quantifier": "every input", "why_tests_cant": "absence of panics over all inputs; the known counterexamples are inputs that end inside a regexp or a \\u{ escape", "anchors": ["crates/joker/src/lexer.rs: read_regexp, read_regexp_class, read_unicode_escape_seq, read"]}
{"id": "C17", "title": "Binary expressions respect precedence and associativity", "statement": "A sequence of operands separated by binary operators is parsed into the tree in which every operator's left subtree has operators of at least its precedence and right subtree only operators of strictly higher precedence (left associativity), with operands and operators in source order; this tree is unique.", "quantifier": "every sequence of operands and binary/logical operators of any length", "why_tests_cant": "unbounded operator sequences", "anchors": ["src/stack.rs: Stack::extend, Stack::finish, Infix::groups_left", "crates/easter/src/punc.rs: Precedence", "src/parser.rs: more_infix_expressions"]}
{"id": "C18", "title": "Operator text round-trips", "statement": "Formatting an operator and parsing the text gives the same operator; distinct operators have distinct texts; every operator token maps to the operator with the same text.", "quantifier": "every binary, logical, assignment and unary operator and every string", "why_tests_cant": "the inverse direction ranges over all strings", "anchors": ["crates/easter/src/punc.rs: FromStr, Display, ToOp"]}
{"id": "C19", "title": "Assignment targets are converted without loss", "statement": "Converting an expression to an assignment pattern succeeds exactly on identifiers, member accesses and array/object literals built from them (rest element last), and the resulting pattern denotes the same source expression: converting it back gives the original expression.", "quantifier": "every expression", "why_tests_cant": "all nesting depths of array/object patterns", "anchors": ["crates/easter/src/cover.rs: into_assign_target, into_assign_patt, into_assign_prop"]}
{"id": "C20", "title": "Array rest patterns are accepted in parsed assignments", "statement": "An assignment whose left side is an array literal ending in a spread element is accepted.", "quantifier": "every parse of such an assignment", "why_tests_cant": "the accepted/rejected outcome depends on location tracking that is invisible to value-level tests", "anchors": ["crates/easter/src/cover.rs: into_assign_patt", "src/parser.rs: expr_list_item, more_assignment"]}
{"id": "C21", "title": "Untracking erases all locations and nothing else", "statement": "After untrack() no node of the tree carries a location and every semicolon is the canonical explicit one; untrack is idempotent; two trees that differ only in locations and semicolon origin become identical; names, operators, literals and structure are unchanged.", "quantifier": "every AST", "why_tests_cant": "structural induction over all ASTs", "anchors": ["crates/joker/src/track.rs: Untrack", "crates/derive/src/lib.rs: expand_untrack", "crates/easter/src/punc.rs: Semi::untrack"]}
{"id": "C22", "title": "AST equality is an equivalence that ignores only surface differences", "statement": "== on ASTs is symmetric and transitive, reflexive on trees without NaN literals, and identifies exactly those trees that agree up to literal source text, order of regexp flags, and omitted versus empty argument lists of new.", "quantifier": "all pairs and triples of ASTs", "why_tests_cant": "relational laws over all ASTs", "anchors": ["crates/easter/src/expr.rs: PartialEq for Expr", "crates/joker/src/token.rs: PartialEq for RegExpLiteral/StringLiteral/NumberLiteral"]}
{"id": "C23", "title": "Parsing terminates on every input", "statement": "script, strict, module and program return (Ok, Err or panic) on every input string; the recursion depth is at most linear in the input's length (2n+4), and every loop is bounded by the unread input.", "quantifier": "every input string", "why_tests_cant": "termination over all inputs", "anchors": ["src/parser.rs: all parsing functions", "src/lib.rs: script, strict, module, program"]}
{"id": "C24", "title": "Internal parser assertions never fail", "statement": "No unwrap, unreachable! or debug assertion of the parser (re-reading an expected token, re-peeking, un-reading into a full buffer, atom().unwrap(), location.unwrap()) can fail; the only panics are the lexer's on unterminated regexps/\\u{ escapes, arithmetic overflow in debug builds, and unimplemented import/export in module/program.", "quantifier": "every input string and every entry point", "why_tests_cant": "absence of panics over all inputs", "anchors": ["src/parser.rs", "src/state.rs: reread", "crates/joker/src/lexer.rs: reread_token, repeek_token, unread_token"]}
{"id": "C25", "title": "break, continue and return are well placed in every returned tree", "statement": "In every tree returned by script, strict, module or program: an unlabelled break is inside a loop or switch of the same function, an unlabelled continue inside a loop of the same function, a labelled break names an enclosing label of the same function, a labelled continue names an enclosing label of the same function that labels a loop, and return occurs only inside a function.", "quantifier": "every accepted input", "why_tests_cant": "arbitrary nesting of functions, loops, switches and labels", "anchors": ["src/parser.rs: break_statement, continue_statement, return_statement, labelled_statement, iteration_body, function_body", "src/context.rs: with_labels, new_function"]}
{"id": "C26", "title": "Statement shape invariants", "statement": "In every returned tree: a switch has at most one default clause, a try has a catch or a finally, declarations (function, let, const) occur only in statement lists and never as the direct body of if/loops/with/labels, a sequence expression has at least two elements, and declaration lists are non-empty.", "quantifier": "every accepted input", "why_tests_cant": "arbitrary nesting", "anchors": ["src/parser.rs: switch_cases, try_statement, statement, more_expressions, comma_separated"]}
{"id": "C27", "title": "Strict parsing rejects strict-mode violations", "statement": "A tree returned by strict() contains no with statement, no identifier reference, label or binding that is (spelled without escapes, see C29) one of implements, interface, let, package, private, protected, public, static, yield, and no binding (variable, parameter, function name, catch parameter) named eval or arguments.", "quantifier": "every input accepted by strict()", "why_tests_cant": "arbitrary nesting and placement", "anchors": ["src/parser.rs: strict_check, new_id, with_statement", "src/atom.rs"]}
{"id": "C28", "title": "Module parsing additionally reserves await", "statement": "A tree returned by module() satisfies the strict-mode restrictions and contains no identifier reference, label or binding named await (spelled without escapes, see C29).", "quantifier": "every input accepted by module()", "why_tests_cant": "arbitrary nesting and placement", "anchors": ["src/parser.rs: strict_check, new_id, module", "src/atom.rs"]}
{"id": "C29", "title": "Escaped contextual keywords are still reserved in strict code", "statement": "Strict-mode reserved identifiers are rejected even when spelled with unicode escapes.", "quantifier": "every input to strict()", "why_tests_cant": "claim over all spellings; the counterexample needs an escaped spelling", "anchors": ["crates/joker/src/word.rs: Map::tokenize", "src/atom.rs: is_strict_reserved"]}
{"id": "C30", "title": "program().script() agrees with script()", "statement": "If program(s) succeeds with a script-or-module-ambiguous result, script(s) succeeds with exactly the tree that Program::script returns; conversely if script(s) succeeds and consumed all of s, program(s) succeeds with the same tree.", "quantifier": "every input string", "why_tests_cant": "relates two runs of the parser on every input", "anchors": ["src/parser.rs: program, script, Program::script, program_items, statement_list", "src/lib.rs"]}
{"id": "C31", "title": "Deferred strict checks agree with eager strict parsing", "statement": "If program(s) succeeds as ambiguous, then Program::strict on the result equals strict(s): the same tree, or the same first error.", "quantifier": "every input string", "why_tests_cant": "relates the deferred and eager validation on every input", "anchors": ["src/parser.rs: strict_check, Program::strict", "src/error.rs: Check::perform"]}
{"id": "C32", "title": "Deferred module checks agree with module parsing", "statement": "If program(s) succeeds as ambiguous, then Program::module on the result equals module(s): the same tree, or the same first error.", "quantifier": "every input string", "why_tests_cant": "relates the deferred and eager validation on every input", "anchors": ["src/parser.rs: strict_check, Program::module, module_items", "src/error.rs: Check::perform"]}
{"id": "C33", "title": "Strict acceptance implies sloppy acceptance with the same tree", "statement": "If strict(s) returns a tree then script(s) returns the same tree.", "quantifier": "every input string", "why_tests_cant": "two-run property over all inputs", "anchors": ["src/parser.rs: script, strict_check"]}
{"id": "C34", "title": "The tree is derived from the tokens in order", "statement": "Every tree returned by the parser is generated by the (documented) grammar from exactly the sequence of tokens consumed: no token is dropped, duplicated, reordered or attributed to the wrong place.", "quantifier": "every accepted input", "why_tests_cant": "soundness of the whole parser over all inputs", "anchors": ["src/parser.rs", "grammar.md"]}
{"id": "C35", "title": "Leaves of the tree appear in source order", "statement": "The identifiers, property names and literals of a returned tree, read left to right, are exactly the identifier and literal tokens of the consumed source, in order; the only such tokens without a leaf are the contextual words let, get, set, of and target where they act as keywords.", "quantifier": "every accepted input", "why_tests_cant": "all inputs", "anchors": ["src/parser.rs"]}
{"id": "C36", "title": "Semicolons are inserted only where the language allows", "statement": "Every statement that needs a terminator either consumed an explicit ';' or is marked Inserted, and it is marked Inserted only if the next token is '}', EOF or preceded by a line terminator (or the statement is do-while); break/continue/return/throw never take an argument from a following line and postfix ++/-- never applies across a line break.", "quantifier": "every accepted input", "why_tests_cant": "all placements of newlines", "anchors": ["src/track.rs: end_with_auto_semi", "src/state.rs: has_arg_same_line", "src/parser.rs: match_postfix_operator_opt"]}
{"id": "C37", "title": "The in operator is excluded from for heads", "statement": "The initializer of a classic for head, and the left side of for-in, contain no in operator outside brackets, parentheses, function bodies, array/object literals, arguments or the middle of a conditional.", "quantifier": "every accepted input", "why_tests_cant": "arbitrary expression nesting", "anchors": ["src/parser.rs: for_var, for_let, for_const, for_expr, match_infix", "src/context.rs: allow_in"]}
{"id": "C38", "title": "All locations are present and well formed", "statement": "Every node of a returned tree carries a location whose start does not exceed its end, both within the input.", "quantifier": "every accepted input", "why_tests_cant": "all nodes of all trees", "anchors": ["src/track.rs", "crates/joker/src/track.rs: span"]}
{"id": "C39", "title": "Successful parsing consumes the whole input", "statement": "If script(s) or strict(s) succeeds then every token of s up to EOF was consumed.", "quantifier": "every accepted input", "why_tests_cant": "claim over all inputs; the counterexample needs a stray closing brace or case/default", "anchors": ["src/parser.rs: script_body, statement_list", "src/tokens.rs: follow_statement_list"]}
{"id": "C40", "title": "A 'use strict' directive makes code strict", "statement": "If a script or function body starts with a 'use strict' directive, strict-mode violations in that body are rejected by script().", "quantifier": "every input", "why_tests_cant": "claim over all inputs with such a directive", "anchors": ["src/parser.rs: body_directives, function_body", "crates/easter/src/stmt.rs: Dir::pragma", "crates/joker/src/lexer.rs: read_string"]}
{"id": "C41", "title": "Parser context is restored", "statement": "After any construct has been parsed, the surrounding function/iteration/switch/allow-in state is what it was before the construct, and no label stays in force after its statement.", "quantifier": "every input and every parsing function", "why_tests_cant": "all nestings", "anchors": ["src/parser.rs: iteration_body, switch_statement, function_body", "src/context.rs: with_labels, allow_in"]}
{"id": "C42", "title": "Field extraction is exact", "statement": "Extracting a field from a JSON object succeeds exactly when the field is present with the requested type, returns that value, removes exactly that field, and otherwise reports the missing field or the type mismatch; reading a field without extraction leaves the object unchanged.", "quantifier": "every JSON object, every field name, every requested type", "why_tests_cant": "all objects and histories of extraction", "anchors": ["crates/unjson/src/unjson.rs", "crates/unjson/src/ty.rs"]}
{"id": "C43", "title": "ESTree conversion never panics and yields untracked trees", "statement": "Converting any JSON value to a script returns Ok or Err, never panics; a successful result carries no locations, i.e. untracking it changes nothing.", "quantifier": "every JSON value", "why_tests_cant": "all JSON values", "anchors": ["crates/estree/src/*.rs"]}
{"id": "C44", "title": "ESTree conversion inverts ESTree encoding", "statement": "An ESTree JSON object that encodes a script (fields in any order, further fields allowed) is converted to a script that equals the untracked original; so encoding a script and converting it back gives the script, and an object encodes at most one script up to equality.", "quantifier": "every script expressible in ESTree and every JSON object that encodes it", "why_tests_cant": "quantifies over all syntax trees and all of their encodings", "anchors": ["crates/estree/src/*.rs"]}
{"id": "C45", "title": "ESTree directive prologue is split exactly", "statement": "In a converted script or function body, the directives are the maximal prefix of the body consisting of string-literal expression statements, the items are the rest, and together they are the body in order.", "quantifier": "every list of statements", "why_tests_cant": "all list lengths and mixtures", "anchors": ["crates/estree/src/node.rs: extract_script, split_prefix", "crates/easter/src/stmt.rs: is_directive, into_directive"]}
{"id": "C46", "title": "Comments are skipped exactly", "statement": "Replacing the text between two tokens by any other well-formed sequence of white space and comments changes no token's value (as long as it does not fuse with the preceding token, as a comment directly behind '/' would, and does not turn a following '-->' into a comment); every comment is skipped wherever a token could start; '-->' is an operator when a token precedes it on its line.", "quantifier": "every source, every position between two tokens, every separator", "why_tests_cant": "all comment contents", "anchors": ["crates/joker/src/lexer.rs: read_next_token, skip_line_comment, skip_block_comment"]}
{"id": "C47", "title": "Nested new expressions group like the grammar says", "statement": "In a successful parse every 'new' takes as callee the longest member expression that follows it and as arguments the argument list directly after that member expression, so nested 'new's pair with argument lists from the inside out; e.g. new new a(x).b(y) is new ((new a(x)).b)(y).", "quantifier": "all sources and all new expressions in them", "why_tests_cant": "nesting depth and the mix of member accesses and argument lists are unbounded", "anchors": ["src/parser.rs: Parser::new_expression, Parser::member_base_expression"]}
{"id": "C48", "title": "for(let ...) heads read identifiers as identifiers", "statement": "In sloppy code a for head starting with the identifier 'let' used as an expression is parsed like any other identifier expression: what follows it is read as an operator, not as the start of an operand.", "quantifier": "all for heads starting with let in sloppy code", "why_tests_cant": "the lexical goal depends on the parser state at every token", "anchors": ["src/parser.rs: Parser::for_let, Parser::for_statement"]}
{"id": "C49", "title": "Identifiers, literals and directives quote the source", "statement": "Every identifier, property name, number, string, regular expression literal and directive of a returned tree has a location inside the source, and the source text at that location is exactly the text that the lexical grammar gives for it: the name of an unescaped identifier is that text, the source of a literal is that text.", "quantifier": "all sources, all entry points, all nodes of the returned tree", "why_tests_cant": "ranges over all sources and all nodes", "anchors": ["src/parser.rs: Parser::primary_expression, Parser::property_key, Parser::match_directive_opt", "crates/joker/src/lexer.rs: Lexer::read_word, read_string, read_number, read_regexp"]}
{"id": "C50", "title": "Everything the grammar derives is accepted", "statement": "Whenever the grammar derives a syntax tree from the tokens of a source, the corresponding entry point (script, strict, module, program) accepts the source and returns that tree, up to locations and the origin of semicolons. The grammar is the one that accepted programs are shown to follow (C34), without the known deviations: duplicate nested labels, rest elements in array assignment patterns (C20), and places where the lexer is asked for an operand although an operator is expected (C39, C48).", "quantifier": "all sources, all divisions into tokens, all derivations", "why_tests_cant": "ranges over all derivable programs of any size and nesting", "anchors": ["src/lib.rs: script, strict, module, program", "src/parser.rs: all functions"]}
{"id": "C51", "title": "The accepted language is unambiguous", "statement": "All the syntax trees that the grammar derives from the same source, in whatever way the source is divided into tokens, are equal up to locations and the origin of semicolons: a program has one meaning.", "quantifier": "all sources, all pairs of derivations", "why_tests_cant": "ranges over all pairs of derivations of all programs", "anchors": ["src/lib.rs: script, strict, module", "grammar.md"]}
{"id": "C52", "title": "An error blames something in the source", "statement": "Whenever script, strict, module or program rejects a source, the error carries a token or location of that source, of the kind the error is about: e.g. an IllegalBreak carries a break token, a FailedASI a token on the same line that is not ; } or the end of input, an OrphanTry the token after the block that is neither catch nor finally, a ContextualKeyword an identifier that is reserved in strict code (or await, in modules). Errors about strict code are never reported for scripts, errors about modules only for modules and programs. An accepted program never fails to be a script, and the errors it reports when taken for strict code or a module are of the same kind. Lexical errors are errors of reading the tokens of that source.", "quantifier": "all sources, all entry points, all errors", "why_tests_cant": "ranges over all rejected sources and all ways in which they are rejected", "anchors": ["src/lib.rs: script, strict, module, program", "src/parser.rs: Parser", "src/error.rs: Error", "src/parser.rs: Program::script, Program::strict, Program::module"]}
{"id": "C53", "title": "The grammar describes exactly what is accepted", "statement": "One grammar characterises each entry point in both directions: a tree whose labels are distinct is returned (up to locations and the origin of semicolons) by script, strict, module or program if and only if that grammar derives it from the tokens of the source. It derives at most one such tree, whichever way the / in the source are read.", "quantifier": "all sources, all trees, all readings of the source as tokens", "why_tests_cant": "an equivalence between an infinite language and the set of accepted sources", "anchors": ["src/lib.rs: script, strict, module, program", "src/parser.rs: Parser", "grammar.md"]}
{"id": "C54", "title": "Exactly the malformed sources are lexical errors, each with its own error", "statement": "Reading tokens reports a lexical error if and only if, after some well-formed tokens, the remaining text is malformed, and the error says how: an unterminated comment, string (naming the line terminator, or the end of input) or regular expression; a character that begins no token; an escape without enough hexadecimal digits, with a wrong digit, or of a code point that is not a character; a reserved word spelled with escapes; a number without digits after its prefix or exponent, or running into an identifier or digit. Reading panics exactly on unterminated regular expressions and \\u{ escapes (and, with overflow checks, on escapes of eight or more digits). A text is never both a token and malformed, always one of the two, and never malformed in two ways. The parser passes lexical errors on, and panics only for the same reason, or because of an import or export.", "quantifier": "all sources, all token sequences, all lexer errors and panics, all entry points", "why_tests_cant": "an exact characterisation of an infinite set of rejected inputs, in both directions", "anchors": ["crates/joker/src/lexer.rs: Lexer::read_next_token, read_number, read_string, read_regexp, read_word, skip_multiline_comment", "crates/joker/src/error.rs: Error"]}
{"id": "C55", "title": "The result depends on the source only through its tokens", "statement": "Two sources that read as the same tokens, with the same newline flags, under the reading modes the parser asks for have the same outcome under script, strict, module and program: the same tree up to positions, or the same error about the same tokens up to positions, or the same panic. In particular replacing every run of white space and comments between two tokens by another one changes nothing but positions, as long as the run is empty or not on both sides, and contains a line terminator or not on both sides; this holds for malformed sources too.", "quantifier": "all pairs of sources, all separators, all entry points, accepted and rejected sources", "why_tests_cant": "a relation between two runs on an infinite set of pairs of inputs", "anchors": ["src/lib.rs: script, strict, module, program", "src/parser.rs: Parser", "src/tokens.rs: Newline, HasLabelType", "crates/joker/src/lexer.rs: Lexer::skip_whitespace, read_token"]}
{"id": "C56", "title": "A location delimits the text of its construct", "statement": "The location of every node of a returned tree starts where the first token of the construct starts and ends where its last token ends: slicing the source at a location yields the text of the construct (without enclosing parentheses).", "quantifier": "every node of every tree returned by script, strict, module or program, for every source", "why_tests_cant": "every nesting of constructs, every layout and every amount of lookahead the parser may have buffered", "anchors": ["src/parser.rs: Parser::span, Parser::posn, Parser::expression, Parser::statement", "src/tokens.rs: HasPosn, HasSpan", "crates/joker/src/track.rs: span, SpanTracker"]}
{"id": "C57", "title": "Error messages and printed locations are unambiguous", "statement": "The text of an error the parser returns tells its kind: two errors have the same text exactly if they are of the same kind, whether reported by the parser or passed on from the lexer or from the conversion to assignment patterns. An error has a cause exactly if it was passed on; the cause is the original error and has the same description. The text of a lexer error shows its kind and the offending character, code unit or reserved word. The printed form line:column..line:column of a location identifies the location within its source.", "quantifier": "all error values, all pairs of them; all locations in all returned trees of a source", "why_tests_cant": "all pairs of errors with all payloads, all pairs of locations of all sources", "anchors": ["src/error.rs: Error", "crates/joker/src/error.rs: Error", "crates/easter/src/cover.rs: Error", "crates/joker/src/track.rs: Posn, Span"]}
{"id": "C58", "title": "Directive prologues are split exactly", "statement": "In every script, module, function, method, getter and setter of a returned tree the directives are, in order, the longest leading run of statements that consist of a single string literal token, and the items are the statements after them: the first item is never a bare string literal statement (it may be a string literal in parentheses, which is no directive).", "quantifier": "every body of every tree returned by script, strict, module or program", "why_tests_cant": "prologues of any length, every continuation of a string literal into a longer expression, every line break", "anchors": ["src/parser.rs: Parser::body, directive handling", "crates/easter/src/stmt.rs: Body, Dir"]}
{"id": "C59", "title": "AST helper methods preserve their arguments", "statement": "Building a declarator from a target and an optional initializer succeeds unless the target is a destructuring pattern without initializer, in which case the target is given back; the declarator has exactly the given parts and its location spans them. The methods that test for, copy out and move out a directive agree with each other, and a failed conversion gives the statement back unchanged.", "quantifier": "all patterns, initializers, identifiers and statements", "why_tests_cant": "all trees as arguments", "anchors": ["crates/easter/src/decl.rs: DtorExt", "crates/easter/src/id.rs: IdExt", "crates/easter/src/stmt.rs: Stmt::is_directive, to_directive, into_directive"]}
{"id": "C60", "title": "The ESTree conversion accepts exactly the readable objects", "statement": "A JSON object is converted to a script exactly if it reads as that script: every node has a known type, every field the type calls for is present and reads as the part of the tree in its place, operators, kinds and flags are as written, and an expression on the left of an assignment is one a pattern can be made of. Every object reads as at most one script. What is not looked at (further fields, the order of fields, fields the type does not call for) does not matter.", "quantifier": "all JSON objects, of any depth and width, and all scripts", "why_tests_cant": "arbitrary JSON, not only the output of ESTree producers; both that nothing else is accepted and that nothing is lost", "anchors": ["crates/estree/src/prog.rs: IntoScript", "crates/estree/src/expr.rs: IntoExpr", "crates/estree/src/stmt.rs: IntoStmt", "crates/estree/src/node.rs: ExtractNode"]}
{"id": "C61", "title": "ESTree conversion errors are true", "statement": "When a conversion of JSON to a script fails, the error is true of the JSON: a field reported missing is missing from some node, a value reported to be of the wrong type is somewhere in the JSON and is of the reported type and not of the type asked for, an unknown node type is the type of a node, an operator or kind reported illegal is written in a node of that sort, an uninitialized constant or unexpected initializer is there, and an expression reported as no valid assignment target is there and is none. An error is reported exactly if the object does not read as a script.", "quantifier": "all JSON objects on which the conversion fails", "why_tests_cant": "every malformed JSON at every depth and every path of the conversion to an error", "anchors": ["crates/estree/src/error.rs: Error", "crates/unjson/src/error.rs: Error", "crates/estree/src/expr.rs", "crates/estree/src/stmt.rs"]}
{"id": "C62", "title": "Positions and unknown fields do not affect the ESTree conversion", "statement": "Two JSON objects that agree, at every depth, on the fields ESTree gives a meaning to here are converted to the same script or are both rejected. Positions, raw texts and any other fields may differ, be missing or be present, and fields may be in any order. In particular removing all other fields does not change the result.", "quantifier": "all pairs of JSON objects that agree on the fields with a meaning", "why_tests_cant": "all sets of additional fields with all values at all depths", "anchors": ["crates/estree/src/prog.rs: IntoScript", "crates/estree/src/expr.rs: IntoExpr", "crates/estree/src/stmt.rs: IntoStmt", "crates/estree/src/node.rs: ExtractNode"]}
{"id": "C63", "title": "The ways of reading a JSON field agree", "statement": "For each type, reading a field and taking it out of the object succeed for the same objects with the same value, and the optional variants return none exactly for null and otherwise succeed exactly when the plain ones do, with the same value.", "quantifier": "all objects, field names and values, for every type of the interface", "why_tests_cant": "all values of all JSON types in all four functions of each type", "anchors": ["crates/unjson/src/unjson.rs: GetField, ExtractField"]}
{"id": "C64", "title": "Deserializing a script reports the conversion and its errors faithfully", "statement": "A JSON value is deserialized to a script exactly if it is an object that the conversion turns into that script, and otherwise an object yields the text of the error of the conversion. Two errors of the conversion have the same text exactly if they are of the same kind and name the same types, fields, lengths, strings and node types.", "quantifier": "all JSON values; all pairs of objects that are rejected", "why_tests_cant": "all pairs of errors with all their contents, including strings taken from the input", "anchors": ["crates/estree/src/lib.rs: ESTreeScript", "crates/estree/src/error.rs: Display for Error", "crates/unjson/src/error.rs: Display for Error", "crates/unjson/src/ty.rs: Display for Ty"]}
{"id": "C65", "title": "The derive macros generate what their traits promise", "statement": "derive(Untrack) succeeds for every legal type declaration and the generated untrack calls untrack exactly once on every field of every value, in every constructor, and changes nothing else. derive(TrackingRef) and derive(TrackingMut) succeed exactly if every constructor has a field location: Option<Span> or, in a tuple, a first field; the generated method refers to that field, or to what the same method of the first field refers to. For the types of the syntax tree, reading and setting locations and untracking, as used by all other properties, are what the generated code does.", "quantifier": "all struct and enum declarations with any constructors and fields; all values of the declared types; all nodes of the syntax tree", "why_tests_cant": "a macro is a program over all declarations; tests only compile the macros for the declarations at hand and cannot visit all values of recursive types", "anchors": ["crates/derive/src/lib.rs: expand_tracking_data, expand_tracking, expand_untrack_data, expand_untrack", "crates/easter/src: type declarations with derive attributes"]}
{"id": "C66", "title": "Errors are reported promptly and the text before them is hopeless", "statement": "When script, strict or module rejects a source, the error is about one of the last two tokens that the parser has read (for the errors that are about a token, an identifier or a reserved word), or about the malformed token that follows the tokens read. Every other source that has the same tokens up to there is rejected with the same error up to positions, whatever follows; in particular every source that begins with the same text, up to the end of the last token read, followed by white space. So no accepted source begins like this, and the parser did not read past the token it complains about by more than one. (program is different by design: it reports words reserved in modules only when it comes to an import or export.)", "quantifier": "all rejected sources; all continuations of the text before the error", "why_tests_cant": "the claim is about all continuations of a prefix of each rejected source", "anchors": ["src/lib.rs: script, strict, module", "src/parser.rs: all parsing methods", "src/tokens.rs: read, peek, expect, matches"]}
{"id": "C67", "title": "The Debug text of a syntax tree determines the tree", "statement": "Two syntax trees with the same {:?} text are equal (==) after untrack(), unless they contain a NaN; equal trees have the same {:?} text, unless they contain a negative zero. So for untracked trees comparing texts is comparing trees, as tests and snapshots do. The text shows, for every node but expressions, the name of the struct or variant and all its fields; expressions are shown without their locations, and omitted arguments of new like empty ones.", "quantifier": "all pairs of syntax trees of every type; all texts of characters, strings and numbers that are lawful in the stated sense", "why_tests_cant": "injectivity of a printing function is about all pairs of trees of unbounded size", "anchors": ["crates/easter/src/expr.rs: Debug for Expr, PartialEq for Expr", "crates/easter/src/punc.rs: Debug for Op, Semi, tags", "crates/easter/src/*.rs: derive(Debug)", "crates/joker/src/token.rs: Debug for RegExpLiteral, StringLiteral, NumberLiteral", "crates/joker/src/word.rs: Atom, Name", "crates/joker/src/track.rs: Debug for Posn, Span"]}
{"id": "C68", "title": "Programs can be joined", "statement": "If program() accepts two texts, then it accepts the first text followed, on the next line, by the second, and the statements are those of the first and then those of the second (up to locations and the origin of semicolons); unless the second text begins with ( [ + - ; or a string or regular expression literal, or the first one ends with the word let and the second begins with an identifier or {. The same for module(). Texts with a statement labelled twice with the same name are left out.", "quantifier": "all pairs of texts that program(), or module(), accepts", "why_tests_cant": "concatenating files is done with arbitrary texts: automatic semicolon insertion at the seam depends on all ways in which a program can end and the next one can begin", "anchors": ["src/lib.rs: program, module", "src/parser.rs: script_body, module, body_directives, statement_list, module_items, and all statements that end with a semicolon", "crates/joker/src/lexer.rs: Lexer::read_token, skip_whitespace, skip_newlines"]}
{"id": "C69", "title": "Programs can be wrapped in a function or a block", "statement": "If program() accepts a text, then it accepts the text put, on lines of its own, between (function (x, y, ...) { and })() with any parameter names; the directives and statements of the function are those of the program (up to locations and the origin of semicolons). A program without directives can be put between { and } likewise. Texts with a statement labelled twice with the same name are left out.", "quantifier": "all texts that program() accepts, all lists of parameter names, all ways to write the text before and after (white space and comments)", "why_tests_cant": "module loaders wrap arbitrary programs; the claim is about every way in which a program can begin, end and depend on what surrounds it", "anchors": ["src/lib.rs: program", "src/parser.rs: script_body, function_body, block, statement_list, body_directives, return_statement", "crates/joker/src/lexer.rs: Lexer::read_token"]}
{"id": "C70", "title": "Expressions can be put into brackets", "statement": "If program() reads a text as one expression without a semicolon, then the text between parentheses, on lines of its own, is read as the same expression. The text between x[ and ] is read as a member expression with this expression as its index, and between if ( and ) ; as a conditional with this expression as its condition. (Trees are compared up to locations and the origin of semicolons.) Texts with a statement labelled twice with the same name are left out.", "quantifier": "all texts that program() accepts as an expression, all ways to write the text before and after (white space and comments)", "why_tests_cant": "the claim is about every expression: that nothing in it depends on being at the end of the source or at the beginning of a statement", "anchors": ["src/lib.rs: program", "src/parser.rs: paren_expression, primary_expression, expression, member_base_expression, lhs_expression, if_statement", "crates/joker/src/lexer.rs: Lexer::read_token"]}
{"id": "C71", "title": "It does not matter whether a statement is the first", "statement": "program() accepts a text if and only if it accepts the text with an empty statement (a semicolon on the line before) in front of it, and then the statements are the empty one and those of the text (up to locations and the origin of semicolons).", "quantifier": "all texts in which no statement is labelled twice with the same name", "why_tests_cant": "the beginning of a program is treated specially (directives); the claim is about every text that can follow", "anchors": ["src/lib.rs: program", "src/parser.rs: match_directive_opt, body_directives, script_body, statement_list", "src/state.rs: peek, peek_op", "src/tokens.rs: expression_continuation"]}
{"id": "C72", "title": "Identifiers can be renamed and literals replaced", "statement": "If the identifiers of a text that is accepted are renamed throughout (injectively, and leaving reserved words and the words with a contextual meaning alone) and its numbers, strings and regular expressions are replaced by any others, then the text is accepted and the tree is the tree of the original with the same replacements (up to locations and the origin of semicolons). So no name but those, and no value of a literal, has a special meaning, wherever it occurs.", "quantifier": "every text in which no statement is labelled twice with the same name, every entry point, every renaming and replacement, and every text with the renamed tokens", "why_tests_cant": "ranges over all programs and all names; a name that is treated specially in some position would go unnoticed by tests that do not use it there", "anchors": ["src/lib.rs: script, strict, module, program", "src/parser.rs: id, property_key, property_key_opt, labelled_statement", "src/token.rs: Name, Word", "src/track.rs: Untrack"]}
{"id": "C73", "title": "A program is used as what it can be", "statement": "Program::script returns the script of every program unit that is not a module, Program::strict that of every such unit none of whose checks forbids strict code, Program::module every module and the script (location, directives, items) of every other unit none of whose checks forbids a module. Otherwise the error is that of the first check that forbids it; a module that is used as a script is blamed for its first use module directive, else for its first import or export, else as a whole.", "quantifier": "every value of Program: any list of checks, any script or module, also values not returned by program()", "why_tests_cant": "ranges over all lists of checks, directives and items; which of several causes is blamed depends on their order and kind; modules with imports are not produced by the parser at all", "anchors": ["src/parser.rs: Program::script, Program::strict, Program::module, unexpected_module", "src/error.rs: Check::perform", "crates/easter/src/stmt.rs: Dir::pragma, StmtListItem::into_mod_item"]}
{"id": "C74", "title": "Inserted semicolons can be written out", "statement": "If script, strict, module or program accepts a text, and n semicolons of its tree were inserted rather than read, then adding n characters ; to the text at suitable places gives a text that is accepted by the same function, and its tree is the same up to locations and the origin of semicolons. The same holds for every layout of the tokens with these n semicolons.", "quantifier": "every text, every accepted tree in which no statement is labelled twice with the same name", "why_tests_cant": "ranges over all programs, all nestings of statements, and all ways in which a statement can end before a line terminator, a brace or the end of the text", "anchors": ["src/lib.rs: script, strict, module, program", "src/track.rs: SpanTracker::end_with_auto_semi", "crates/easter/src/punc.rs: Semi"]}
{"id": "C75", "title": "Semicolons before a closing brace can be left out", "statement": "If script, strict, module or program accepts a text, then replacing by spaces any of the semicolons of the text, all or some, each of which ends a statement of the tree, is on the same line as the token before it, and is directly followed by the token }, gives a text that is accepted by the same function, and its tree is the same up to locations and the origin of semicolons.", "quantifier": "every text, every accepted tree in which no statement is labelled twice with the same name", "why_tests_cant": "ranges over all programs, all nestings of blocks, function bodies and switch cases, and all kinds of statements that end with a semicolon", "anchors": ["src/parser.rs: script, strict, module, program", "src/track.rs: SpanTracker::end_with_auto_semi", "crates/easter/src/punc.rs: Semi"]}
{"id": "C76", "title": "The Debug text of a token or an error determines it", "statement": "Two tokens that are read from sources have the same text with {:?} if and only if they are the same up to the offsets of positions and the spelling of literals; if they are read from the same source, they are at the same place. Two errors that are reported for sources have the same text with {:?} if and only if they are the same up to offsets and the spelling of literals. Different errors of the lexer, and different sources of number literals, have different texts.", "quantifier": "all tokens, all errors, all sources they come from, and all ways in which the standard library prints characters, strings and numbers, provided that these texts identify their values", "why_tests_cant": "ranges over all pairs of tokens and errors with all strings, names and numbers in them; tests compare a few texts", "anchors": ["crates/joker/src/token.rs: Token, TokenData, NumberSource", "crates/joker/src/error.rs: Error", "crates/easter/src/cover.rs: Error", "src/error.rs: Error, Check"]}
{"id": "C77", "title": "A semicolon at the end of the source can be left out", "statement": "If a text is accepted and its last token is a semicolon that ends a statement and is on the line of the token before it, then the text with a space in place of this semicolon is accepted with the same tree, up to locations and the origin of semicolons.", "quantifier": "all texts, for script, strict, module and program", "why_tests_cant": "ranges over all programs and all statements that can be last, including those nested in loops, conditionals and labels", "anchors": ["src/state.rs: has_arg_same_line", "src/track.rs: end_with_auto_semi", "src/parser.rs: break_statement, continue_statement", "src/lib.rs: script, strict, module, program"]}
{"id": "C78", "title": "Line breaks can be added", "statement": "If a text is accepted, then it is also accepted, with the same tree up to locations, if line feeds are added before any of its tokens except the first one and the end of the source, except before ++ and --, and except between break, continue, return or throw and a token other than ; and }.", "quantifier": "all texts, all sets of tokens before which a line feed is added, for script, strict, module and program", "why_tests_cant": "ranges over all programs and all subsets of their tokens; a single place where the parser looks at line breaks by mistake would break it", "anchors": ["src/state.rs: has_arg_same_line", "src/track.rs: end_with_auto_semi", "src/parser.rs: match_postfix_operator_opt", "crates/joker/src/lexer.rs: skip_newlines, read_next_token", "src/lib.rs: script, strict, module, program"]}
{"id": "C79", "title": "With all semicolons written, line breaks do not matter", "statement": "If a text is accepted and no semicolon is inserted in its tree, then every text with the same tokens, perhaps on other lines, is accepted with the same tree up to locations, provided that there are the same line breaks before ++ and -- and between break, continue, return or throw and a token other than ; and }.", "quantifier": "all pairs of texts with the same tokens, for script, strict, module and program", "why_tests_cant": "ranges over all programs and all ways to lay out their tokens on lines", "anchors": ["src/state.rs: has_arg_same_line", "src/track.rs: end_with_auto_semi", "src/parser.rs: match_postfix_operator_opt", "src/lib.rs: script, strict, module, program"]}
{"id": "C80", "title": "Brackets are balanced", "statement": "In a text accepted by module or program, every opening parenthesis, bracket and brace token has its closing token of the same kind, and they are properly nested. For script and strict this holds for the tokens up to the first one that cannot begin a statement.", "quantifier": "all accepted texts, for script, strict, module and program", "why_tests_cant": "ranges over all programs and all nestings of constructs with brackets", "anchors": ["src/parser.rs: paren_expression, array_literal, object_literal, block, switch_statement, arguments, formal_parameters", "src/lib.rs: script, strict, module, program"]}
{"id": "C81", "title": "Every semicolon is accounted for", "statement": "If a text is accepted, then the number of semicolon tokens in it (for script and strict, before the first token that cannot begin a statement) is the number of statements and directives of the tree whose semicolon was read rather than inserted, plus the number of empty statements, plus two for each for loop with three parts. No semicolon is dropped and none is recorded twice.", "quantifier": "all accepted texts, for script, strict, module and program", "why_tests_cant": "ranges over all programs, all nestings of statements, and all ways in which a statement can end", "anchors": ["src/track.rs: end_with_auto_semi", "src/parser.rs: empty_statement, for_statement, more_for", "crates/easter/src/punc.rs: Semi", "src/lib.rs: script, strict, module, program"]}
