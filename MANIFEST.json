{
 "claims": [
  {
   "property": "C01",
   "status": "proved",
   "theorems": [
    "Esprit.C01_lookahead_transparent",
    "Esprit.C01_peek_foretells_read"
   ],
   "note": ""
  },
  {
   "property": "C02",
   "status": "proved",
   "theorems": [
    "Esprit.C02_positions_exact",
    "Esprit.C02_position_unique"
   ],
   "note": ""
  },
  {
   "property": "C03",
   "status": "proved",
   "theorems": [
    "Esprit.C03_termination_and_progress"
   ],
   "note": "readTokens never exhausts the per-character iteration budget of the model's loops; every non-EOF token spans at least one character."
  },
  {
   "property": "C04",
   "status": "proved",
   "theorems": [
    "Esprit.C04_tokens_exact",
    "Esprit.C04_tokens_tile"
   ],
   "note": "Sound and complete with respect to the lexical grammar of Spec/Lex.lean."
  },
  {
   "property": "C05",
   "status": "proved",
   "theorems": [
    "Esprit.C05_newline_exact"
   ],
   "note": ""
  },
  {
   "property": "C06",
   "status": "proved",
   "theorems": [
    "Esprit.C06_eof_only_at_end",
    "Esprit.C06_eof_at_end",
    "Esprit.C06_eof_sticky"
   ],
   "note": ""
  },
  {
   "property": "C07",
   "status": "proved",
   "theorems": [
    "Esprit.C07_values_faithful"
   ],
   "note": ""
  },
  {
   "property": "C08",
   "status": "proved",
   "theorems": [
    "Esprit.C08_string_values",
    "Esprit.C08_string_complete"
   ],
   "note": "Invalid code points denote '?'; braced escapes are subject to C09."
  },
  {
   "property": "C09",
   "status": "partial",
   "theorems": [
    "Esprit.C09_braced_escape_partial",
    "Esprit.C09_string_partial",
    "Esprit.C09_fails",
    "Esprit.C09_fails_debug"
   ],
   "note": "The full claim is false of the code: add_digits computes modulo 2^32 (release) or panics (debug). Proved for escapes below 2^32; counterexamples proved."
  },
  {
   "property": "C10",
   "status": "proved",
   "theorems": [
    "Esprit.C10_words_classified",
    "Esprit.C10_escaped_reserved_word",
    "Esprit.C10_tables"
   ],
   "note": ""
  },
  {
   "property": "C11",
   "status": "proved",
   "theorems": [
    "Esprit.C11_string_roundtrip",
    "Esprit.C11_atom_roundtrip",
    "Esprit.C11_from_exact",
    "Esprit.C11_texts_distinct"
   ],
   "note": ""
  },
  {
   "property": "C12",
   "status": "proved",
   "theorems": [
    "Esprit.C12_longest_punctuator"
   ],
   "note": ""
  },
  {
   "property": "C13",
   "status": "proved",
   "theorems": [
    "Esprit.C13_mode_only_slash",
    "Esprit.C13_slash"
   ],
   "note": ""
  },
  {
   "property": "C14",
   "status": "partial",
   "theorems": [
    "Esprit.C14_decimal_nearest",
    "Esprit.C14_nearest_unique",
    "Esprit.C14_adjacent_partial",
    "Esprit.C14_exact",
    "Esprit.C14_no_panic",
    "Esprit.C14_fails"
   ],
   "note": "Proved: no panic for any literal; decimal literals are correctly rounded (nearest, ties to even, overflow to infinity), the nearest double is unique; hexadecimal, octal and binary literals denote one of the two adjacent doubles, and every literal that denotes a double is exact. Missing because false: correct rounding of radix literals that are not doubles; C14_fails exhibits 0x200000000000011."
  },
  {
   "property": "C15",
   "status": "proved",
   "theorems": [
    "Esprit.C15_cursor",
    "Esprit.C15_lookahead",
    "Esprit.C15_laws"
   ],
   "note": "every successful sequence of peek/read/reread/repeek/unread returns the tokens of a cursor on one token sequence; at most two tokens are held; that the parser never overfills the buffer is part of C24"
  },
  {
   "property": "C16",
   "status": "partial",
   "theorems": [
    "Esprit.C16_lexer_panics_partial",
    "Esprit.C16_no_panic_partial",
    "Esprit.C16_fails_regexp",
    "Esprit.C16_fails_escape",
    "Esprit.C09_fails_debug",
    "Esprit.C54_panics_exact"
   ],
   "note": "The full claim is false of the code; counterexamples proved, and every panic is one of the listed kinds.; C54_panics_exact says exactly when it panics"
  },
  {
   "property": "C17",
   "status": "proved",
   "theorems": [
    "Esprit.C17_parsed",
    "Esprit.C17_grouping"
   ],
   "note": "C17_parsed: every binary operation of every returned tree, in terms of the tokens; C17_grouping: uniqueness of the grouping"
  },
  {
   "property": "C18",
   "status": "proved",
   "theorems": [
    "Esprit.C18_binop_roundtrip",
    "Esprit.C18_logop_roundtrip",
    "Esprit.C18_assop_roundtrip",
    "Esprit.C18_texts_distinct",
    "Esprit.C18_unop_exact",
    "Esprit.C18_token_binop",
    "Esprit.C18_token_logop",
    "Esprit.C18_token_assop",
    "Esprit.C18_token_unop",
    "Esprit.C18_token_complete"
   ],
   "note": ""
  },
  {
   "property": "C19",
   "status": "proved",
   "theorems": [
    "Esprit.C19_target",
    "Esprit.C19_pattern_exact",
    "Esprit.C19_pattern_roundtrip",
    "Esprit.C19_pattern_injective"
   ],
   "note": ""
  },
  {
   "property": "C20",
   "status": "partial",
   "theorems": [
    "Esprit.C20_rest_partial",
    "Esprit.C20_rejects",
    "Esprit.C20_fails"
   ],
   "note": "The property fails: cover.rs accepts a rest element only without a location, and parsed spread elements have one. C20_rejects and C20_fails prove the failure."
  },
  {
   "property": "C21",
   "status": "proved",
   "theorems": [
    "Esprit.C21_no_locations",
    "Esprit.C21_semis",
    "Esprit.C21_idempotent",
    "Esprit.C21_nothing_else",
    "Esprit.C21_identical_iff"
   ],
   "note": ""
  },
  {
   "property": "C22",
   "status": "proved",
   "theorems": [
    "Esprit.C22_exact",
    "Esprit.C22_symm",
    "Esprit.C22_trans",
    "Esprit.C22_refl"
   ],
   "note": ""
  },
  {
   "property": "C23",
   "status": "proved",
   "theorems": [
    "Esprit.C23_terminates"
   ],
   "note": "recursion depth at most 2n+4, every loop bounded by the unread input; for all four entry points"
  },
  {
   "property": "C24",
   "status": "proved",
   "theorems": [
    "Esprit.C24_script",
    "Esprit.C24_module",
    "Esprit.C24_script_panics",
    "Esprit.C24_module_panics"
   ],
   "note": "only the lexer's panics (C16) and unimplemented!() at import/export remain"
  },
  {
   "property": "C25",
   "status": "proved",
   "theorems": [
    "Esprit.C25_break",
    "Esprit.C25_continue",
    "Esprit.C25_break_label",
    "Esprit.C25_continue_label",
    "Esprit.C25_return"
   ],
   "note": "For every node at any depth of every tree returned by any of the four entry points; places are computed independently in Spec/Tree.lean."
  },
  {
   "property": "C26",
   "status": "proved",
   "theorems": [
    "Esprit.C26_switch",
    "Esprit.C26_try",
    "Esprit.C26_sequence",
    "Esprit.C26_declarations",
    "Esprit.C26_constants",
    "Esprit.C26_items"
   ],
   "note": "For every node of every returned tree."
  },
  {
   "property": "C27",
   "status": "proved",
   "theorems": [
    "Esprit.C27_with",
    "Esprit.C27_reserved",
    "Esprit.C27_binding"
   ],
   "note": "Identifiers are the names of the tree; a name spelled with escapes is a different name in this library, see C29."
  },
  {
   "property": "C28",
   "status": "proved",
   "theorems": [
    "Esprit.C28_await",
    "Esprit.C27_with",
    "Esprit.C27_reserved",
    "Esprit.C27_binding"
   ],
   "note": "Module code is strict (Returned s true true)."
  },
  {
   "property": "C29",
   "status": "partial",
   "theorems": [
    "Esprit.C29_unescaped_partial",
    "Esprit.C29_fails"
   ],
   "note": "false for escaped words (witness C29_fails); proved: no identifier node in strict code is written without escapes as a strict reserved word"
  },
  {
   "property": "C30",
   "status": "proved",
   "theorems": [
    "Esprit.C30_script",
    "Esprit.C30_program",
    "Esprit.C30_error"
   ],
   "note": "program(s) Ok implies Program::script = script(s); script(s) Ok implies program(s) gives the same tree unless script stopped before the end at }, case or default (C39_fails), which program rejects; errors agree (except at import/export, where program never succeeds)."
  },
  {
   "property": "C31",
   "status": "proved",
   "theorems": [
    "Esprit.C31_strict",
    "Esprit.C31_program"
   ],
   "note": "Program::strict equals strict(s), tree or first error; converse too."
  },
  {
   "property": "C32",
   "status": "proved",
   "theorems": [
    "Esprit.C32_module",
    "Esprit.C32_program"
   ],
   "note": "Program::module equals module(s), tree or first error; converse too."
  },
  {
   "property": "C33",
   "status": "proved",
   "theorems": [
    "Esprit.C33_strict_sloppy",
    "Esprit.C33_module_strict"
   ],
   "note": "Also: what module accepts, strict and script accept with the same items."
  },
  {
   "property": "C34",
   "status": "proved",
   "theorems": [
    "Esprit.C34_script",
    "Esprit.C34_strict",
    "Esprit.C34_module",
    "Esprit.C34_program"
   ],
   "note": "soundness w.r.t. the grammar of Spec/Grammar.lean, over the token sequence of Spec/Tokens.lean"
  },
  {
   "property": "C35",
   "status": "proved",
   "theorems": [
    "Esprit.C35_leaves"
   ],
   "note": "Leaves include this/null/true/false; let/get/set/of/target may be silent."
  },
  {
   "property": "C36",
   "status": "proved",
   "theorems": [
    "Esprit.C36_statements",
    "Esprit.C36_directives",
    "Esprit.C36_restricted",
    "Esprit.C36_postfix"
   ],
   "note": "Stated on the sections of the token sequence from which the nodes are derived."
  },
  {
   "property": "C37",
   "status": "proved",
   "theorems": [
    "Esprit.C37_for",
    "Esprit.C37_forIn",
    "Esprit.C37_forOf"
   ],
   "note": "Stated on the tokens of the head, with an independent definition of guarded token sequences in Spec/Brackets.lean."
  },
  {
   "property": "C38",
   "status": "proved",
   "theorems": [
    "Esprit.C38_locations"
   ],
   "note": ""
  },
  {
   "property": "C39",
   "status": "partial",
   "theorems": [
    "Esprit.C39_script_partial",
    "Esprit.C39_program",
    "Esprit.C39_module",
    "Esprit.C39_fails"
   ],
   "note": "script() and strict() stop at a stray }, case or default and ignore the rest (C39_fails); program() and module() consume everything."
  },
  {
   "property": "C40",
   "status": "partial",
   "theorems": [
    "Esprit.C40_never",
    "Esprit.C40_fails"
   ],
   "note": "false of the code: the pragma text keeps its quotes, so a use strict directive never makes code strict (C40_never for all directives, C40_fails witness)"
  },
  {
   "property": "C41",
   "status": "proved",
   "theorems": [
    "Esprit.C41_item",
    "Esprit.C41_assign",
    "Esprit.C41_body"
   ],
   "note": "from every reachable lexer state in which no regular expression is buffered behind another token (bodies: at most one buffered token), and any context"
  },
  {
   "property": "C42",
   "status": "proved",
   "theorems": [
    "Esprit.C42_extract_field",
    "Esprit.C42_extract_string",
    "Esprit.C42_extract_string_opt",
    "Esprit.C42_extract_array",
    "Esprit.C42_extract_array_opt",
    "Esprit.C42_extract_object",
    "Esprit.C42_extract_object_opt",
    "Esprit.C42_extract_bool",
    "Esprit.C42_extract_bool_opt",
    "Esprit.C42_extract_i64",
    "Esprit.C42_extract_i64_opt",
    "Esprit.C42_extract_u64",
    "Esprit.C42_extract_u64_opt",
    "Esprit.C42_extract_f64",
    "Esprit.C42_extract_f64_opt",
    "Esprit.C42_extract_number",
    "Esprit.C42_extract_number_opt",
    "Esprit.C42_get_field",
    "Esprit.C42_get_string",
    "Esprit.C42_get_string_opt",
    "Esprit.C42_get_array",
    "Esprit.C42_get_array_opt",
    "Esprit.C42_get_object",
    "Esprit.C42_get_object_opt",
    "Esprit.C42_get_bool",
    "Esprit.C42_get_bool_opt",
    "Esprit.C42_get_f64",
    "Esprit.C42_get_u64",
    "Esprit.C42_get_i64",
    "Esprit.C42_get_i64_opt",
    "Esprit.C42_get_u64_opt",
    "Esprit.C42_get_f64_opt",
    "Esprit.C42_get_number",
    "Esprit.C42_get_number_opt",
    "Esprit.C42_history"
   ],
   "note": "for every function of the interface; get_i64, get_u64 and get_f64 rest on serde_json 0.8's numeric conversions as documented An error names the type asked for and the actual type; the optional functions of extraction for bool, i64, u64, f64 and number leave out the words \"or null\" in this name."
  },
  {
   "property": "C43",
   "status": "proved",
   "theorems": [
    "Esprit.C43_no_panic",
    "Esprit.C43_untracked"
   ],
   "note": "Conversion starts from a JSON object, as into_script does."
  },
  {
   "property": "C44",
   "status": "partial",
   "theorems": [
    "Esprit.C44_partial",
    "Esprit.C44_unique_partial",
    "Esprit.C44_fails_destructuring",
    "Esprit.C44_fails_string"
   ],
   "note": "Every object that encodes (relation Encodes in Spec/Estree.lean: any field order, extra fields allowed) a script without destructuring patterns, and without a string-literal statement right after the directives, is converted to a script equal to the untracked original. The two restrictions are necessary (C44_fails_*): the converter does not know ArrayPattern/ObjectPattern, and turns a parenthesized leading string into a directive."
  },
  {
   "property": "C45",
   "status": "proved",
   "theorems": [
    "Esprit.C45_prologue",
    "Esprit.C45_script",
    "Esprit.C45_function"
   ],
   "note": "C45_prologue is about every conversion of a body; scripts and functions are stated separately as well."
  },
  {
   "property": "C46",
   "status": "proved",
   "theorems": [
    "Esprit.C46_separators",
    "Esprit.C46_comments_skipped",
    "Esprit.C46_html_close",
    "Esprit.C46_block_comment_newline"
   ],
   "note": "C46_separators replaces the text between two tokens by any nonempty separator and shows that all token values (and the newline flags of all other tokens) stay the same; the two restrictions (no comment directly behind '/', no '<!--' directly behind '<'; '-->' at the beginning of a line) are necessary in the language. C46_html_close: '-->' after a token on the same line is the operator '--'. C46_block_comment_newline records that a line terminator inside a block comment does not count for '-->'."
  },
  {
   "property": "C47",
   "status": "partial",
   "theorems": [
    "Esprit.C47_pairs_partial",
    "Esprit.C47_fails"
   ],
   "note": "false for accessors after the arguments of an inner new (witness C47_fails); proved: the callee of every new is a call-free member expression or another new, and nested news pair with argument lists from the inside out"
  },
  {
   "property": "C48",
   "status": "partial",
   "theorems": [
    "Esprit.C48_for_partial",
    "Esprit.C48_forIn_partial",
    "Esprit.C48_forOf_partial",
    "Esprit.C48_fails"
   ],
   "note": "false of the code for '/' after let (witness C48_fails): the source is rejected; proved: in every accepted source the token after such a let is the one operator mode reads; that every other such head is accepted follows from C53_accepts"
  },
  {
   "property": "C49",
   "status": "proved",
   "theorems": [
    "Esprit.C49_quotes",
    "Esprit.C49_directives"
   ],
   "note": "every cited leaf of a returned tree lies within the source and its text quotes the source"
  },
  {
   "property": "C50",
   "status": "proved",
   "theorems": [
    "Esprit.C50_script",
    "Esprit.C50_strict",
    "Esprit.C50_module",
    "Esprit.C50_program"
   ],
   "note": "Grammar of Spec/Grammar.lean with Scope.plain = true. Together with C34 (accepted implies derived, without the restriction) this pins the accepted language from both sides."
  },
  {
   "property": "C51",
   "status": "proved",
   "theorems": [
    "Esprit.C51_script",
    "Esprit.C51_module"
   ],
   "note": "Follows from C50, since the parser is a function of the source."
  },
  {
   "property": "C52",
   "status": "proved",
   "theorems": [
    "Esprit.C52_script",
    "Esprit.C52_strict",
    "Esprit.C52_module",
    "Esprit.C52_program",
    "Esprit.C52_program_script",
    "Esprit.C52_program_strict",
    "Esprit.C52_program_module"
   ],
   "note": "Spec/Blame.lean says for each error what it must say about the source; errors for which the claim is False are never reported. Lexical errors are only shown to be errors of a token reading of the source."
  },
  {
   "property": "C53",
   "status": "proved",
   "theorems": [
    "Esprit.C53_accepts_script",
    "Esprit.C53_accepts_strict",
    "Esprit.C53_accepts_module",
    "Esprit.C53_accepts_program",
    "Esprit.C53_exact_script",
    "Esprit.C53_exact_strict",
    "Esprit.C53_exact_module",
    "Esprit.C53_exact_program",
    "Esprit.C53_unique_script",
    "Esprit.C53_unique_module"
   ],
   "note": "The grammar of C34 (soundness) without the restriction to plain programs of C50: derivations with distinct labels are turned into plain ones. Repeated labels are excluded because the code, after a nested statement with the same label, forgets the outer label (example beside the theorems)."
  },
  {
   "property": "C54",
   "status": "proved",
   "theorems": [
    "Esprit.C54_errors_exact",
    "Esprit.C54_panics_exact",
    "Esprit.C54_total",
    "Esprit.C54_exclusive",
    "Esprit.C54_unambiguous",
    "Esprit.C54_parse"
   ],
   "note": "Spec/LexFault.lean lists the malformed texts; C54_errors_exact and C54_panics_exact hold in both directions"
  },
  {
   "property": "C55",
   "status": "proved",
   "theorems": [
    "Esprit.C55_script",
    "Esprit.C55_strict",
    "Esprit.C55_module",
    "Esprit.C55_program",
    "Esprit.C55_script_separators",
    "Esprit.C55_strict_separators",
    "Esprit.C55_module_separators",
    "Esprit.C55_program_separators"
   ],
   "note": "Relational theorem about two runs. The finite list of reading modes is the one the parser actually asks for on the first source; SameTokens must hold on it (and its prefixes). The _separators forms discharge SameTokens for any change of separators that keeps emptiness and the presence of a line terminator."
  },
  {
   "property": "C56",
   "status": "partial",
   "theorems": [
    "Esprit.C56_fails",
    "Esprit.C56_expression_partial",
    "Esprit.C56_statement_partial"
   ],
   "note": "The code violates it (C56_fails: conditional, ++/--, statements, if). Proved: exact start and end of expressions except at an edge with a function, ++/-- or a conditional test; statements, declarations, blocks and clauses start in the trivia before their first token or exactly at the end of their first or second token, and end in the trivia after their last token or exactly at the end of one of the two tokens that follow."
  },
  {
   "property": "C57",
   "status": "proved",
   "theorems": [
    "Esprit.C57_error_text",
    "Esprit.C57_error_cause",
    "Esprit.C57_lexer_text",
    "Esprit.C57_location_text"
   ],
   "note": "Rust's {:?} of a character is an arbitrary injective function; overflow of line + 1 is not modelled"
  },
  {
   "property": "C58",
   "status": "proved",
   "theorems": [
    "Esprit.C58_prologue",
    "Esprit.C58_module"
   ],
   "note": ""
  },
  {
   "property": "C59",
   "status": "partial",
   "theorems": [
    "Esprit.C59_declarator",
    "Esprit.C59_initialized",
    "Esprit.C59_constant",
    "Esprit.C59_agree_partial",
    "Esprit.C59_span_fails",
    "Esprit.C59_identifier",
    "Esprit.C59_directive",
    "Esprit.C59_directive_stmt"
   ],
   "note": "false of the code for the location of a simple declarator built by from_init_opt (witness C59_span_fails); everything else is proved"
  },
  {
   "property": "C60",
   "status": "proved",
   "theorems": [
    "Esprit.C60_conversion",
    "Esprit.C60_unique",
    "Esprit.C60_computed_fails",
    "Esprit.C60_setter_fails"
   ],
   "note": "both directions, for the independent relation Reads of Spec/EstreeReads.lean. Reads leaves out what is not looked at; two consequences are shown by witnesses: a computed key of a property is taken for a name (C60_computed_fails), and the rest parameter of a setter is dropped (C60_setter_fails)."
  },
  {
   "property": "C61",
   "status": "proved",
   "theorems": [
    "Esprit.C61_blame",
    "Esprit.C61_iff"
   ],
   "note": "truth of an error is EError.Blames of Spec/EstreeReads.lean"
  },
  {
   "property": "C62",
   "status": "proved",
   "theorems": [
    "Esprit.C62_same",
    "Esprit.C62_rejected",
    "Esprit.C62_strip"
   ],
   "note": "agreement is Alike of Spec/EstreeSame.lean"
  },
  {
   "property": "C63",
   "status": "partial",
   "theorems": [
    "Esprit.C63_partial",
    "Esprit.C63_fails"
   ],
   "note": "false of the code for i64, u64 and f64 (witness C63_fails): get_i64 accepts integers in either representation, get_f64 accepts integers, the other functions do not; proved for all other types"
  },
  {
   "property": "C64",
   "status": "proved",
   "theorems": [
    "Esprit.C64_text",
    "Esprit.C64_deserialize"
   ],
   "note": "sameness of errors is EError.Agrees of Spec/EstreeText.lean; the text of a string ({:?}) is a parameter with an injective, quoted text"
  },
  {
   "property": "C65",
   "status": "proved",
   "theorems": [
    "Esprit.Derive.C65_untrack",
    "Esprit.Derive.C65_trackable",
    "Esprit.Derive.C65_tracking_impl",
    "Esprit.Derive.C65_tracking",
    "Esprit.Derive.C65_declarations",
    "Esprit.Derive.C65_ast",
    "Esprit.Derive.C65_ast_untrack",
    "Esprit.Derive.C65_ast_location"
   ],
   "note": "declarations are legal as Rust requires (distinct constructors and field names); semantics of the generated match is Pat.bind, select, Impl.refer and Impl.run of Model/Derive.lean"
  },
  {
   "property": "C66",
   "status": "proved",
   "theorems": [
    "Esprit.C66_script",
    "Esprit.C66_strict",
    "Esprit.C66_module",
    "Esprit.C66_script_prefix",
    "Esprit.C66_strict_prefix",
    "Esprit.C66_module_prefix",
    "Esprit.C66_program_fails"
   ],
   "note": "The modes in which the tokens are read are part of the existential, as for C55. The errors about a whole phrase (top-level return, left-hand side of an assignment, unsupported destructuring) are covered by the claim about continuations but not located at the last tokens. C66_program_fails shows why program is not included."
  },
  {
   "property": "C67",
   "status": "proved",
   "theorems": [
    "Esprit.C67_text_determines",
    "Esprit.C67_equal_same_text",
    "Esprit.C67_untracked",
    "Esprit.C67_derived",
    "Esprit.C67_expr",
    "Esprit.C67_std"
   ],
   "note": "The texts that Rust's standard library gives to char, str and f64 are parameters with laws (LawfulDebugStd); C67_std proves the laws for its escapes of characters and strings, and fractionStd is an instance. The laws for f64 (the text identifies the value; equal non-zero values have equal texts) are assumed. Only the compact form {:?} is modelled, not {:#?}."
  },
  {
   "property": "C68",
   "status": "proved",
   "theorems": [
    "Esprit.C68_program",
    "Esprit.C68_module"
   ],
   "note": "Beside the exceptions in the statement: the first text does not end with a carriage return (it would form one line terminator with the line feed). The examples show that each exception is needed. The deferred checks of program() (C16, C38) are not compared."
  },
  {
   "property": "C69",
   "status": "proved",
   "theorems": [
    "Esprit.C69_function",
    "Esprit.C69_block"
   ],
   "note": "Beside the exceptions in the statement: the program and the text before it do not end with a carriage return (it would form one line terminator with the line feed). The deferred checks of program() (C16, C38) are not compared."
  },
  {
   "property": "C70",
   "status": "proved",
   "theorems": [
    "Esprit.C70_paren",
    "Esprit.C70_index",
    "Esprit.C70_condition"
   ],
   "note": "Beside the exceptions in the statement: the expression and the text before it do not end with a carriage return (it would form one line terminator with the line feed). x is not the word let."
  },
  {
   "property": "C71",
   "status": "partial",
   "theorems": [
    "Esprit.C71_leading_partial",
    "Esprit.C71_statements_partial",
    "Esprit.C71_never",
    "Esprit.C71_misread",
    "Esprit.C71_fails",
    "Esprit.C71_misread_fails"
   ],
   "note": "The code violates the claim: a string literal at the beginning of a program, module or function cannot be divided ('a' / 2), because match_directive_opt peeks in the lexer mode in which / begins a regular expression; and if the division is on the next line, as in 'a' newline /b/g, the text is misread as a directive and a regular expression. Proved: for all texts that do not begin with a string literal (C71_leading_partial), and for all texts in which none of the leading string literals is followed by / or /= (C71_statements_partial: directives count as statements); that no text that begins with the division of a string literal on the same line is accepted by any entry point (C71_never); and that with the division on a later line the literal is always taken for a directive (C71_misread). Missing: the texts for which it is false."
  },
  {
   "property": "C72",
   "status": "proved",
   "theorems": [
    "Esprit.C72_script",
    "Esprit.C72_strict",
    "Esprit.C72_module",
    "Esprit.C72_program"
   ],
   "note": "The derivation from the tokens of the text is transported, rule by rule, to the renamed tokens; acceptance follows from completeness (C50). The renamed text is any text whose tokens, with the slashes read as in the original, are the renamed ones."
  },
  {
   "property": "C73",
   "status": "proved",
   "theorems": [
    "Esprit.C73_script",
    "Esprit.C73_strict",
    "Esprit.C73_module",
    "Esprit.C73_blame_unique",
    "Esprit.C73_never",
    "Esprit.C73_use_module_fails"
   ],
   "note": "Which error is due is stated by splitting the lists (Spec/Unit). Finding: program() returns no module unit for any text, not even one with a 'use module' directive, because the comparison includes the quotes (C73_never, C73_use_module_fails)."
  },
  {
   "property": "C74",
   "status": "proved",
   "theorems": [
    "Esprit.C74_script",
    "Esprit.C74_strict",
    "Esprit.C74_module",
    "Esprit.C74_program",
    "Esprit.C74_layout"
   ],
   "note": "The number of inserted semicolons is Ast.missing, the added characters are SemisWritten (Spec/Semis). Proved by moving derivations to the tokens with the semicolons, spelling these tokens, and C50."
  },
  {
   "property": "C75",
   "status": "proved",
   "theorems": [
    "Esprit.C75_script",
    "Esprit.C75_strict",
    "Esprit.C75_module",
    "Esprit.C75_program"
   ],
   "note": "For any set of offsets of semicolons that end a statement (Ast.endsAt) before } on the line of the token before them (beforeBrace): the text with spaces at exactly these offsets (blankAt) is accepted (Spec/Closing). Proved by moving derivations to the tokens without the semicolons, spelling these tokens, and C50."
  },
  {
   "property": "C76",
   "status": "proved",
   "theorems": [
    "Esprit.C76_token",
    "Esprit.C76_token_place",
    "Esprit.C76_error",
    "Esprit.C76_lex_error",
    "Esprit.C76_number_source",
    "Esprit.C76_token_text",
    "Esprit.C76_error_text",
    "Esprit.C76_check_text"
   ],
   "note": "Sameness is Token.Agree, PError.Agree (Spec/DebugToken). Errors with trees in them (imports, exports, patterns) are never reported; for them C76_error_text gives equality of the trees without locations."
  },
  {
   "property": "C77",
   "status": "partial",
   "theorems": [
    "Esprit.C77_script_partial",
    "Esprit.C77_strict_partial",
    "Esprit.C77_module_partial",
    "Esprit.C77_program_partial",
    "Esprit.C77_fails"
   ],
   "note": "Partial because the code violates it: has_arg_same_line does not stop at the end of the source, so `while(1)break` without a semicolon is rejected (C77_fails). Proved for all statements except break, continue and return without argument, if no statement is labelled twice with the same name."
  },
  {
   "property": "C78",
   "status": "proved",
   "theorems": [
    "Esprit.C78_script",
    "Esprit.C78_strict",
    "Esprit.C78_module",
    "Esprit.C78_program"
   ],
   "note": "MayBreak and breakLines (Spec/Breaks) say where and how line feeds are added. No statement may be labelled twice with the same name (DistinctLabels), which the code does not reject. The examples show that the exceptions are necessary."
  },
  {
   "property": "C79",
   "status": "proved",
   "theorems": [
    "Esprit.C79_script",
    "Esprit.C79_strict",
    "Esprit.C79_module",
    "Esprit.C79_program"
   ],
   "note": "SameButBreaks (Spec/Breaks) relates the tokens; Ast.missing (Spec/Semis) counts the inserted semicolons. No statement may be labelled twice with the same name (DistinctLabels)."
  },
  {
   "property": "C80",
   "status": "proved",
   "theorems": [
    "Esprit.C80_script",
    "Esprit.C80_strict",
    "Esprit.C80_module",
    "Esprit.C80_program"
   ],
   "note": "Nested (Spec/Nesting) reads the tokens with a stack of open brackets. The tokens before the end are those consumed by the derivation of C34."
  },
  {
   "property": "C81",
   "status": "proved",
   "theorems": [
    "Esprit.C81_script",
    "Esprit.C81_strict",
    "Esprit.C81_module",
    "Esprit.C81_program"
   ],
   "note": "Ast.semicolons (Spec/Nesting) counts the semicolons a tree stands for, semicolons those among the tokens."
  }
 ]
}