{
 "claims": [
  {
   "property": "C01",
   "status": "proved",
   "theorems": [
    "Verif.Props.C01_lines_partition"
   ],
   "note": ""
  },
  {
   "property": "C02",
   "status": "proved",
   "theorems": [
    "Verif.Props.C02_line_col"
   ],
   "note": ""
  },
  {
   "property": "C03",
   "status": "proved",
   "theorems": [
    "Verif.Props.C03_round_trip",
    "Verif.Props.C03_order"
   ],
   "note": ""
  },
  {
   "property": "C04",
   "status": "proved",
   "theorems": [
    "Verif.Props.C04_expand_to_line",
    "Verif.Props.C04_unique"
   ],
   "note": ""
  },
  {
   "property": "C05",
   "status": "proved",
   "theorems": [
    "Verif.Props.C05_source",
    "Verif.Props.C05_source_exact",
    "Verif.Props.C05_text_round_trip"
   ],
   "note": ""
  },
  {
   "property": "C06",
   "status": "proved",
   "theorems": [
    "Verif.Props.C06_render",
    "Verif.Props.C06_reversed_panics"
   ],
   "note": ""
  },
  {
   "property": "C07",
   "status": "proved",
   "theorems": [
    "Verif.Props.C07_collection_expr",
    "Verif.Props.C07_collection_map",
    "Verif.Props.C07_join_lub",
    "Verif.Props.C07_join_comm",
    "Verif.Props.C07_join_assoc",
    "Verif.Props.C07_join_idem",
    "Verif.Props.C07_maybe_join"
   ],
   "note": "Loc operations and the join of a node collection (C07_collection_expr, C07_collection_map)."
  },
  {
   "property": "C08",
   "status": "proved",
   "theorems": [
    "Verif.Props.C08_comment_kind"
   ],
   "note": ""
  },
  {
   "property": "C09",
   "status": "proved",
   "theorems": [
    "Verif.Props.C09_dispatch",
    "Verif.Props.C09_dispatch_any"
   ],
   "note": ""
  },
  {
   "property": "C10",
   "status": "partial",
   "theorems": [
    "Verif.Props.C10_violated",
    "Verif.Props.C10_partial"
   ],
   "note": "The full property is false of the code (C10_violated: a decoder error discards the source). C10_partial covers successful re-encoding."
  },
  {
   "property": "C11",
   "status": "proved",
   "theorems": [
    "Verif.Props.C11_refines_64",
    "Verif.Props.C11_lifo",
    "Verif.Props.C11_limit_64"
   ],
   "note": "Exact for histories holding at most 64 bits (C11_lifo); C11_refines_64 gives the exact behaviour without that limit and C11_limit_64 shows the limit is real."
  },
  {
   "property": "C12",
   "status": "proved",
   "theorems": [
    "Verif.Props.C12_scoping",
    "Verif.Props.C12_balanced",
    "Verif.Props.C12_enter_leave"
   ],
   "note": ""
  },
  {
   "property": "C13",
   "status": "partial",
   "theorems": [
    "Verif.Props.C13_violated",
    "Verif.Props.C13_partial"
   ],
   "note": "The full property is false of the code for the two marker names (C13_violated); C13_partial covers every other name."
  },
  {
   "property": "C14",
   "status": "proved",
   "theorems": [
    "Verif.Props.C14_set_get",
    "Verif.Props.C14_history",
    "Verif.Props.C14_save_restore",
    "Verif.Props.C14_dynamic_block"
   ],
   "note": ""
  },
  {
   "property": "C15",
   "status": "proved",
   "theorems": [
    "Verif.Props.C15_layers",
    "Verif.Props.C15_needs_layer"
   ],
   "note": ""
  },
  {
   "property": "C16",
   "status": "proved",
   "theorems": [
    "Verif.Props.C16_current_arg",
    "Verif.Props.C16_pop_push"
   ],
   "note": ""
  },
  {
   "property": "C17",
   "status": "proved",
   "theorems": [
    "Verif.Props.C17_numparams",
    "Verif.Props.C17_scope_value"
   ],
   "note": ""
  },
  {
   "property": "C18",
   "status": "proved",
   "theorems": [
    "Verif.C18_lookup",
    "Verif.C18_keywords",
    "Verif.C18_modifiers",
    "Verif.C18_distinct"
   ],
   "note": ""
  },
  {
   "property": "C19",
   "status": "proved",
   "theorems": [
    "Verif.Props.C19_linear",
    "Verif.Props.C19_tokenize_terminates"
   ],
   "note": "For every input below 2 GiB (i32 arithmetic in Loc::adjust_end), with no decoder or one that keeps the bytes; whatever the grammar actions do between tokens."
  },
  {
   "property": "C20",
   "status": "partial",
   "theorems": [
    "Verif.Props.C20_never_panics_partial",
    "Verif.Props.C20_shrinking_decoder_panics"
   ],
   "note": "C20_never_panics_partial: every input below 2 GiB, with no decoder or one that keeps the bytes. Without that hypothesis the property is false (C20_shrinking_decoder_panics)."
  },
  {
   "property": "C21",
   "status": "partial",
   "theorems": [
    "Verif.Props.C21_locations_partial",
    "Verif.Props.C21_negation"
   ],
   "note": "False as stated (C21_negation: unterminated heredocs). C21_locations_partial covers all other tokens except the end-of-input token."
  },
  {
   "property": "C22",
   "status": "partial",
   "theorems": [
    "Verif.Props.C22_comments",
    "Verif.Props.C22_records_grow",
    "Verif.Props.C22_negation_order"
   ],
   "note": "Every record is faithful (C22_comments), records only grow; the order part is false (C22_negation_order)."
  },
  {
   "property": "C23",
   "status": "proved",
   "theorems": [
    "Verif.Props.C23_magic_comments",
    "Verif.Props.C23_negation_case"
   ],
   "note": "C23_negation_case additionally shows that upper-case keys are not recognised at all."
  },
  {
   "property": "C24",
   "status": "proved",
   "theorems": [
    "Verif.Props.C24_reads_deliver_input",
    "Verif.Props.C24_pushback_inverse",
    "Verif.Props.C24_pushback_restores",
    "Verif.Props.C24_reads_total"
   ],
   "note": ""
  },
  {
   "property": "C25",
   "status": "partial",
   "theorems": [
    "Verif.Props.C25_end_marker_partial",
    "Verif.Props.C25_script_end",
    "Verif.Props.C25_nul_not_sticky"
   ],
   "note": "C25_end_marker_partial: __END__ on the next line; C25_script_end: NUL/^D/^Z; the latter do not stop the lexer for good (C25_nul_not_sticky)."
  },
  {
   "property": "C26",
   "status": "proved",
   "theorems": [
    "Verif.Lexer.C26_scalar",
    "Verif.Lexer.C26_encoding",
    "Verif.Lexer.C26_error",
    "Verif.Lexer.C26_braces"
   ],
   "note": "C26_scalar/C26_error cover one code point for every digit string; C26_braces covers \\u{...} with any number of code points and any white space on the line."
  },
  {
   "property": "C27",
   "status": "proved",
   "theorems": [
    "Verif.Lexer.C27_scan_hex",
    "Verif.Lexer.C27_scan_oct",
    "Verif.Lexer.C27_exact",
    "Verif.Lexer.C27_bounds"
   ],
   "note": "Values are exact up to 16 hexadecimal / 21 octal digits, modulo 2^64 beyond (the code shifts a 64-bit word)."
  },
  {
   "property": "C28",
   "status": "partial",
   "theorems": [
    "Verif.Props.C28_literals_read",
    "Verif.Props.C28_values_partial",
    "Verif.Props.C28_negation"
   ],
   "note": "C28_literals_read: every numeric literal of Ruby gives one token whose value is its text, without diagnostics. C28_values_partial: every numeric token read without diagnostics has its text as value except in two exactly described forms. The full property is false for these: C28_negation (sign before a base prefix; e at the end of the input)."
  },
  {
   "property": "C29",
   "status": "proved",
   "theorems": [
    "Verif.Props.C29_record_tokens"
   ],
   "note": "The parser is an arbitrary consumer that does not look at the recorded tokens."
  },
  {
   "property": "C30",
   "status": "partial",
   "theorems": [
    "Verif.Props.C30_negation",
    "Verif.Props.C30_negation_keeps",
    "Verif.Props.C30_dedent_partial"
   ],
   "note": "False as stated (C30_negation: with width 4 a tab of 8 columns is removed; C30_negation_keeps: a second tab inside the width is kept). C30_dedent_partial: only a prefix of blanks and tabs is ever removed; the width is respected and used up for text without tabs or width 8."
  },
  {
   "property": "C31",
   "status": "proved",
   "theorems": [
    "Verif.Props.C31_heredoc_dedent"
   ],
   "note": ""
  },
  {
   "property": "C32",
   "status": "partial",
   "theorems": [
    "Verif.Props.C32_duplicate_args_partial",
    "Verif.Props.C32_ascii",
    "Verif.Props.C32_negation"
   ],
   "note": "Exact for every argument list whose names start with an ASCII character (C32_duplicate_args_partial, C32_ascii); for other names the check panics (C32_negation: `&name[0..1]` inside a multi-byte character)."
  },
  {
   "property": "C33",
   "status": "proved",
   "theorems": [
    "Verif.Props.C33_value_expr"
   ],
   "note": ""
  },
  {
   "property": "C34",
   "status": "proved",
   "theorems": [
    "Verif.Props.C34_condition_rewriting",
    "Verif.Props.C34_no_plain_left"
   ],
   "note": "As an inductive specification of condition position; locations kept, no plain range/regexp left, nothing else changed."
  },
  {
   "property": "C35",
   "status": "proved",
   "theorems": [
    "Verif.Props.C35_try_declare_numparam",
    "Verif.Props.C35_reserved",
    "Verif.Props.C35_assignment"
   ],
   "note": ""
  },
  {
   "property": "C36",
   "status": "proved",
   "theorems": [
    "Verif.Props.C36_static_string"
   ],
   "note": ""
  },
  {
   "property": "C37",
   "status": "proved",
   "theorems": [
    "Verif.Props.C37_kwargs"
   ],
   "note": ""
  },
  {
   "property": "C38",
   "status": "proved",
   "theorems": [
    "Verif.Props.C38_pattern_variables",
    "Verif.Props.C38_pattern_keys"
   ],
   "note": ""
  },
  {
   "property": "C39",
   "status": "proved",
   "theorems": [
    "Verif.Props.C39_regexp_options"
   ],
   "note": "For a token whose location covers its text, positions below 2^31."
  },
  {
   "property": "C40",
   "status": "proved",
   "theorems": [
    "Verif.Props.C40_forward_after_rest"
   ],
   "note": ""
  },
  {
   "property": "C41",
   "status": "proved",
   "theorems": [
    "Verif.Props.C41_state_is_final",
    "Verif.Props.C41_bits_are_final",
    "Verif.Props.C41_bits_bounded",
    "Verif.Props.C41_parts_are_balanced"
   ],
   "note": "All 730 productions checked and lifted to every derivation tree; stacks, context flags, cond/cmdarg/paren_nest for every interleaving of token reading and actions. The table is generated from parse.y by tools/grammar; error productions are not part of it."
  },
  {
   "property": "C42",
   "status": "partial",
   "theorems": [
    "Verif.Props.C42_negation",
    "Verif.Props.C42_content_partial"
   ],
   "note": "False in two ways (C42_negation): a backslash before a non-ASCII character and a non-ASCII delimiter. The partial theorem excludes both and assumes that the literal's text starts at a character boundary."
  },
  {
   "property": "C43",
   "status": "proved",
   "theorems": [
    "Verif.Props.C43_append_only",
    "Verif.Props.C43_tokenize_append_only",
    "Verif.Props.C43_run_append_only"
   ],
   "note": "Every lexer function only appends to the recorded diagnostics, comments and magic comments; lifted to tokens, whole inputs and parser-driven runs."
  },
  {
   "property": "C44",
   "status": "proved",
   "theorems": [
    "Verif.Props.C44_no_panic",
    "Verif.Props.C44_program_no_panic",
    "Verif.Props.C44_value_assigned"
   ],
   "note": "Casts, unextend and declarations over every derivation tree, every branch choice and every declaration; values of completed nonterminals are assigned and not taken."
  },
  {
   "property": "C45",
   "status": "proved",
   "theorems": [
    "Verif.Props.C45_locals_grow",
    "Verif.Props.C45_scopes_are_closed"
   ],
   "note": "Every production that opens a scope closes exactly that scope; the list of these productions is checked to be complete."
  },
  {
   "property": "C46",
   "status": "proved",
   "theorems": [
    "Verif.Props.C46_single_quoted",
    "Verif.Props.C46_percent",
    "Verif.Props.C46_words",
    "Verif.Props.C46_roundtrip"
   ],
   "note": "Literals inside heredoc lines (where the reader jumps) are outside the statement: it asks for sequential reading. Percent literals are stated for states where an operand is expected."
  },
  {
   "property": "C47",
   "status": "proved",
   "theorems": [
    "Verif.Props.C47_reading_brackets",
    "Verif.Props.C47_session",
    "Verif.Props.C47_final"
   ],
   "note": "For every single call of the lexer; sessions exclude a [ in the place of a method name, for which no production exists (the exception is stated exactly)."
  },
  {
   "property": "C48",
   "status": "partial",
   "theorems": [
    "Verif.Props.C48_locations_nest_partial",
    "Verif.Props.C48_program",
    "Verif.Props.C48_all_locations",
    "Verif.Props.C48_when_begin_outside"
   ],
   "note": "Fails for begin_l of a when/in branch without a body (C48_when_begin_outside); everything else is proved, C48_all_locations says that nothing else is left out. That the tokens come in source order is a hypothesis (Placed), with the text of here documents exempt; C56 derives it from the lexer for sources without here documents. Error productions are outside."
  },
  {
   "property": "C49",
   "status": "partial",
   "theorems": [
    "Verif.Props.C49_no_unreachable_partial",
    "Verif.Props.C49_do_after_braces_panics"
   ],
   "note": "Proved for all derivations in which the block of block_call: command do_block is given to foo 1, a.b 1, super 1, yield 1 or return/break/next of one of these (blocksFit). The full claim fails: foo 1, if x; bar (a) {} do end; end panics in Builder::block (C49_do_after_braces_panics). That heredoc_indent is zero at strings that are no here documents is a hypothesis (Dedents). Other panics (expect, indexing) are not part of this claim. Error productions are outside."
  },
  {
   "property": "C50",
   "status": "partial",
   "theorems": [
    "Verif.Props.C50_shaped_partial",
    "Verif.Props.C50_program_partial",
    "Verif.Props.C50_block_over_number"
   ],
   "note": "Same restriction as C49 (blocksFit); without it foo 1, if x; return 1 do end; end gives a Block over the number 1 (C50_block_over_number). The kinds allowed at each field are written down in Spec/Shape; the bounds are as tight as needed for the proof, some fields allow kinds that no source produces there. Error productions are outside."
  },
  {
   "property": "C51",
   "status": "partial",
   "theorems": [
    "Verif.Props.C51_no_panic_partial",
    "Verif.Props.C51_empty_key_panics"
   ],
   "note": "Proved for derivations with blocksFit (as C49) over tokens that are WellRead (words are UTF-8, labels end with their colon, ... : Spec/WellRead), for states whose tables have a level where a pattern or a block is read (Ready, preserved by each call). Parameter lists that repeat a name not starting with an ASCII character panic (exactly those, see C32). Missing: keys of hash patterns in quotes without a value; there the claim fails for case 1; in {\"#{''}\":}; end (C51_empty_key_panics). That the lexer's tokens are WellRead is C55; that the mid-rule actions keep the tables Ready is part of C53."
  },
  {
   "property": "C52",
   "status": "proved",
   "theorems": [
    "Verif.Props.C52_parse"
   ],
   "note": "Performing all actions of any derivation of program from the initial state (Model/Grammar/Parse): never a value of the wrong shape; ok gives a value by the relation Evals (so C48-C50 apply to it), one optional node, and final tables; a panic is one of a builder call among t.Calls. The LALR tables, error recovery and the lexer's fields are outside (any derivation tree, postorder); the width of dedenting is an arbitrary function."
  },
  {
   "property": "C53",
   "status": "partial",
   "theorems": [
    "Verif.Props.C53_parse_no_panic_partial",
    "Verif.Props.C53_programs_that_panic"
   ],
   "note": "Proved: for derivations with blocksFit over WellRead tokens without a hash pattern key in quotes and without value, a panic is the index panic of a parameter list that repeats a name not starting with an ASCII character (as C32). Each of the three conditions is needed: C53_programs_that_panic gives whole programs that panic without it. Missing: harmless quoted keys. That the lexer's tokens are WellRead is C55."
  },
  {
   "property": "C54",
   "status": "partial",
   "theorems": [
    "Verif.Props.C54_variables_are_bound_partial",
    "Verif.Props.C54_not_for_all_programs"
   ],
   "note": "Proved for every derivation of program with blocksFit whose parse completes without the error OrdinaryParamDefined, for every name but _1.._9 and the two marks for ... and anonymous & (none of which has a binding node): no method, class or module mentions a variable it does not bind, every variable the program's scope mentions is bound in it, and what is declared at the end is bound in the tree. Both conditions are needed: C54_not_for_all_programs gives programs whose trees have unbound variables. Missing: numbered parameters; that the binding comes before the use; the converse (a name that is bound earlier is read as a variable)."
  },
  {
   "property": "C55",
   "status": "partial",
   "theorems": [
    "Verif.Props.C55_tokens_read",
    "Verif.Props.C55_no_carriage_return",
    "Verif.Props.C55_label_sizes",
    "Verif.Props.C55_parse_no_panic_partial",
    "Verif.Props.C55_negation_carriage_return"
   ],
   "note": "Proved: every token of every run of the lexer is WellRead, or a tLABEL whose text contains a carriage return (then the source does too). The exception is real: C55_negation_carriage_return gives a source whose label is not UTF-8 and whose whole parse panics. C55_parse_no_panic_partial combines this with C53: it keeps the conditions of C53 (blocksFit, no quoted key alone), and each of them is needed."
  },
  {
   "property": "C56",
   "status": "partial",
   "theorems": [
    "Verif.Props.C56_source_order_partial",
    "Verif.Props.C56_locations_nest_partial",
    "Verif.Props.C56_negation_heredoc",
    "Verif.Props.C56_negation_last_newline",
    "Verif.Props.C56_negation_regexp"
   ],
   "note": "Proved for every run in which no here document is opened and no literal is put back right after a newline token (Model/Paced: the two actions that put one back come after a variable or a closing brace): tokens lie in the source and come one after the other, except that the newline of the last line end can be given twice (C56_negation_last_newline: only when the parser changes the lexer state after it). C56_locations_nest_partial gives from this the hypothesis of C48, assuming that nothing follows that newline and that no ?x literal and no regexp end is empty; an unterminated regexp has an empty end, and then the claim fails (C56_negation_regexp). Missing: here documents (the order fails, C56_negation_heredoc), the end-of-input token."
  },
  {
   "property": "C57",
   "status": "partial",
   "theorems": [
    "Verif.Props.C57_methods_define_nothing_partial",
    "Verif.Props.C57_programs_partial",
    "Verif.Props.C57_not_for_scoped_targets"
   ],
   "note": "Proved for every derivation of any nonterminal, in any state of the tables: no Def or Defs in the tree has a Class, Module or Casgn among its parameters and body (at any depth, except in the body of a singleton class), and nothing that is parsed while in_def is set has one. Left out: the target of an operator-assignment that has a scope (A::B ||= 1, ::A += 1), for which the claim is false (C57_not_for_scoped_targets)."
  },
  {
   "property": "C58",
   "status": "partial",
   "theorems": [
    "Verif.Props.C58_double_quoted_partial",
    "Verif.Props.C58_percent_partial",
    "Verif.Props.C58_bare_partial",
    "Verif.Props.C58_backtick_partial",
    "Verif.Props.C58_negation",
    "Verif.Props.C58_roundtrip"
   ],
   "note": "Proved for \"...\", %Q, %x, bare % with every delimiter, and backticks: every text that the specification derives (all escapes incl. octal, hex, meta, control, \\u and \\u{...}, joined lines, nested brackets, bytes that are not UTF-8) gives exactly its bytes as the one content token, without a diagnostic; every byte string has a literal that denotes it (C58_roundtrip). Left out: \\8 and \\9, for which the claim is false (C58_negation); literals with interpolation, here documents, symbols and regular expressions."
  },
  {
   "property": "C59",
   "status": "partial",
   "theorems": [
    "Verif.Props.C59_infix",
    "Verif.Props.C59_argument",
    "Verif.Props.C59_prefix",
    "Verif.Props.C59_method_name",
    "Verif.Props.C59_not_for_at_names",
    "Verif.Props.C59_minus"
   ],
   "note": "Proved: all 54 operators and punctuation marks of the table after an operand and after a name that may be a command, all 17 of the table before an operand, the minus of a number, and all operators that are names of methods after a dot, def, alias, undef and the colon of a symbol. The hypotheses name what is not read by the longest match: a dot before a digit, three dots in a parameter list, a parenthesis directly after a name that may be a label, =begin, signs of numbers, and after a command name the spacing by which Ruby decides that an argument starts. Violated for the value: !@ and ~@ as names keep the @ (C59_not_for_at_names). Missing: braces."
  },
  {
   "property": "C60",
   "status": "proved",
   "theorems": [
    "Verif.Props.C60_label",
    "Verif.Props.C60_name",
    "Verif.Props.C60_keyword",
    "Verif.Props.C60_do"
   ],
   "note": "Names over all characters, with all marks, in every lexer state: labels, keywords, do, and other names, with the state afterwards. Names __END__ (which may end the program) are left out; invalid UTF-8 in names is the subject of C55 and C56."
  },
  {
   "property": "C61",
   "status": "partial",
   "theorems": [
    "Verif.Props.C61_variable",
    "Verif.Props.C61_dash",
    "Verif.Props.C61_malformed_partial"
   ],
   "note": "Every variable over all characters in every lexer state (C61_variable), malformed ones are reported (C61_malformed_partial). Exception, proved (C61_dash): $- before something that is no name character is not reported but read as a character literal with the value \"$\", so `$- 1` is accepted as \"$\" - 1. Missing: names with invalid UTF-8."
  },
  {
   "property": "C62",
   "status": "partial",
   "theorems": [
    "Verif.Props.C62_rest_partial",
    "Verif.Props.C62_source_partial",
    "Verif.Props.C62_trailing_blanks",
    "Verif.Props.C62_trailing_comment"
   ],
   "note": "C62_rest_partial: for the rest of any source, C62_source_partial: for a whole one. Lines of numbers, names, keywords, instance, class and global variables, literals in single and double quotes, symbols, labels (after a name that may be a command, after a comma and after a parenthesis that follows directly; their value starts with a name, number, variable, quote or symbol), definitions (def and the name), return, break, next, rescue and class before what does not start like a modifier, the same without a value before a modifier, operators and punctuation, ended by line feeds alone, with comments at their ends and between them; calls at the start of a line continue the line before. Missing: literals with interpolation, percent literals, backticks, regexps, here documents and character literals, quoted symbols and quoted labels, labels before other values, comments with a colon (they may be magic) and a comment that the source ends with (C62_trailing_comment: a line end is reported inside it), braces and do, keywords after which a list of names follows (alias, undef), class before <<, arguments of commands that start with an operator, line ends of two bytes, sources that end with blanks after a line end (C62_trailing_blanks: the position of the token is wrong there)."
  }
 ]
}