{"id": "C01", "title": "Source lines partition the input", "statement": "After `DecodedInput::update_bytes(bytes)` the public `lines` list cuts `bytes` into consecutive, gap-free, non-overlapping ranges whose concatenation is `bytes`; every line except the last ends with exactly one line feed and contains no other, the last contains none and is the only one flagged `ends_with_eof`.", "quantifier": "for every byte array", "why_tests_cant": "The number, length and contents of lines are unbounded; tests only sample a handful of files.", "anchors": ["src/source/decoded_input.rs: DecodedInput::update_bytes", "src/source/source_line.rs: SourceLine"]}
{"id": "C02", "title": "line_col_for_pos is exactly (newlines before, distance from line start)", "statement": "`line_col_for_pos(pos)` returns None exactly when pos > len; otherwise it returns the number of line feeds among the first pos bytes and the distance from pos back to the byte after the last such line feed. In particular it never panics.", "quantifier": "for every byte array and every usize offset", "why_tests_cant": "All pairs (input, offset) are needed; off-by-one errors hide at EOF, at empty lines and just after a line feed.", "anchors": ["src/source/decoded_input.rs: DecodedInput::line_col_for_pos", "src/source/input.rs: Input::line_col_for_pos"]}
{"id": "C03", "title": "Line/column round trip", "statement": "For in-range offsets, `lines[line].start + col == pos`; hence different offsets get different (line, col) pairs, and the pairs are ordered lexicographically exactly as the offsets are.", "quantifier": "for every byte array and every pair of in-range offsets", "why_tests_cant": "A statement about all pairs of positions of all inputs.", "anchors": ["src/source/decoded_input.rs: line_col_for_pos, line_at"]}
{"id": "C04", "title": "expand_to_line returns the maximal newline-free range around begin", "statement": "`Loc::expand_to_line` succeeds exactly when loc.begin <= len, and then gives the 0-based line number and the range that starts right after the previous line feed (or at 0), ends right before the next line feed (or at EOF), contains no line feed, and contains loc.begin unless loc.begin is past the end of that range at the line feed itself.", "quantifier": "for every byte array and every location", "why_tests_cant": "Unbounded inputs and locations.", "anchors": ["src/loc_ext.rs: LocExt::expand_to_line", "src/source/source_line.rs: SourceLine::line_end"]}
{"id": "C05", "title": "Loc::source is a total, exact slice", "statement": "`Loc::source(input)` returns Some exactly when begin <= end <= len and then it is the (lossy UTF-8) text of exactly the bytes begin..end; when those bytes are valid UTF-8 the text is those bytes unchanged. It never panics, whatever the location.", "quantifier": "for every byte array and every location, including reversed and out of range ones", "why_tests_cant": "Needs all locations over all inputs; the panicking slice is only avoided by the guard.", "anchors": ["src/loc_ext.rs: LocExt::source", "src/source/decoded_input.rs: substr_at"]}
{"id": "C06", "title": "Diagnostic rendering is total and points at the right place", "statement": "`Diagnostic::render(input)` returns Some exactly when loc.begin <= len; if also loc.begin <= loc.end it does not panic; the rendered header carries the 1-based line number and the 0-based byte column of loc.begin, the second line is the source line that contains loc.begin, and the caret is preceded by exactly that many blanks and followed by size-1 tildes.", "quantifier": "for every input, file name, level, message and location", "why_tests_cant": "Diagnostics can be emitted at any location of any file.", "anchors": ["src/error/diagnostic.rs: Diagnostic::render", "src/loc_ext.rs"]}
{"id": "C07", "title": "Joining locations gives the least enclosing range", "statement": "Joining locations (min of begins, max of ends) is commutative, associative and idempotent, contains both arguments, and is contained in every range that contains both; joining an optional collection of nodes covers its first and last element.", "quantifier": "for all locations / all node lists", "why_tests_cant": "Algebraic laws over all integers.", "anchors": ["src/loc_ext.rs: Loc::join (documented copy)", "src/builder.rs: join_exprs, join_maybe_locs, collection_expr, collection_map"]}
{"id": "C08", "title": "Comment kind follows the source text", "statement": "`Comment::new(loc, input)` is Inline exactly when loc is a valid range whose text starts with '#', Document exactly when it is a valid range whose text starts with '=begin', and Unknown otherwise; the location is stored unchanged.", "quantifier": "for every input and location", "why_tests_cant": "All inputs and locations.", "anchors": ["src/source/comment.rs: Comment::new"]}
{"id": "C09", "title": "Encoding dispatch", "statement": "For the names UTF-8, ASCII-8BIT and BINARY in any ASCII letter case the source bytes are used unchanged and a user decoder is never called; for any other name a configured decoder is called exactly once with the name exactly as written and with the original bytes and its answer is returned unchanged; without a decoder the result is UnsupportedEncoding carrying the name as written.", "quantifier": "for every encoding name, input and decoder function", "why_tests_cant": "Quantifies over all names and all user supplied functions.", "anchors": ["src/source/decoder.rs: decode_input, Decoder::call", "src/source/input.rs: Input::set_encoding"]}
{"id": "C10", "title": "A failed re-encoding does not lose the source", "statement": "When the encoding named by a magic comment cannot be applied, the error is reported and the input returned to the caller still holds the bytes the caller passed, so that the reported location can be rendered.", "quantifier": "for every input, encoding name and decoder", "why_tests_cant": "Error paths with arbitrary decoders; the tests only look at the message.", "anchors": ["src/source/input.rs: Input::set_encoding", "src/source/decoded_input.rs: take_bytes", "src/lexer/parse_magic_comment.rs: encoding handling"]}
{"id": "C11", "title": "cond/cmdarg stacks are LIFO", "statement": "After any sequence of push/pop starting from an empty stack, `is_active` tells the most recently pushed and not yet popped bit (false when there is none), as long as no more than 64 bits are held; when more are held only the newest 64 are remembered.", "quantifier": "for every sequence of pushes and pops", "why_tests_cant": "Sequences are unbounded; the overflow of the 64-bit word is never reached by tests.", "anchors": ["src/stack_state.rs: StackState::{push,pop,is_active,is_empty}"]}
{"id": "C12", "title": "Local variable scoping", "statement": "`StaticEnvironment` answers `is_declared(name)` exactly as a lexical-scope model: a name is visible iff it was declared in the current scope or, through an unbroken chain of dynamic (block/lambda) scopes, in an enclosing one before that chain was entered; leaving a scope restores visibility to what it was on entry; static scopes hide everything outside.", "quantifier": "for every sequence of extend_static/extend_dynamic/unextend/declare operations", "why_tests_cant": "Operation histories are unbounded.", "anchors": ["src/static_environment.rs: StaticEnvironment"]}
{"id": "C13", "title": "Forward-args and anonymous block markers cannot be confused with user variables", "statement": "Declaring a user variable never makes `...` or `&` forwarding appear to be available, and declaring forwarding never makes a user variable appear declared.", "quantifier": "for every variable name and every history of scope operations", "why_tests_cant": "Name clash over the unbounded set of identifiers.", "anchors": ["src/static_environment.rs: FORWARD_ARGS, ANONYMOUS_BLOCKARG, declare_forward_args, is_forward_args_declared"]}
{"id": "C14", "title": "Parser context flags are independent", "statement": "Setting one of the seven context flags changes that flag to the given value and leaves the other six as they were; the context reports empty exactly when all seven are off; dump followed by restoring each flag reproduces the context.", "quantifier": "for every context value and every sequence of flag updates", "why_tests_cant": "All 2^7 contexts times all update sequences.", "anchors": ["src/context.rs: Context, SharedContext"]}
{"id": "C15", "title": "Per-pattern variable/key sets", "statement": "In `VariablesStack` a name is reported declared iff it was declared since the matching push and the layer was not popped; inner layers neither see nor disturb outer ones; popping restores the outer answers.", "quantifier": "for every sequence of push/pop/declare with at least one layer", "why_tests_cant": "Unbounded histories.", "anchors": ["src/variables_stack.rs: VariablesStack"]}
{"id": "C16", "title": "Current-argument stack", "statement": "`CurrentArgStack::top` is the name given by the last push/set not yet popped; set replaces only the top; pop undoes push.", "quantifier": "for every history of operations", "why_tests_cant": "Unbounded histories.", "anchors": ["src/current_arg_stack.rs: CurrentArgStack"]}
{"id": "C17", "title": "Numbered-parameter bookkeeping", "statement": "`MaxNumparamStack` holds for the innermost scope the maximum of the registered numbered parameters (0 if none, ordinary-params marker if ordinary parameters were declared), scopes are LIFO and independent, and no operation panics while at least one scope is open.", "quantifier": "for every history of operations", "why_tests_cant": "Unbounded histories.", "anchors": ["src/max_numparam_stack.rs: MaxNumparamStack"]}
{"id": "C18", "title": "Keyword lookup", "statement": "`reserved_word(tok)` returns Some exactly for the 41 reserved words of the table and then returns that word's own entry; every other byte string (prefix, extension, different case, non UTF-8) gives None.", "quantifier": "for every byte string", "why_tests_cant": "Infinite set of byte strings against a length-bucketed binary search.", "anchors": ["src/reserved_words/mod.rs: reserved_word", "codegen/rust/reserved_words.rs"]}
{"id": "C19", "title": "Lexing terminates on every input", "statement": "For every byte array the lexer reaches the end-of-input token after finitely many tokens, each produced after finitely many steps; the number of tokens is bounded by a linear function of the input length.", "quantifier": "for every input byte array", "why_tests_cant": "Non-termination (hang) on some input cannot be excluded by running finitely many inputs.", "anchors": ["src/lexer/main.rs: tokenize_until_eof, yylex, parser_yylex", "src/source/buffer.rs: nextc, nextline"]}
{"id": "C20", "title": "Lexing never panics", "statement": "No index out of bounds, subtraction underflow, failed expect/unwrap or unreachable! is reached while lexing.", "quantifier": "for every input byte array", "why_tests_cant": "A fuzzing goal of the project; only all-inputs reasoning settles it.", "anchors": ["src/lexer/*.rs", "src/source/buffer.rs", "fuzzer/examples/fuzz.rs"]}
{"id": "C21", "title": "Token locations stay inside the input", "statement": "Every token returned by the lexer has loc.begin <= loc.end <= len(input), so that `loc.source(input)` is defined.", "quantifier": "for every input and every token", "why_tests_cant": "All inputs, including unterminated literals at EOF.", "anchors": ["src/lexer/main.rs: yylex", "src/lexer/yylval.rs", "src/lexer/parse_string.rs", "src/lexer/parse_heredoc.rs"]}
{"id": "C22", "title": "Comments are recorded faithfully", "statement": "Every recorded comment is an in-range location whose text starts with '#' or '=begin'; comments are recorded in increasing, non-overlapping source order.", "quantifier": "for every input", "why_tests_cant": "All inputs.", "anchors": ["src/lexer/main.rs: comment branches", "src/source/comment.rs"]}
{"id": "C23", "title": "Magic comments are located inside their comment and classified by key", "statement": "Every recorded magic comment has key and value ranges inside the input with key before value, and its kind is the one named by the (case-insensitive, dash/underscore-insensitive) key text.", "quantifier": "for every input", "why_tests_cant": "The ad-hoc scanner has many index computations; all inputs needed.", "anchors": ["src/lexer/parse_magic_comment.rs"]}
{"id": "C24", "title": "nextc/pushback are inverse and CRLF is one character", "statement": "Reading a character and pushing it back restores the reading position, also when the character was a CR LF pair read as a single line feed; consecutive reads deliver the input bytes in order with each CR LF collapsed.", "quantifier": "for every input and position", "why_tests_cant": "All inputs and positions; positions at line starts are the hard case.", "anchors": ["src/source/buffer.rs: nextc, parser_cr, pushback, nextline"]}
{"id": "C25", "title": "Nothing after __END__ or an end-of-script byte is lexed", "statement": "Once the lexer has met a line consisting of __END__, a NUL, ^D or ^Z byte outside literals, it only returns the end-of-input token and never reads or reports anything located after that point.", "quantifier": "for every input", "why_tests_cant": "All inputs with arbitrary trailing data.", "anchors": ["src/lexer/main.rs: parser_yylex EOF branch, is_whole_match(__END__)"]}
{"id": "C26", "title": "Unicode escapes produce the right UTF-8 or an error", "statement": "A code point escape \\uXXXX or \\u{...} appends exactly the UTF-8 encoding of the code point for every Unicode scalar value, and reports an error (without panicking) for surrogates and values above 10FFFF.", "quantifier": "for every code point value", "why_tests_cant": "All 2^32 values and all digit strings.", "anchors": ["src/lexer/parse_string.rs: tokadd_codepoint, tokadd_utf8", "src/lexer/parse_string.rs: tokaddmbc"]}
{"id": "C27", "title": "Octal and hex digit scanning", "statement": "The octal/hex scanners consume at most the requested number of digits, consume exactly the longest digit prefix, never run past the current line and return the numeric value of those digits.", "quantifier": "for every input, position and maximum length", "why_tests_cant": "All inputs.", "anchors": ["src/lexer/parse_string.rs: scan_oct/scan_hex"]}
{"id": "C28", "title": "Numeric literal text", "statement": "The value of an integer, float, rational or imaginary token is exactly the source text between the begin and end of the token's location (digit separators included), so that consumers can evaluate it.", "quantifier": "for every numeric literal accepted by the lexer", "why_tests_cant": "Infinitely many literals.", "anchors": ["src/lexer/parse_numeric.rs"]}
{"id": "C29", "title": "Tokens are recorded iff requested and in order", "statement": "With record_tokens = false the result's token list is empty; with true it is exactly the sequence of tokens handed to the grammar, in order; nothing else of the result depends on the flag.", "quantifier": "for every input", "why_tests_cant": "Relates two runs on the same input for all inputs.", "anchors": ["src/parser/parse.y: next_token, do_parse", "src/parser_options.rs: record_tokens"]}
{"id": "C30", "title": "Squiggly heredoc dedent removes columns, not bytes", "statement": "Dedenting a line by `width` columns removes leading blanks and tabs that together occupy at most `width` columns (a tab advances to the next multiple of 8), removes nothing else and leaves the rest of the text untouched.", "quantifier": "for every byte string and width", "why_tests_cant": "Mixed tab/space prefixes of any length.", "anchors": ["src/builder.rs: dedent_string"]}
{"id": "C31", "title": "Heredoc dedent keeps interpolation", "statement": "Dedenting a heredoc node changes only its literal string parts: interpolated parts survive in order and unchanged, emptied string parts are dropped, locations are untouched, and a dedent of 0 is the identity.", "quantifier": "for every heredoc node and dedent level >= 0", "why_tests_cant": "Unbounded part lists.", "anchors": ["src/builder.rs: heredoc_dedent"]}
{"id": "C32", "title": "Duplicate argument names are reported exactly", "statement": "For every argument list (including nested destructuring) a DuplicatedArgumentName error is emitted, at the later argument's name, exactly for each argument whose name already occurred and does not start with an underscore; the check never panics.", "quantifier": "for every argument list and all names, including non-ASCII ones", "why_tests_cant": "Lists and names are unbounded.", "anchors": ["src/builder.rs: check_duplicate_args, check_duplicate_arg, arg_name_collides, arg_name_loc"]}
{"id": "C33", "title": "Void value check", "statement": "`value_expr` rejects a node exactly when evaluating it in the places considered always ends in return/break/next/redo/retry (last statement of a sequence, both branches of a conditional, left side of and/or, matched value), reports one error located at the offending node, and accepts everything else.", "quantifier": "for every AST", "why_tests_cant": "ASTs are unbounded.", "anchors": ["src/builder.rs: value_expr, void_value"]}
{"id": "C34", "title": "Condition rewriting", "statement": "Rewriting a condition turns ranges into flip-flops and bare regexps into match-current-line in condition position (through single-statement parentheses, and/or and range ends), keeps every location, changes nothing else and is idempotent except for regexps, which are wrapped once.", "quantifier": "for every AST", "why_tests_cant": "ASTs are unbounded.", "anchors": ["src/builder.rs: check_condition"]}
{"id": "C35", "title": "Numbered parameters", "statement": "A name _1.._9 becomes an implicit parameter exactly when it is not already declared and the code is inside a block or lambda; it is then declared, the scope's maximum is raised to at least its number, and an error is emitted iff ordinary parameters were declared or for each enclosing block (up to the nearest static scope) that already uses numbered parameters; assigning to one in use and naming a parameter like one are errors.", "quantifier": "for every name, context and scope history", "why_tests_cant": "Names, nesting depth and histories are unbounded.", "anchors": ["src/builder.rs: try_declare_numparam, check_assignment_to_numparam, check_reserved_for_numparam"]}
{"id": "C36", "title": "Static strings", "statement": "`static_string` yields the concatenation of all literal fragments exactly when every (recursively nested) part is literal, and nothing otherwise.", "quantifier": "for every list of nodes", "why_tests_cant": "Unbounded nesting.", "anchors": ["src/builder.rs: static_string"]}
{"id": "C37", "title": "Keyword-argument rewriting", "statement": "Rewriting the arguments of a call replaces a brace-less hash in last position (or before a trailing block-pass) by a kwargs node with the same pairs and location, and changes nothing else.", "quantifier": "for every argument list", "why_tests_cant": "Unbounded lists.", "anchors": ["src/builder.rs: rewrite_hash_args_to_kwargs, is_kwargs"]}
{"id": "C38", "title": "Pattern variables and keys are unique", "statement": "Within one pattern a second binding of the same variable (not starting with an underscore) and a second occurrence of the same key are reported as errors, exactly at the repeated occurrence.", "quantifier": "for every sequence of names in a pattern", "why_tests_cant": "Unbounded sequences.", "anchors": ["src/builder.rs: check_duplicate_pattern_variable, check_duplicate_pattern_key"]}
{"id": "C39", "title": "Regexp options", "statement": "The options node of a regexp literal lists every option letter of the literal once, in increasing order, and is absent exactly when there are none.", "quantifier": "for every option string", "why_tests_cant": "All strings.", "anchors": ["src/builder.rs: regexp_options"]}
{"id": "C40", "title": "Forward argument after rest argument", "statement": "An error is emitted exactly when the argument list has both a rest argument and a forwarding argument, located at the forwarding argument.", "quantifier": "for every argument list", "why_tests_cant": "Unbounded lists.", "anchors": ["src/builder.rs: validate_no_forward_arg_after_restarg"]}
{"id": "C41", "title": "Scopes opened while parsing are closed again", "statement": "For every program accepted by the grammar all bookkeeping stacks (local scopes, current argument, numbered parameters, pattern variables and keys, cond/cmdarg, context flags) are back to their initial value when parsing finishes, whatever the nesting.", "quantifier": "for every derivation of the grammar", "why_tests_cant": "Derivations are unbounded; the state assertion is only run on test inputs.", "anchors": ["src/parser/parse.y: grammar actions, do_parse_with_state_validation, assert_state_is_final, local_push, local_pop"]}
{"id": "C42", "title": "String literal contents are valid UTF-8 when the source is", "statement": "The value of a string content token of a single-quoted, word-list or symbol literal is valid UTF-8 whenever the source is, so that turning it into a text never fails.", "quantifier": "for every valid UTF-8 source", "why_tests_cant": "Byte-wise processing of multi-byte characters after a backslash; tests use ASCII.", "anchors": ["src/lexer/parse_string.rs: tokadd_string", "src/builder.rs: value"]}
{"id": "C43", "title": "Records are append-only", "statement": "Reading a token never removes, reorders or changes a diagnostic, comment or magic comment that was recorded before; new ones are added at the end.", "quantifier": "for every lexer state and every call", "why_tests_cant": "Every path of the lexer would have to be driven with prior records.", "anchors": ["src/lexer/main.rs: yylex", "src/error/mod.rs: Diagnostics"]}
{"id": "C44", "title": "Semantic actions never meet a value of the wrong kind", "statement": "In every derivation of the grammar no semantic action casts a value to another variant than the one it has, reads a value that was already taken or never assigned, pops the outermost local scope, or declares into an empty stack; and every completed nonterminal has an assigned value.", "quantifier": "for every derivation of the grammar, every choice of branches and declarations in the actions and every admissible state", "why_tests_cant": "730 productions with casts by position; derivations are unbounded and a wrong position only shows on the path that uses it.", "anchors": ["src/parser/parse.y: grammar actions", "src/parse_value.rs: casts", "src/static_environment.rs: unextend", "src/max_numparam_stack.rs: register", "src/variables_stack.rs: declare"]}
{"id": "C45", "title": "Local variables stay in their scope", "statement": "Parsing a method, class, singleton class, module, lambda or block leaves the set of known local variables exactly as it was when the scope was opened; methods, classes and modules start without variables; everything else only adds variables to the current scope.", "quantifier": "for every derivation of the grammar", "why_tests_cant": "Unbounded nesting; a leak shows only when a name is reused after the scope.", "anchors": ["src/parser/parse.y: local_push, local_pop, static_env uses", "src/static_environment.rs"]}
{"id": "C46", "title": "Literals without interpolation have exactly the written value", "statement": "Reading '...', %q, %s, %w or %i in code position yields the opening token, content tokens with exactly the value that the text denotes in Ruby (escapes, nesting brackets, words), and the closing token; the tokens cover the literal without a gap and nothing is reported. Any bytes without CR LF written between single quotes with the usual escapes come back unchanged.", "quantifier": "for every lexer state outside a literal in code position, every delimiter, every text of the literal whose backslashes are followed by ASCII characters", "why_tests_cant": "Unbounded texts, nesting depth and word counts; every delimiter; interplay of escapes with brackets and separators.", "anchors": ["src/lexer/parse_string.rs: parse_string, tokadd_string, string_term", "src/lexer/parse_percent.rs: parse_percent, percent_quotation", "src/lexer/main.rs: yylex"]}
{"id": "C47", "title": "Reading a token moves the bracket bookkeeping exactly as its type says", "statement": "Reading a token that opens a parenthesis, bracket or brace pushes an inactive bit on cond and cmdarg and increases paren_nest by one; a closing token undoes exactly this; any other token leaves all three unchanged. The only exception is a [ in the place of a method name. Hence, along any parse, these fields of the lexer follow the grammar's bookkeeping, and after a completed parse the final-state assertions about them hold.", "quantifier": "for every lexer state and every source; for every completed derivation and every interleaving of reading and actions", "why_tests_cant": "Depends on every path of the lexer leaving the fields alone; nesting is unbounded; the interleaving with grammar actions depends on lookahead.", "anchors": ["src/lexer/main.rs: yylex, parser_yylex", "src/stack_state.rs", "src/parser/parse.y: assert_state_is_final, command_args"]}
{"id": "C48", "title": "Locations in the syntax tree nest", "statement": "In every syntax tree that parsing builds, the expression location of a node does not end before it begins, contains every other location of the node (keyword, operator, delimiters, name, ...) and contains the expression of every sub-node, and everything lies inside the input. Here documents are located at their opening (their text follows later), a block without a body and with numbered parameters has no body location.", "quantifier": "for every derivation of the grammar from any nonterminal, all tokens in source order with any positions and texts, every state of the parser's tables", "why_tests_cant": "About 130 node types built by 180 functions from 730 productions; each combination of optional parts has its own formula for the location.", "anchors": ["src/builder.rs", "src/parser/parse.y: grammar actions", "src/loc_ext.rs: LocExt"]}
{"id": "C49", "title": "Building the syntax tree never runs into unreachable!", "statement": "While parsing any source, no function of the builder called from a semantic action reaches an unreachable! panic: every match over node variants that ends in unreachable!, and every conversion of a semantic value, covers what the grammar can pass.", "quantifier": "for every derivation of the grammar from any nonterminal, all token texts and positions, every state of the parser's tables", "why_tests_cant": "About 40 matches with a default panic, reached through 730 productions; which node variants can arrive depends on the whole grammar.", "anchors": ["src/builder.rs: block, rewrite_hash_args_to_kwargs, logical_op, check_condition, op_assign, heredoc_dedent, ...", "src/parser/parse.y: grammar actions", "src/parse_value.rs"]}
{"id": "C50", "title": "Every field of every node holds an expected kind of node", "statement": "In every syntax tree that parsing builds, each field holds only the kinds of nodes that make sense there: the call of a block is a call, conditions have no bare ranges or regexps, the left of an assignment is an assignable without value, parameters, patterns, branches and array elements occur only in their places, expressions that need a value are not return/break/next/redo/retry, and lists documented as non-empty are not empty.", "quantifier": "for every derivation of the grammar from any nonterminal, all token texts and positions, every state of the parser's tables", "why_tests_cant": "A consumer matches on nested variants; the fields are all of type Node, so neither the type checker nor tests bound what arrives.", "anchors": ["src/builder.rs", "src/parser/parse.y: grammar actions", "src/nodes"]}
{"id": "C51", "title": "Building the syntax tree does not panic at all", "statement": "While parsing any source below 2 GiB, no function of the builder called from a semantic action panics: no failed expect, no index out of range, no subtraction below zero, no write to an empty stack of tables, no unreachable!.", "quantifier": "for every derivation of the grammar from any nonterminal, all well read tokens, every state of the parser's tables with the levels that the mid-rule actions push", "why_tests_cant": "About 60 expects, unwraps, slices and subtractions in the builder, each relying on facts about tokens and tables that only the lexer and the grammar as a whole ensure.", "anchors": ["src/builder.rs: value, check_lvar_name, arg_name_collides, nth_ref, regexp_options, pair_label, pair_quoted, keyword_cmd, ...", "src/parser/parse.y: grammar actions", "src/loc.rs: adjust_begin, adjust_end", "src/variables_stack.rs", "src/max_numparam_stack.rs"]}
{"id": "C52", "title": "A whole parse ends with an error or with one tree and all tables back where they began", "statement": "Performing the semantic actions over any program, in the parser's own initial state, with builder and actions sharing one set of tables: it never takes a semantic value of the wrong shape; it either returns an error, or gives exactly one optional node and leaves every stack, the context and the static environment in the final state that the parser asserts, or panics inside of a builder function called with arguments that occur in that program. No pop, push, cast or write of the actions themselves ever panics.", "quantifier": "for every derivation of program, all token texts and positions, every answer of the external functions", "why_tests_cant": "Pushes, pops, declarations and saved contexts of hundreds of actions interleave with builder calls over arbitrarily nested programs.", "anchors": ["src/parser/parse.y: all actions, do_parse, assert_state_is_final", "src/builder.rs", "src/static_environment.rs", "src/max_numparam_stack.rs", "src/current_arg_stack.rs", "src/variables_stack.rs", "src/context.rs"]}
{"id": "C53", "title": "A whole parse does not panic", "statement": "Performing the semantic actions over any program below 2 GiB, from the parser's own initial state, does not panic.", "quantifier": "for every derivation of program whose tokens are well read, every answer of the external functions", "why_tests_cant": "A panic anywhere aborts the caller's process; where it can happen depends on tokens, tables, and grammar together.", "anchors": ["src/parser/parse.y: all actions, do_parse", "src/builder.rs"]}
{"id": "C54", "title": "Every local variable in the tree is bound in its scope", "statement": "In the syntax tree of a program that parses, every read of a local variable (Lvar) is in a scope that has a binding of that name: an assignment, a parameter, a pattern variable or a named regexp group in the same method, class, module or program body, or in a block or lambda around it; bodies of methods, classes and modules see nothing from outside, and what a block binds is not seen after it. Every name that is declared when the parse ends is bound in the tree in the scope of the program.", "quantifier": "for every derivation of program, all token texts and positions, every answer of the external functions, every name", "why_tests_cant": "Declarations, scopes pushed and popped, and lookups are spread over hundreds of actions and builder functions; the tree and the tables are built by different code in a different order.", "anchors": ["src/static_environment.rs", "src/builder.rs: accessible, assignable, block, match_var, ...", "src/parser/parse.y: all actions", "src/nodes"]}
{"id": "C55", "title": "Tokens are what their types say", "statement": "Every token that the lexer hands to the parser fits its type: the text of names, labels, operators, keywords, numbers and variables is valid UTF-8 even when the source is not, names and labels are not empty, $1, $2, ... start with an ASCII character, a label's location includes its colon, the end of a quoted label its quote and colon, and locations of regexp ends can be moved as the builder moves them. So a panic of a whole parse, from bytes to tree, can only have one of the known causes.", "quantifier": "for every input below 2 GiB, every decoder, every run of the lexer under everything a parser may do to its state between tokens, every derivation over the tokens read", "why_tests_cant": "The builder calls unwrap() on token texts in some 100 places; whether a text is UTF-8 depends on every path of the lexer that fills the token buffer, on bytes that tests do not contain.", "anchors": ["src/lexer/main.rs: yylex, parser_yylex", "src/lexer/*.rs", "src/builder.rs: value", "src/parser/parse.y: all actions"]}
{"id": "C56", "title": "Tokens come in the order of the source, and so the locations of the tree nest in it", "statement": "Tokens are handed to the parser in the order in which they stand in the source: each lies inside of it, does not begin before an earlier token, and does not overlap it. Therefore every location in the syntax tree built from them is proper, lies inside of the source, and nests in the location of its node and of the nodes around it.", "quantifier": "for every input without here documents, every decoder, every run of the lexer under everything the actions do to its state between tokens, every derivation over the tokens read", "why_tests_cant": "Pushed back characters, saved lines, look-ahead over newlines and literals interrupted by interpolations move the cursor back and forth; whether two tokens can overlap depends on all of these together.", "anchors": ["src/lexer/main.rs: yylex, parser_yylex", "src/lexer/buffer.rs: nextc, pushback, goto_eol, nextline", "src/lexer/*.rs", "src/loc.rs", "src/builder.rs"]}
{"id": "C57", "title": "Methods define no classes or modules and assign no constants", "statement": "In the syntax tree of a program that parses, the parameters and the body of a method (def m, def self.m) contain no class definition, no module definition and no assignment of a constant, however deeply nested in blocks, lambdas, conditions, patterns or literals; only the body of a singleton class inside of the method may have them. A program that would need such a tree is refused.", "quantifier": "for every derivation of every nonterminal, every state of the parser, all token texts and positions, every answer of the external functions", "why_tests_cant": "Whether the parser is in a method is one flag that is saved, set, cleared and restored by mid-rule actions in a dozen rules; a missing restore in any nesting makes the tree wrong without an error.", "anchors": ["src/parser/parse.y: cpath, defn_head, defs_head, class, module, sclass rules, op-assign rules", "src/context.rs", "src/builder.rs: assignable, const_op_assignable, def_class, def_module, def_method, def_singleton"]}
{"id": "C58", "title": "Escape sequences denote the bytes that Ruby's manual says", "statement": "A literal with escape sequences (\"...\", %Q, %x, %, backticks) and without interpolation is read as its opening token, one content token whose value is exactly the bytes that its text denotes (none if the text is empty), and its end; the cursor is after the literal and no diagnostic is reported. Every byte string can be written as such a literal and is read back.", "quantifier": "for every text with any sequence of valid escapes, every delimiter, anywhere in a source, after any run of the lexer", "why_tests_cant": "The value depends on unboundedly many combinations of numeric escapes, what follows them, nested meta and control prefixes, code point lists, brackets and bytes that are not UTF-8.", "anchors": ["src/lexer/parse_string.rs: parse_string, tokadd_string, read_escape, tokadd_utf8, tokadd_codepoint, scan_oct, tok_hex, scan_hex", "src/lexer/parse_percent.rs: percent_quotation", "src/lexer/main.rs: yylex"]}
{"id": "C59", "title": "Operators and punctuation are read by the longest match", "statement": "After an operand, after a name that may be a command, where an operand is expected, and where the name of a method is expected, the text of an operator is read as the one token that the table of operators gives for it, provided that no longer operator stands there: the token has the type of the table (binary, unary, splat, ...), its value is its text, it covers exactly its text, the cursor is behind it, and the state of the lexer is the one for what follows (operand, method name, operator). Nothing but warnings is reported.", "quantifier": "for every source, every run of the lexer up to there, every operator of the tables, any blanks before and any text behind it", "why_tests_cant": "Each operator is read by its own hand-written code with look-ahead and pushed back characters; whether the look-ahead is taken back depends on what follows, also at the end of a line or of the source.", "anchors": ["src/lexer/main.rs: parser_yylex", "src/lexer/parse_percent.rs: parse_percent", "src/lexer/parse_qmark.rs: parse_qmark", "src/source/buffer.rs: nextc, pushback"]}
{"id": "C60", "title": "Names and keywords are read whole and classified", "statement": "Where a name stands in the source, after blanks, the next token is the whole name with its mark (! or ?, or = in the name of a setter that is defined), and nothing is reported. It is a label if a label can stand there and a single colon follows; after a dot it is never a keyword; elsewhere a keyword gets the token of the keyword table, the modifier where no expression can start, and do the token of its construct; every other name is a constant if its first character is upper-case, the name of a method if it has a mark, an identifier otherwise. A name that is a declared local variable is recognized as such. The token's value is the text, it covers exactly the text (a label also its colon), the rest of the source follows, and the state of the lexer is determined.", "quantifier": "for every source, every run of the lexer up to there, every name of any length over any characters (ASCII and not), any blanks before and any text behind it", "why_tests_cant": "Names are unbounded and may have characters of one to four bytes; the kind depends on the lexer state, the declared variables, the paren and brace bookkeeping and up to three characters of look-ahead that are taken back, also at the end of a line or of the source.", "anchors": ["src/lexer/parse_ident.rs: parse_ident, is_var_name", "src/lexer/main.rs: parser_yylex, tokadd_mbchar, multibyte_char_len, is_label_suffix, is_lvar_defined", "src/reserved_words/mod.rs", "codegen/rust/reserved_words.rs"]}
{"id": "C61", "title": "Instance, class and global variables are read whole, and malformed ones are reported", "statement": "Where a variable stands in the source, after blanks, the next token is the whole variable: @name, @@name, $name, a special global ($~ $* $$ $? ...), an option variable ($-w), a back-reference ($& $` $' $+, a plain global in the list of an alias) or a group of a match ($1, $12, ...). The token's type is that of the variable, its value is its text, it covers exactly its text, the rest of the source follows, an operator is expected next, and nothing is reported. What begins like a variable but has no name or a name that begins with a digit is reported as an error.", "quantifier": "for every source, every run of the lexer up to there, every name of any length over any characters (ASCII and not), any blanks before and any text behind it", "why_tests_cant": "Names are unbounded and may have characters of one to four bytes; where they end depends on look-ahead that is taken back, also at the end of a line or of the source; the rare punctuation globals are hardly ever tested in all states.", "anchors": ["src/lexer/parse_atmark.rs: parse_atmark", "src/lexer/parse_gvar.rs: parse_gvar", "src/lexer/main.rs: parser_yylex, tokadd_ident, tokadd_mbchar, is_identchar"]}
{"id": "C62", "title": "Lines of code are split into exactly their tokens", "statement": "If the rest of the source is lines of code - numbers, names, keywords, instance, class and global variables, string literals in quotes, symbols, labels, definitions, operators and punctuation, separated by blanks where they need to be, each where it may stand - then reading tokens until the end of the source gives exactly the tokens of the lines, in order: none is lost, invented, split or joined with its neighbour, each has the type for the place where it stands (unary or binary, keyword or modifier, variable or command), its text as value and its position. The end of a line is a token of its own after an operand, unless the next line starts with the call of a method, and is skipped where an operand or a name is missing, and before a line with a comment only. Comments give no tokens. A string literal is its opening quote, its contents if there are any, and its closing quote; a symbol is its colon and its name; a label, after a command, a comma or the parenthesis of a call, is one token that includes its colon. The name in a symbol and after def is never a modifier, and includes the equals sign of a setter. Nothing but warnings is reported. In particular this holds for a whole source that consists of such lines.", "quantifier": "for any number of lines of any length, any numbers, names, operators and blanks in it, any run of the lexer before it, every set of declared variables", "why_tests_cant": "The state in which one token leaves the lexer decides how the next one is read; lines have any length, so that sequences of tokens cannot be tested exhaustively.", "anchors": ["src/lexer/main.rs: tokenize_until_eof, yylex, parser_yylex", "src/lexer/parse_ident.rs", "src/lexer/parse_numeric.rs", "src/lexer/parse_gvar.rs", "src/lexer/parse_atmark.rs", "src/lexer/parse_string.rs", "src/lex_state.rs"]}
