# Formal model of lib-ruby-parser: design

Source under study: `/repo` (lib-ruby-parser, Rust), read as text. Tool: Lean 4.33.0 with single Mathlib
modules. Model: `lean/Verif/Model/*`, independent specifications: `lean/Verif/Spec/*`, property theorems:
`lean/Verif/Props/*` (helper lemmas in `lean/Verif/Lemmas/*`).

## Conventions

* Bytes are `UInt8`, byte arrays `List UInt8`. Offsets (`usize`) are `Nat`: **arithmetic overflow above
  2^64 is not modelled** (inputs longer than memory), but *underflow* and out of range indexing are:
  every function that can panic returns an explicit error value (`Except Panic`/`none`) at the panic point.
* `&mut self` becomes "return the new value"; `Rc<RefCell<..>>` sharing becomes one field of the shared state.
* Loops become structural or fuel recursion; running out of fuel is a separate error value and it is a
  theorem that it cannot happen (this *is* the termination proof).
* User-supplied functions (`Decoder`) are parameters: theorems quantify over all of them.
* `println!` debugging, `Debug` impls, the object pool (`alloc-from-pool`) and the external crates
  (`lib-ruby-parser-ast`, `onig`, bison skeleton) are not modelled; what is assumed about them is listed
  under "Trusted base".

## Plan per property

| id | modelled | method |
|----|----------|--------|
| C01 | `update_bytes` loop, `SourceLine` | loop invariant, list induction against spec "split after LF" |
| C02, C03 | `line_col_for_pos` | induction over lines, spec counts LF in a prefix |
| C04, C05 | `LocExt` | from C01/C02; UTF-8 lossy decoding modelled as function on bytes |
| C06 | `Diagnostic::render` | structured output + rendered text; `Loc::size` underflow is an explicit panic |
| C07 | `Loc::join` (from the documented copy in `loc_ext.rs`), join helpers | order lemmas |
| C08 | `Comment::new` | decision logic |
| C09, C10 | `decode_input`, `set_encoding`; decoder is a parameter returning result + call log | case analysis; C10 is false in the code: negation with witness + partial |
| C11 | `StackState` on `BitVec 64` | refinement to a list of bits truncated at 64 |
| C12, C13 | `StaticEnvironment` | refinement to a scope-chain spec, induction on histories; C13 false: witness + partial |
| C14 | `Context` as bit set | bit lemmas, finite case split lifted |
| C15, C16, C17 | the three stacks | refinement to lists, induction on histories |
| C18 | bucketed table + binary search | invariant of binary search over sorted table; table from codegen |
| C19, C20, C21 | `Buffer` and the whole lexer as a state machine with panic/fuel errors | global invariant + measure, preserved by each function |
| C22, C23 | comment branches, magic comment scanner | part of the lexer invariant |
| C24 | `Buffer` | case analysis on position invariant |
| C25 | EOF branch | state predicate preserved by yylex |
| C26, C27 | `tokaddmbc`, `scan_oct/hex`, `tokadd_codepoint` | arithmetic on code points; induction on digits |
| C28 | `parse_numeric` | loop invariants relating token buffer to source slice; completeness from a grammar of literals, soundness by partial correctness from every driven state |
| C29 | parser driver abstracted over an arbitrary token consumer | simulation between two runs |
| C30, C31 | `dedent_string`, `heredoc_dedent` | C30: code deviates (tab rule); witness + partial |
| C32-C40 | builder functions over an AST model | induction on ASTs/lists |
| C42 | `tokadd_string` | witness for the exception, partial |
| C46 | `parse_string`, `tokadd_string`, `percent_quotation` | grammar-like specification of values (`Spec/Quoted`), simulation of the reading loop; token sequences by induction on words |
| C43 | every lexer function | compositional predicate `Grows`, one lemma per function |
| C47 | `yylex` and everything below it; `Bits` | one lemma per lexer function (leaves the fields alone, gives no bracket), the bracket branches by cases, the retry loop by induction; sessions of reading and actions |
| C41, C44, C45 | grammar productions with the casts, stack operations and flag changes of their actions | summaries per nonterminal, finite per-rule check against them, lifted to all derivation trees by induction |
| C48 | what each production gives to `$$`, through the builder model | specification of nesting on the tree alone (`Spec/Located`); one lemma per builder function (arguments one after the other give a result in their place); a typed left-to-right check of all 730 productions; induction on derivation trees |
| C49 | the calls made in actions; builder model | `Safe`: no `unreachable!`, and kinds of the result; one lemma per builder function; a table of the kinds of nodes in the values of all nonterminals, checked against all 730 productions by the kernel; induction on derivations |
| C50 | as C49 | specification of the kinds allowed at each field on the tree alone (`Spec/Shape`); the same lemmas and the same table |
| C51 | the calls made in actions; builder model | `Calm`: no panic but `unreachable!`, the tables keep a level; one lemma per builder function; a table of what is known of the tokens in the values of all nonterminals, checked against all 730 productions by the kernel; then C49 |
| C52 | all actions with one set of tables (`Model/Grammar/Parse`) | per builder function: which stacks it may write and the shape of its value; per production a kernel check of levels and shapes; induction on derivations with the invariant that levels move by the summary of the nonterminal |
| C53 | as C52 | C52 gives a builder call in a state where the tables have their levels; C51 for that call |
| C54 | as C52 | specification of scopes on the tree alone (`Spec/Scope`: what binds, what mentions, which parts see what is outside); per builder function what it binds, mentions and declares; an abstract run of every production (`ScopeTable`: for each level of the tables, which parts of which `$n` may have been declared in it), checked against all 730 productions by the kernel; soundness of that run over the model of the actions; induction on derivations |
| C55 | the whole lexer model (`parser_yylex` and below) | `Spec/WellRead` (over `Spec/Words`: which types have a word as value); partial correctness of every function of the lexer with a condition on the returned token (`Lemmas/Read*`); the pending literals of `lval` and of the heredoc state carry their own condition; induction on runs; then C53 |
| C56 | as C55; runs as in `Model/Paced` | `Spec/Order` on tokens alone; the lemmas about total correctness of the lexer functions carry a lower bound of the token start and that lines are read one after the other (`Straight`); `front` is the position that no later token precedes; induction on runs; then C48 through `placed_of_order` |
| C57 | as C52 | `Spec/Inside` on the tree alone (what is forbidden, which parts belong to a method); a level for every value of every production (`MethodCheck`: nothing forbidden in it, a target with a scope, a target, anything) depending on whether the flag `in_def` is known to be set at that point, checked against all 730 productions by the kernel; soundness over the model of the actions; induction on derivations |
| C58 | `parse_string`, `tokadd_string`, `read_escape`, `tokadd_utf8`, `scan_oct`, `tok_hex`, `percent_quotation` | `Spec/Escapes`: which text denotes which bytes, as a grammar (numbers, letters, `\M-` and `\C-`, code points, joined lines, brackets); each reading function evaluated on text with such a derivation (`Lemmas/LexDenotes`), induction on the text; `dump` writes any bytes as a literal and is read back |
| C59 | `parser_yylex`: the branches of operators and punctuation, `parse_percent`, `parse_qmark` | `Spec/Operators`: tables of text, token and what follows; for each operator the branch is run on its text followed by any text that does not continue it, where a character that was read ahead is put back (`Lemmas/LexInfix`); the tables are dispatched over the main loop (`Lemmas/LexOpTable`); after a name that may be a command the branches that start an argument are excluded by the spaces around the operator; names of methods have their own table (`Lemmas/LexOpName`) |
| C60 | `parse_ident`, `tokadd_mbchar`, `multibyte_char_len`, `is_identchar`, `is_label_suffix`, the dispatch to names in `parser_yylex` | `Spec/Names`: what is a name, where it ends, the table of keywords, kinds and states; the loop over the characters is run by induction over the code points, the suffix and label look-ahead by the text that follows, keywords by C18; `__END__` is kept apart by the whole-line test (`Lemmas/LexWord`) |
| C61 | `parse_atmark`, `parse_gvar`, `tokadd_ident`, `tokadd_mbchar`, the dispatch to them in `parser_yylex` | `Spec/Variables`: the kinds of variables, where they end, and the malformed ones; the names are read by the loop lemmas of C60, the groups of a match by induction over the digits, `$-` by the two characters that are pushed back (`Lemmas/LexVars`) |
| C62 | `tokenize_until_eof`, and everything of C23, C59, C60, C61 | `Spec/Lines`: an inductive definition of lines as sequences of tokens, each with what is expected after it; induction over it, every step is the theorem of one kind of tokens, and its state is the state that the next one needs; `Lemmas/LexGap`, `Lemmas/LexRemark`: line ends and comments that are skipped (a comment without a colon records nothing but itself); `Lemmas/LexNl`, `Lemmas/LexLead`: line ends that are tokens, the look-ahead to the next line and its undoing; `Lemmas/LexFixed`: tokens leave the context and the declared variables alone; `Lemmas/LexChain`: numbers in terms of the text that follows; `Lemmas/LexStr`: the three tokens of a literal in quotes, with exact positions; `Lemmas/LexSym`: the colon of a symbol, names in definitions, parentheses that follow directly, labels and the operators before them |

## Trusted base

* Lean kernel 4.33.0; axioms used by theorems: only `propext`, `Classical.choice`, `Quot.sound`
  (checked with `#print axioms`). No own axioms, no `sorry`, no `native_decide`/`bv_decide`.
* The hand translation from Rust to Lean; each definition cites file and lines. `Model/Tokens.lean` (token names and numbers) and the
  reserved-word table are generated from `/repo` by script and then only read.
* `std` functions on characters that the lexer uses for names (`char::to_uppercase`, `char::is_uppercase`) are parameters
  (`Ext`); theorems quantify over all of them.
* `Loc::join`, `Loc::adjust_end` etc. live in the external crate `lib-ruby-parser-ast`; they are modelled from the documented
  copies and uses in `/repo`.

### What is modelled

| file in /repo/src | model | remarks |
|---|---|---|
| source/*.rs, loc_ext.rs, error/diagnostic.rs | Model/Source, Buffer, Report, Decoder | complete except `Debug`/printing |
| stack_state.rs, static_environment.rs, current_arg_stack.rs, max_numparam_stack.rs, variables_stack.rs, context.rs, lex_state.rs | Model/Stacks, Context, ... | complete |
| reserved_words/* | Model/ReservedWords | table and search |
| lexer/*.rs | Model/Lexer/* | complete; see below |
| error/message.rs | Model/Report | the messages the modelled code emits, without their texts |
| parser/parse.y | Model/Grammar/Table, Run | all 730 productions; of the actions: casts, bookkeeping operations, kind of the result; see below |
| parser/parse.y | Model/Driver | token reading and recording; what actions may do to the lexer (`Between`) |
| builder.rs, builder/*.rs | Model/Ast, Model/Builder/Core, Model/Builder/Build | every function that builds or checks nodes; see below |

Lexer: `debug-lexer` output and the token pool are left out. `paren_nest`, `brace_nest`, `lpar_beg` (`i32`) and heredoc indents are
unbounded integers. `Loc::adjust_end` converts to `i32`, which would panic for positions above 2^31: theorems about whole runs
assume inputs below 2 GiB.

Builder: `Model/Ast.lean` (the node type; the real one is in the external crate `lib-ruby-parser-ast`) is generated by script from the
constructor calls in builder.rs and the documentation of the crate's fields. A builder function is a state monad over the parts of the
parser state it shares (`BState`: static environment, context, current argument, numbered parameters, pattern variables and keys,
diagnostics) with an explicit panic; `Result<_, ()>` is one more exception layer. `char::is_lowercase`, `char::is_alphanumeric` and the
`onig` check of static regexps (optional feature) are parameters (`BldExt`). Texts are lists of code points; `String::from_utf8` failure
in `value()` is a panic. Boxes and the fields that only carry ownership are left out.

The grammar (a generated LALR automaton in the real code) is replaced by an arbitrary sequence of lexer calls and lexer changes of the
kinds its actions can make (`Driven`, `Between`), so whole-run theorems hold for whatever the real automaton does.

Grammar: `Model/Grammar/Table.lean` is generated from parse.y by the scripts in `tools/grammar` (`write_table.py`; they stop on any use of
the bookkeeping fields they do not recognise). An action keeps its casts `$<K>N`, its operations on the shared stacks, the context and
`cond`/`cmdarg` (all in textual order; the only operations inside a conditional are the two lookahead cases of `command_args`, which
have their own constructors), the kinds it may assign to `$$`, and which stacks the builder functions it calls may declare into (from
the call graph of builder.rs). Whether an action returns `Err`, which assignment it takes and what it declares is a parameter (`World`).
Not modelled: the LALR tables (a parse is any derivation tree), when the lookahead token is read (any interleaving of token reading with
actions), bison's error recovery and `error` productions, the nodes the actions build. Trusted: the actions of a completed parse run
in postorder. The summaries in `Lemmas/GrammarSummary.lean` are also generated (`write_summ.py`) but only claims; every production is
checked against them by the kernel. The reading of brackets (`Bits.read`) describes the lexer: tokens `( [ {` of all kinds push,
`) ] }` pop; C47 proves this of the lexer model, with one exception (a `[` in the place of a method name, which no production has).

Values: `Model/Grammar/Outs.lean` says for every production which builder functions its last action calls on which `$n` to make `$$`
(written by hand as `tools/values/dsl.py`, one entry per distinct action, cross-checked against parse.y by `tools/values/chk.py`: the
`$n` used and the names of the builder functions called; the line of every entry is compared with the table by the kernel).
`Model/Grammar/Values.lean` has the functions an action can call (`BFn`, each with a fixed list of argument types) and the pieces of
actions that are not in builder.rs. A derivation tree over tokens has a value by the relation `Evals`: every call is made in an arbitrary
state of the tables and with an arbitrary heredoc indent (so the relation allows more than the code does), checks that only report or
refuse are left out where they do not change the value, `TTree.eval` computes one such value. The value of `program` is `self.result`.

Whole parses: `Model/Grammar/Parse.lean` performs actions and builder calls over one set of tables. What the other two tables leave open
(what actions write themselves, when they return `Err`, whether stack operations come before or after the builder calls) is the
hand-written list `extras`, by line of parse.y. Order: guards, writes, then operations and `$$` in the order given by `opsLast`; actions
in which more than that matters were looked at one by one (4104 is the only one with operations between two calls; the second does
not look at the tables). Diagnostics emitted by actions themselves are left out. The width by which here documents are dedented
(the lexer's `heredoc_indent` at that moment) is an arbitrary function `dedent` of the arguments.

## Disagreements between the code and the claims

Proved as theorems (negations with witness):

* C10 (`C10_violated`): a failed re-encoding leaves the input empty, so the error cannot be rendered.
* C11 (`C11_limit_64`): the `cond`/`cmdarg` stacks forget what was pushed more than 64 levels ago.
* C13 (`C13_violated`): the two marker names of forwarded arguments can be confused with variables.
* C20 (`C20_shrinking_decoder_panics`): a decoder whose result is shorter than the source makes the lexer index out of bounds,
  because the reading positions are kept.
* C21 (`C21_negation`): the `tSTRING_END` after an unterminated heredoc has begin > end; a heredoc content ending in
  backslash-newline at the end of input ends one past the input.
* C22 (`C22_negation_order`): comments of a heredoc body's code are recorded before the comment on the heredoc's first line.
* C23 (`C23_negation_case`): keys are compared case-sensitively (Ruby ignores case).
* C25 (`C25_nul_not_sticky`): after a NUL/^D/^Z the end of input is returned once; a further call would continue.
* C62 (`C62_trailing_blanks`): the token of a line end after which only blanks follow up to the end of the source is reported at the last blank.
* C62 (`C62_trailing_comment`): a source that ends with a comment and without a line end gives a token of a line end, reported at the last character of the comment.

* C28 (`C28_negation`): the sign of a literal with a base prefix gets into the middle of its value (`+0x1F` has the value
  `0+x1F`, `+017` has `0+17`); an `e` at the end of the input is covered by the token `1e` but is not part of its value.
  `C28_values_partial` shows that there are no other exceptions.
* C30 (`C30_negation`, `C30_negation_keeps`): `dedent_string` compares the column after a tab with 8 instead of the width.
* C32 (`C32_negation`): `def m(é, é)` panics: `&name[0..1]` cuts a multi-byte character.
* C42 (`C42_negation`): `'\é'` in single quotes gives the bytes 5C C3 5C C3 A9, which is not UTF-8; `%qéaé` takes the byte C3 for the
  delimiter, so the content starts inside a character.
* C48 (`C48_when_begin_outside`): the expression of a `when`/`in` branch without a body ends before its `begin_l` (`when 2 then`).
* C49 (`C49_do_after_braces_panics`): `foo 1, if x; bar (a) {} do end; end`. Inside the arguments of `foo` the top of `cmdarg` stays
  set (`if`, `case`, `for` do not push), so the lexer reads `do` as `kDO_BLOCK`; `block_call: command do_block` then gives a second
  block to `bar (a) {}` and `Builder::block` reaches its `unreachable!`. The witness is a derivation; that the lexer delivers these
  tokens was read off `src/lexer/parse_ident.rs:78-90` and `src/parser/parse.y` (`command_args`).
* C50 (`C50_block_over_number`): `foo 1, if x; return 1 do end; end` gives a `Block` whose `call` is the number 1
  (`Builder::block` rewrites the first argument of `return` whatever it is).
* C50: `foo 1, if x; return yield 1 do end; end` gives a `Block` over `Yield`; the error `BlockGivenToYield` is reported only for a
  `yield` that is not inside a jump. `Spec/Shape` allows it.
* C51 (`C51_empty_key_panics`): `case 1; in {"#{''}":}; end`. `match_hash_var_from_str` looks for the key inside of `#{}`; it is
  empty, and `check_lvar_name` calls `expect("local variable name can't be empty")` (src/builder.rs:3318-3387, 3891-3896).
* C51: `Loc::adjust_begin` and `adjust_end` go through `i32`, so labels and regexps that end beyond 2 GiB panic (src/loc.rs); the
  claim is restricted to locations below that.
* C53 (`C53_programs_that_panic`): the three kinds of panics left (C49, C51, C32) are reached by whole programs from the initial state:
  `foo 1, if x; bar (a) {} do end; end`, `case 1; in {"#{''}":}; end`, `def m(é, é); end`.
* C54 (`C54_not_for_all_programs`): `m { |a| _1; a }` reports `OrdinaryParamDefined`, but `try_declare_numparam` registers the
  number all the same (src/builder.rs:4238-4285), so the block becomes a `Numblock` without its parameters, and the tree has an `Lvar` bound nowhere.
* C54: `return 1, (x = 2) do end; x` gives no error. The block is attached to the first argument and the jump is rebuilt with only
  that (`rewrite_args_and_loc`, src/builder.rs:2108-2145): `(x = 2)` is not in the tree, but `x` is declared and read as a variable.
* C55 (`C55_negation_carriage_return`): after `"b\xff"` a lone `\r` followed by `a:` gives a `tLABEL` with the value `b\xff\ra`:
  `\r` falls into `parse_ident` without `newtok`, so the text of the previous token is still in the buffer (src/lexer/main.rs:220-228). The
  value is not UTF-8, and in `def m(x = "b\xff", \ra: 1); end` the action for `a: 1` panics in `value` (`into_string().unwrap()`,
  src/builder.rs:4300-4302). All other names and operators are UTF-8 whatever the source is.
* C56 (`C56_negation_regexp`): the end of an unterminated regular expression is an empty token, and `regexp_options` moves its begin by
  one (src/builder.rs:560-580): for `/a` the options are located at 3..2 in a source of two bytes. An error is reported as well.
* C56 (`C56_negation_last_newline`): after the newline token of the last line the cursor is not advanced over the line end, so a
  parser that sets the lexer state to that of the end of an expression gets it again.
* C57 (`C57_not_for_scoped_targets`): `def m; ::A ||= 1; end` and `def m; A::B += 1; end` are accepted without a diagnostic, although
  they assign a constant in a method (MRI: dynamic constant assignment). The actions call `const_op_assignable` (src/builder.rs:1308-1329),
  which has no check of `in_def`; `A ||= 1` and `::A = 1` go through `assignable`, which has one.
* C58 (`C58_negation`): `"\8"` and `"\9"` denote a NUL and the digit, in Ruby the digit alone. `read_escape` counts 8 and 9 among the
  octal digits (src/lexer/parse_string.rs:664-672) and `scan_oct` then finds none.
* C59 (`C59_not_for_at_names`): `def !@` and `:~@` name the methods `!@` and `~@`; in Ruby they are other ways to write `!` and `~`. The tokens
  `tBANG` and `tTILDE` take the raw text as value (src/lexer/main.rs:377-395, 926-938).
* C61 (`C61_dash`): `$-` before something that is no name character is no error (Ruby: a syntax error):
  `parse_gvar` pushes two characters back and returns `tCHAR` with the value `"$"`, so `$- 1` is accepted as `"$" - 1`.

Observed while translating (not, or not yet, stated as theorems):

* `m { |a = _1| }`-like blocks with numbered parameters and no body get a placeholder body `nil` located at 0..0, outside the block
  (exempted in `Spec/Located`).
* `def` inside of a block does not reset `in_block`, so in `proc { def m; _1; end }` the method body declares `_1`.
* `...` and anonymous `&` are ordinary names in the static environment.
* `1.` at the end of input: the `.` is dropped silently.
* `0o`/`0b`/... without digits consumes the following character, even a line feed.
* A source with a BOM shifts the recorded position of the first line's heredoc identifier by three bytes.
* Heredoc content tokens overlap the following `tSTRING_DBEG`; a second heredoc on the same line has an overlapping location.
* In regexps `/\cA/` gives `\x1` followed by NUL; `\8` gives NUL in strings.
* A comment that is not valid UTF-8 and looks like `name: value` ends the input silently.
* `is_whole_match` skips white space across the line end; `warn_space_char` prints a decimal number;
  the warning condition for `&` is inverted.
* `foo # c`: the `tNL` sits on the last character of the comment.
* Locations of diagnostics for unicode escapes may exceed the input.
* `check_lvar_name` panics on an empty name; `heredoc_dedent` and `collection_map` have `unreachable!` arms that depend on the caller.
* `void_value` reports the whole `if` branch, not the jump inside it.
* Two regexp hash keys with the same options are never reported as duplicates: options are compared including their location.
