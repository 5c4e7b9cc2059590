import Verif.Model.Lexer.Main
/-!
The side of the parser that touches the lexer (`src/parser/parse.y`). The grammar itself is not modelled here: between two
tokens it may do anything its actions are able to do to the lexer, see `Between`.
-/
namespace Verif

/-- What the actions of the grammar can change between two calls of `yylex`. All assignments to `self.yylexer.…` in
src/parser/parse.y are of these forms: `buffer.heredoc_indent` (5554, 5568, 5777, 5786) and `buffer.heredoc_line_indent` (5787);
`strterm`, which is only *moved* to the parser stack (5750, 5765) and back (5755, 5783) — `held` are the literals on the parser
stack; and `lex_state`, `command_start`, `cond`, `cmdarg`, `brace_nest`, `paren_nest`, `lpar_beg`, the static environment, the
context and the diagnostics, which are unconstrained here. -/
structure Between (s : Lexer) (held : List StrTerm) (s' : Lexer) (held' : List StrTerm) : Prop where
  buffer : ∃ i l, s'.buffer = { s.buffer with heredocIndent := i, heredocLineIndent := l }
  lvalStart : s'.lvalStart = s.lvalStart
  lvalEnd : s'.lvalEnd = s.lvalEnd
  comments : s'.comments = s.comments
  magicComments : s'.magicComments = s.magicComments
  literals : ∃ l : List StrTerm, l.Perm (s'.strterm.toList ++ held') ∧ l.Sublist (s.strterm.toList ++ held)

/-- The states in which the parser may call `yylex`, with the tokens it was given so far. It stops asking after the end of input. -/
inductive Driven (x : Ext) (s0 : Lexer) : List Token → Lexer → List StrTerm → Prop where
  | start : Driven x s0 [] s0 []
  | token {ts s held t s'} : Driven x s0 ts s held → Lexer.yylex x s = .ok (t, s') → t.tokenType ≠ .END_OF_INPUT →
      Driven x s0 (ts ++ [t]) s' held
  | action {ts s held s' held'} : Driven x s0 ts s held → Between s held s' held' → Driven x s0 ts s' held'

/-- The part of `Parser` that deals with tokens (src/parser/parse.y:35-50). -/
structure Parser where
  lexer : Lexer
  tokens : List Token := []
  recordTokens : Bool
  lastTokenType : Option Tok := none

/-- src/parser/parse.y:7012-7023 `next_token`. -/
def Parser.nextToken (x : Ext) (p : Parser) : Res (Token × Parser) := do
  let (token, lexer) ← Lexer.yylex x p.lexer
  let p := { p with lexer := lexer, lastTokenType := some token.tokenType }
  if p.recordTokens then return (token, { p with tokens := p.tokens ++ [token] }) else return (token, p)

/-- src/parser/parse.y:6900-6962 `new`, the part above. -/
def Parser.new (name : String) (bytes : Bytes) (decoder : Option DecoderFn) (recordTokens : Bool) : Res Parser := do
  return { lexer := ← Lexer.new name bytes decoder, recordTokens := recordTokens }

/-- The parser as a consumer of tokens: `acts` is what the grammar actions do to the lexer after a given sequence of tokens, `none`
if the parser gives up. They see the last token type, but no action reads `tokens` or `record_tokens`. -/
def Parser.consume (x : Ext) (acts : List Token → Option Tok → Lexer → Option Lexer) :
    (fuel : Nat) → (seen : List Token) → Parser → Res (List Token × Parser)
  | 0, _, _ => .error .fuel
  | n + 1, seen, p => do
    let (t, p) ← p.nextToken x
    let seen := seen ++ [t]
    if t.tokenType = .END_OF_INPUT then return (seen, p)
    else match acts seen p.lastTokenType p.lexer with
      | none => return (seen, p)
      | some l => Parser.consume x acts n seen { p with lexer := l }

end Verif
