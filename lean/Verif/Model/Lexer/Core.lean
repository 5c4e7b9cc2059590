import Verif.Model.Buffer
import Verif.Model.ReservedWords
import Verif.Model.Stacks
import Verif.Model.Context
/-!
Lexer state and the helpers of `src/lexer/main.rs`, `src/lexer/yylval.rs`, `src/lexer/tokadd.rs`, `src/str_term.rs`,
`src/token_buf.rs`.

* `debug-lexer` printing is left out; `tokens_factory` (a pool allocator) is left out.
* `tokenbuf : TokenBuf` is its byte list.
* `paren_nest`, `lpar_beg`, `brace_nest` (`i32`) are `Int` (an overflow needs more than 2^31 brackets).
* Loops that read characters get a step budget (`Lexer.fuel`); running out of it is the error `Panic.fuel`, which the
  theorems exclude.
-/
namespace Verif

/-! src/str_term.rs:2-29 `str_types`. -/
/-- src/str_term.rs:2. -/
def STR_FUNC_ESCAPE : Nat := 0x01
/-- src/str_term.rs:3. -/
def STR_FUNC_EXPAND : Nat := 0x02
/-- src/str_term.rs:4. -/
def STR_FUNC_REGEXP : Nat := 0x04
/-- src/str_term.rs:5. -/
def STR_FUNC_QWORDS : Nat := 0x08
/-- src/str_term.rs:6. -/
def STR_FUNC_SYMBOL : Nat := 0x10
/-- src/str_term.rs:7. -/
def STR_FUNC_INDENT : Nat := 0x20
/-- src/str_term.rs:8. -/
def STR_FUNC_LABEL : Nat := 0x40
/-- src/str_term.rs:9. -/
def STR_FUNC_LIST : Nat := 0x4000
/-- src/str_term.rs:10. -/
def STR_FUNC_TERM : Nat := 0x8000
/-- src/str_term.rs:13. -/
def str_label : Nat := STR_FUNC_LABEL
/-- src/str_term.rs:15. -/
def str_squote : Nat := 0
/-- src/str_term.rs:17. -/
def str_dquote : Nat := STR_FUNC_EXPAND
/-- src/str_term.rs:19. -/
def str_xquote : Nat := STR_FUNC_EXPAND
/-- src/str_term.rs:21. -/
def str_regexp : Nat := STR_FUNC_REGEXP ||| STR_FUNC_ESCAPE ||| STR_FUNC_EXPAND
/-- src/str_term.rs:23. -/
def str_sword : Nat := STR_FUNC_QWORDS ||| STR_FUNC_LIST
/-- src/str_term.rs:25. -/
def str_dword : Nat := STR_FUNC_QWORDS ||| STR_FUNC_EXPAND ||| STR_FUNC_LIST
/-- src/str_term.rs:27. -/
def str_ssym : Nat := STR_FUNC_SYMBOL
/-- src/str_term.rs:29. -/
def str_dsym : Nat := STR_FUNC_SYMBOL ||| STR_FUNC_EXPAND

/-- `(func & mask) != 0`. -/
def hasF (func mask : Nat) : Bool := (func &&& mask) != 0

/-- src/str_term.rs:33-37 `HeredocEnd`. -/
structure HeredocEnd where
  start : Nat
  stop : Nat
  value : Bytes
deriving DecidableEq, Repr

/-- src/str_term.rs:40-47 `StringLiteral`. -/
structure StringLiteral where
  nest : Nat
  func : Nat
  paren : Option UInt8
  term : UInt8
  heredocEnd : Option HeredocEnd
deriving DecidableEq, Repr

/-- src/str_term.rs:68-76 `HeredocLiteral`. -/
structure HeredocLiteral where
  lastline : Nat
  offset : Nat
  sourceline : Nat
  length : Nat
  quote : Nat
  func : Nat
deriving DecidableEq, Repr

/-- src/str_term.rs:99-103 `StrTerm`. -/
inductive StrTerm where
  | string (l : StringLiteral)
  | heredoc (l : HeredocLiteral)
deriving DecidableEq, Repr

/-- The `DiagnosticMessage` variants the lexer emits. -/
inductive LexMsg where
  | SlashRAtMiddleOfLine | DStarInterpretedAsArgPrefix | StarInterpretedAsArgPrefix | EmbeddedDocumentMeetsEof
  | AmpersandInterpretedAsArgPrefix | AmbiguousRegexp | AmbiguousFirstArgument (operator : UInt8)
  | FractionAfterNumeric | NoDigitsAfterDot | TripleDotAtEol | ParenthesesIterpretedAsArglist | InvalidChar (c : UInt8)
  | AmbiguousOperator (operator interpretedAs : String) | InvalidMultibyteChar | UnterminatedHeredocId
  | UnterminatedHeredoc (heredocId : List Nat) | UnterminatedList | UnterminatedRegexp | UnterminatedString
  | UnknownRegexOptions (options : Bytes) | UnterminatedUnicodeEscape | InvalidUnicodeEscape
  | TooLargeUnicodeCodepoint | InvalidUnicodeCodepoint | MultipleCodepointAtSingleChar | InvalidEscapeCharacter
  | InvalidHexEscape | InvalidCharacterSyntax (suggestion : List Nat) | InvalidOctalDigit
  | TrailingCharInNumber (c : UInt8) | NumericLiteralWithoutDigits | UnknownTypeOfPercentString
  | UnterminatedQuotedString | EncodingErrorUtf8 (name : List Nat) | EncodingError (e : InputError)
  | GvarWithoutId | InvalidGvarName (c : UInt8) | IncompleteCharacterSyntax
  | AmbiguousTernaryOperator (condition : List Nat) | IvarWithoutId | CvarWithoutId | InvalidIvarName (c : UInt8)
  | InvalidCvarName (c : UInt8)
deriving DecidableEq, Repr

/-- src/error/diagnostic.rs:11-20 with a structured message. -/
structure LexDiag where
  level : ErrorLevel
  message : LexMsg
  loc : Loc
deriving DecidableEq, Repr

/-- src/source/magic_comment.rs:6-18 `MagicCommentKind`. -/
inductive MagicKind where
  | encoding | frozenStringLiteral | warnIndent | shareableConstantValue
deriving DecidableEq, Repr

/-- src/source/magic_comment.rs:23-42 `MagicComment`. -/
structure MagicComment where
  kind : MagicKind
  keyL : Loc
  valueL : Loc
deriving DecidableEq, Repr

/-- src/lexer/main.rs:23-85 `Lexer`. -/
structure Lexer where
  buffer : Buffer
  lval : Option Bytes := none
  lvalStart : Option Nat := none
  lvalEnd : Option Nat := none
  strterm : Option StrTerm := none
  lexState : LexState := EXPR_BEG
  parenNest : Int := 0
  lparBeg : Int := 0
  braceNest : Int := 0
  cond : StackState := .new
  cmdarg : StackState := .new
  tokenbuf : Bytes := []
  context : Context := .empty
  commandStart : Bool := false
  tokenSeen : Bool := false
  staticEnv : StaticEnv := .new
  diagnostics : List LexDiag := []
  comments : List Comment := []
  magicComments : List MagicComment := []

/-- src/token.rs:7-18 `Token`. -/
structure Token where
  tokenType : Tok
  tokenValue : Bytes
  loc : Loc
deriving DecidableEq, Repr

/-- Functions of `std` whose tables are not modelled: `char::to_uppercase` and `char::is_uppercase`. -/
structure Ext where
  up : Nat → List Nat
  isUppercase : Nat → Bool

/-- Lexer computations: state passing, with panics. -/
abbrev LexM := StateT Lexer (Except Panic)

namespace Lexer

/-- Abort. -/
def fail (p : Panic) : LexM α := fun _ => .error p

/-- Run a read-only buffer operation. -/
def liftB (f : Buffer → Res α) : LexM α := fun s => do return (← f s.buffer, s)

/-- Read something from the buffer. -/
def getB (f : Buffer → α) : LexM α := fun s => .ok (f s.buffer, s)

/-- Change the buffer. -/
def modB (f : Buffer → Buffer) : LexM Unit := fun s => .ok ((), { s with buffer := f s.buffer })

/-- Change the state. -/
def modS (f : Lexer → Lexer) : LexM Unit := fun s => .ok ((), f s)

/-- Read something from the state. -/
def getS (f : Lexer → α) : LexM α := fun s => .ok (f s, s)

/-- Step budget for one loop that reads characters. -/
def fuel : LexM Nat := getS fun s => 64 * (s.buffer.input.decoded.bytes.length + 1)

/-- src/lexer/main.rs:168-170 `nextc`. -/
def nextc : LexM MB := fun s => do
  let (c, b) ← s.buffer.nextc
  return (c, { s with buffer := b })

/-- `self.buffer.pushback(c)` for an optional byte. -/
def pushback (c : MB) : LexM Unit := fun s => do
  let b ← s.buffer.pushback c
  return ((), { s with buffer := b })

/-- `self.buffer.pushback(b'x')`. -/
def pushbackByte : LexM Unit := fun s => do
  let b ← s.buffer.pushbackByte
  return ((), { s with buffer := b })

/-- src/lexer/main.rs:171-173 `char_at`. -/
def charAt (idx : Nat) : LexM MB := getB fun b => b.byteAt idx

/-- `self.buffer.pcur`. -/
def pcur : LexM Nat := getB (·.pcur)

/-- `self.buffer.pcur - n` (checked). -/
def pcurSub (n : Nat) : LexM Nat := liftB fun b => csub b.pcur n

/-- `self.buffer.peek(c)`. -/
def peek (c : Char) : LexM Bool := liftB fun b => b.peek (asc c)

/-- src/lexer/main.rs:174-176 `token_flush`. -/
def tokenFlush : LexM Unit := modB (·.tokenFlush)

/-- `self.buffer.set_ptok(p)`, also `literal_flush` (src/lexer/main.rs:1226-1228). -/
def setPtok (p : Nat) : LexM Unit := modB (·.setPtok p)

/-- `self.buffer.goto_eol()`. -/
def gotoEol : LexM Unit := modB (·.gotoEol)

/-- `self.lex_state`. -/
def getState : LexM LexState := getS (·.lexState)

/-- `self.lex_state.set(v)`. -/
def setState (v : Nat) : LexM Unit := modS fun s => { s with lexState := v }

/-- `self.lval = Some(v)`: src/lexer/yylval.rs:6-34 (`set_yylval_id`, `_literal`, `_num`, `_str`). -/
def setLval (v : Bytes) : LexM Unit := modS fun s => { s with lval := some v }

/-- src/lexer/yylval.rs:31-34 `set_yylval_name`. -/
def setYylvalName : LexM Unit := modS fun s => { s with lval := some s.tokenbuf }

/-- src/lexer/tokadd.rs:17-21 `tokadd(u8)`. -/
def tokadd (c : UInt8) : LexM Unit := modS fun s => { s with tokenbuf := s.tokenbuf ++ [c] }

/-- src/lexer/tokadd.rs:8-15 `tokadd(MaybeByte)`: panics on `EndOfInput`. -/
def tokaddMB (c : MB) : LexM Unit :=
  match c with
  | some c => tokadd c
  | none => fail .expect

/-- Emit a diagnostic. -/
def emit (level : ErrorLevel) (message : LexMsg) (loc : Loc) : LexM Unit :=
  modS fun s => { s with diagnostics := s.diagnostics ++ [⟨level, message, loc⟩] }

/-- src/lexer/main.rs:1096-1104 `warn`. -/
def warn (message : LexMsg) (loc : Loc) : LexM Unit := emit .warning message loc

/-- src/lexer/main.rs:1129-1137 `compile_error` and 1190-1198 `yyerror1`. -/
def compileError (message : LexMsg) (loc : Loc) : LexM Unit := emit .error message loc

/-- src/lexer/main.rs:1162-1164 `current_loc`. -/
def currentLoc : LexM Loc := getB fun b => ⟨b.ptok, b.pcur⟩

/-- `current_loc().adjust_end(-1)`. -/
def currentLocShort : LexM Loc := liftB fun b => (⟨b.ptok, b.pcur⟩ : Loc).adjustEnd (-1)

/-- src/lexer/main.rs:1186-1188 `yyerror0`. -/
def yyerror0 (message : LexMsg) : LexM Unit := do compileError message (← currentLoc)

/-- src/lexer/main.rs:1139-1153 `new_strterm`, assigned to `self.strterm`. -/
def newStrterm (func : Nat) (term : UInt8) (paren : Option UInt8) (hend : Option HeredocEnd) : LexM Unit :=
  modS fun s => { s with strterm := some (.string ⟨0, func, paren, term, hend⟩) }

/-- src/lexer/main.rs:1106-1127 `warn_balanced`. -/
def warnBalanced (t : Tok) (op syn : String) (c : MB) (spaceSeen : Bool) (lastState : LexState) : LexM Tok := do
  if !lastState.isSome (EXPR_CLASS ||| EXPR_DOT ||| EXPR_FNAME ||| EXPR_ENDFN) && (spaceSeen && !MB.isSpace c) then
    warn (.AmbiguousOperator op syn) (← currentLoc)
    return t
  else return t

/-- src/lexer/main.rs:1166-1176 `arg_ambiguous` (always `true`). -/
def argAmbiguous (c : UInt8) (loc : Loc) : LexM Unit :=
  if c = asc '/' then warn .AmbiguousRegexp loc else warn (.AmbiguousFirstArgument c) loc

/-- src/lexer/main.rs:1178-1180 `toklen`. -/
def toklen : LexM Nat := getS (·.tokenbuf.length)

/-- src/lexer/main.rs:1200-1202 `is_lambda_beginning`. -/
def isLambdaBeginning : LexM Bool := getS fun s => s.lparBeg == s.parenNest

/-- src/lexer/main.rs:1220-1224 `newtok`. -/
def newtok : LexM Unit := modS fun s =>
  { s with buffer := { s.buffer with tokidx := 0, tokline := s.buffer.rubySourceline }, tokenbuf := [] }

/-- `self.tokenbuf.take()`. -/
def takeTok : LexM Bytes := fun s => .ok (s.tokenbuf, { s with tokenbuf := [] })

/-- src/lexer/parse_ident.rs:16-21 `is_identchar`. -/
def isIdentchar : LexM Bool := liftB fun b =>
  if b.eofp then .ok false else do return b.isIdentcharAt (← csub b.pcur 1)

/-- src/lexer/parse_string.rs:768-770 `is_ascii`. -/
def isAsciiPrev : LexM Bool := liftB fun b => do return MB.isAscii (b.byteAt (← csub b.pcur 1))

/-- src/lexer/main.rs:1247-1266 `_multibyte_char_len`. -/
def multibyteLenB (b : Buffer) (ptr : Nat) : Res (Option Nat) :=
  match b.byteAt ptr with
  | none => .ok none
  | some c1 =>
    let len? := if c1 &&& 0x80 = 0 then some 1
      else if c1 &&& 0xE0 = 0xC0 then some 2
      else if c1 &&& 0xF0 = 0xE0 then some 3
      else if c1 &&& 0xF8 = 0xF0 then some 4
      else none
    match len? with
    | none => .ok none
    | some len => do
      match ← b.substrAt ptr (ptr + len) with
      | none => return none
      | some bytes => return if Utf8.valid bytes then some len else none

/-- src/lexer/main.rs:1268-1274 `multibyte_char_len`. -/
def multibyteCharLen (ptr : Nat) : LexM (Option Nat) := do
  let r ← liftB (multibyteLenB · ptr)
  if r.isNone then
    yyerror0 .InvalidMultibyteChar
    return r
  else return r

/-- src/lexer/parse_string.rs:428-434 `tokcopy`. -/
def tokcopy (n : Nat) : LexM Unit := do
  let start ← pcurSub n
  match ← liftB (fun b => b.substrAt start b.pcur) with
  | none => fail .expect
  | some substr => modS fun s => { s with tokenbuf := s.tokenbuf ++ substr }

/-- src/lexer/main.rs:1230-1245 `tokadd_mbchar`; `true` is `Ok(())`. (The early return for `EndOfInput` comes after
the length computation, as in the code.) -/
def tokaddMbchar (c : MB) : LexM Bool := do
  match ← multibyteCharLen (← pcurSub 1) with
  | none => return false
  | some len =>
    match c with
    | none => return false
    | some ch =>
      tokadd ch
      let len ← liftB fun _ => csub len 1
      modB fun b => { b with pcur := b.pcur + len }
      tokcopy len
      return true

/-- src/lexer/main.rs:1205-1214: the loop of `tokadd_ident` (also of `parse_ident`, src/lexer/parse_ident.rs:32-42): returns
`none` on a malformed character, else the first character after the identifier. -/
def identLoop : (fuel : Nat) → MB → LexM (Option MB)
  | 0, _ => fail .fuel
  | n + 1, c => do
    if !(← tokaddMbchar c) then return none
    else
      let c ← nextc
      if !(← isIdentchar) then return some c
      else identLoop n c

/-- src/lexer/main.rs:1204-1218 `tokadd_ident`; `true` means failure. -/
def tokaddIdent (c : MB) : LexM Bool := do
  match ← identLoop (← fuel) c with
  | none => return true
  | some c =>
    pushback c
    return false

/-- src/lexer/main.rs:1276-1278 `is_label_suffix`. -/
def isLabelSuffix (n : Nat) : LexM Bool := liftB fun b => do
  if ← b.peekN (asc ':') n then return !(← b.peekN (asc ':') (n + 1)) else return false

/-- A valid UTF-8 byte string as a `str`. -/
def textOf (bs : Bytes) : Text := Utf8.lossy bs

/-- src/lexer/main.rs:1280-1282 `is_lvar_defined`. -/
def isLvarDefined (name : Bytes) : LexM Bool := getS fun s => s.staticEnv.isDeclared (textOf name)

/-- src/lexer/main.rs:1090-1094 `normal_newline_leaf_label`. -/
def normalNewline : LexM Tok := do
  modS fun s => { s with commandStart := true }
  setState EXPR_BEG
  return .tNL

/-- `if self.lex_state.is_after_operator() { EXPR_ARG } else { v }`, assigned to the state. -/
def setStateAfterOp (v : Nat) : LexM Unit := do
  if (← getState).isAfterOperator then setState EXPR_ARG else setState v

/-- `self.lex_state.is_spacearg(c, space_seen)`. -/
def spacearg (c : MB) (spaceSeen : Bool) : LexM Bool := getS fun s => isSpacearg s.lexState.isArg c spaceSeen

/-- src/lexer/parse_string.rs:772-779 `warn_space_char`; `c` is printed as a number (`u8`'s `Display`). -/
def warnSpaceChar (c : UInt8) (pre : String) : LexM Unit := do
  warn (.InvalidCharacterSyntax (lit pre ++ lit "\\" ++ natText c.toNat)) (← currentLoc)

end Lexer
end Verif
