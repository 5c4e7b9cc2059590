import Verif.Model.Lexer.Core
/-! Model of `src/lexer/parse_string.rs` (and `update_heredoc_indent` of `src/lexer/parse_heredoc.rs`, which it calls). -/
namespace Verif.Lexer

/-- src/lexer/parse_heredoc.rs:368-387 `update_heredoc_indent` (its result is always `true`). -/
def updateIndent (c : MB) (b : Buffer) : Buffer :=
  if b.heredocLineIndent = -1 then
    if c = some 10 then { b with heredocLineIndent := 0 } else b
  else if isC c ' ' then { b with heredocLineIndent := b.heredocLineIndent + 1 }
  else if c = some 9 then { b with heredocLineIndent := (b.heredocLineIndent.tdiv 8 + 1) * 8 }
  else if c ≠ some 10 then
    if b.heredocIndent > b.heredocLineIndent then
      { b with heredocIndent := b.heredocLineIndent, heredocLineIndent := -1 }
    else { b with heredocLineIndent := -1 }
  else b

/-- `usize::from_str_radix(c, 16)` on one character. -/
def hexVal (c : UInt8) : Option Nat :=
  if MB.u8Digit c then some (c.toNat - 48)
  else if 65 ≤ c && c ≤ 70 then some (c.toNat - 55)
  else if 97 ≤ c && c ≤ 102 then some (c.toNat - 87)
  else none

/-- src/lexer/parse_string.rs:387-407 `scan_hex`: (value, number of digits). `<<=` on `usize` drops high bits. -/
def scanHex (b : Buffer) : (len start result : Nat) → Nat × Nat
  | 0, _, result => (result, 0)
  | n + 1, s, result =>
    match b.byteAt s with
    | none => (result, 0)
    | some c =>
      match hexVal c with
      | none => (result, 0)
      | some h =>
        let (r, k) := scanHex b n (s + 1) (result * 16 % 2 ^ 64 + h)
        (r, k + 1)

/-- src/lexer/parse_string.rs:409-426 `scan_oct`: (value, number of digits). -/
def scanOct (b : Buffer) : (len start result : Nat) → Nat × Nat
  | 0, _, result => (result, 0)
  | n + 1, s, result =>
    match b.byteAt s with
    | none => (result, 0)
    | some c =>
      if 48 ≤ c && c ≤ 55 then
        let (r, k) := scanOct b n (s + 1) (result * 8 % 2 ^ 64 + (c.toNat - 48))
        (r, k + 1)
      else (result, 0)

/-- src/lexer/parse_string.rs:436-444 `tokaddmbc`. -/
def tokaddmbc (codepoint : Nat) : LexM Unit :=
  if codepoint < 2 ^ 32 ∧ Utf8.isScalar codepoint then
    modS fun s => { s with tokenbuf := s.tokenbuf ++ Utf8.encode codepoint }
  else fail .expect

/-- src/lexer/parse_string.rs:379-385 `tokadd_utf8_unterminated`. -/
def utf8Unterminated : LexM Unit := do
  tokenFlush
  compileError .UnterminatedUnicodeEscape (← getB fun b => ⟨b.ptok, b.pcur + 1⟩)

/-- src/lexer/parse_string.rs:446-490 `tokadd_codepoint`. -/
def tokaddCodepoint (regexp wide : Bool) : LexM Bool := do
  let len ← liftB fun b => if wide then csub b.pend b.pcur else pure 4
  let (codepoint, numlen) ← getB fun b => scanHex b len b.pcur 0
  setPtok (← pcur)
  modB fun b => { b with pcur := b.pcur + numlen }
  if (if wide then numlen == 0 || numlen > 6 else numlen < 4) then
    compileError .InvalidUnicodeEscape (← getB fun b => ⟨b.pcur, b.pcur + 1⟩)
    return wide && numlen > 0
  else if codepoint > 0x10ffff then
    yyerror0 .TooLargeUnicodeCodepoint
    return wide
  else if codepoint &&& 0xfffff800 = 0xd800 then
    yyerror0 .InvalidUnicodeCodepoint
    return wide
  else if regexp then
    tokcopy numlen
    return true
  else if codepoint ≥ 0x80 then
    tokaddmbc codepoint
    return true
  else
    tokadd codepoint.toUInt8
    return true

/-- src/lexer/parse_string.rs:514-523: skip white space after `{`; returns the last character looked at. -/
def utf8Skip1 : (fuel : Nat) → LexM MB
  | 0 => fail .fuel
  | n + 1 => do
    let c ← getB fun b => b.byteAt b.pcur
    if !MB.isSpace c then return c
    else
      modB fun b => { b with pcur := b.pcur + 1 }
      if ← getB fun b => decide (b.pcur ≥ b.pend) then return c else utf8Skip1 n

/-- src/lexer/parse_string.rs:537-547: skip white space after a code point; `none` is the early return. -/
def utf8Skip2 : (fuel : Nat) → (last : MB) → LexM (Option (MB × MB))
  | 0, _ => fail .fuel
  | n + 1, last => do
    let c ← getB fun b => b.byteAt b.pcur
    if !MB.isSpace c then return some (c, last)
    else
      modB fun b => { b with pcur := b.pcur + 1 }
      if ← getB fun b => decide (b.pcur ≥ b.pend) then return none else utf8Skip2 n c

/-- src/lexer/parse_string.rs:524-551: `while c != close_brace`; `none` is the early return (unterminated). -/
def utf8Loop (term : Option UInt8) (regexp : Bool) : (fuel : Nat) → (c last : MB) → (second : Option Nat) →
    (err : Bool) → LexM (Option (MB × Option Nat × Bool))
  | 0, _, _, _, _ => fail .fuel
  | n + 1, c, last, second, err => do
    if isC c '}' then return some (c, second, err)
    else if c == term then return none
    else
      let second ← if err then some <$> pcur else pure second
      if regexp then tokaddMB last else pure ()
      if !(← tokaddCodepoint regexp true) then return some (c, second, err)
      else
        match ← utf8Skip2 (← fuel) last with
        | none => return none
        | some (c, last) => utf8Loop term regexp n c last second (if term.isNone && second.isNone then true else err)

/-- src/lexer/parse_string.rs:492-574 `tokadd_utf8` (`_symbol_literal` is unused). -/
def tokaddUtf8 (term : Option UInt8) (regexp : Bool) : LexM Unit := do
  if regexp then do tokadd (asc '\\'); tokadd (asc 'u') else pure ()
  if ← peek '{' then
    let last ← nextc
    if ← getB fun b => decide (b.pcur ≥ b.pend) then utf8Unterminated
    else
      let c ← utf8Skip1 (← fuel)
      match ← utf8Loop term regexp (← fuel) c last none false with
      | none => utf8Unterminated
      | some (c, second, err) =>
        if !isC c '}' then utf8Unterminated
        else
          match second with
          | some second =>
            if err then
              let p ← pcur
              modB fun b => { b with pcur := second }
              tokenFlush
              modB fun b => { b with pcur := p }
              yyerror0 .MultipleCodepointAtSingleChar
              tokenFlush
            else pure ()
          | none => pure ()
          if regexp then tokadd (asc '}') else pure ()
          let _ ← nextc
          return ()
  else if !(← tokaddCodepoint regexp false) then tokenFlush
  else pure ()

/-- src/lexer/parse_string.rs:576-591 `simple_re_meta`. -/
def simpleReMeta (c : MB) : Bool := match c with | some c => (ascs "$*+.?^|)]}>").contains c | none => false

/-- src/lexer/parse_string.rs:640-649 `tok_hex`: (character, number of digits). -/
def tokHex : LexM (MB × Nat) := do
  let (c, numlen) ← getB fun b => scanHex b 2 b.pcur 0
  if numlen = 0 then
    compileError .InvalidHexEscape (← currentLoc)
    tokenFlush
    return (some 0, 0)
  else
    modB fun b => { b with pcur := b.pcur + numlen }
    return (some c.toUInt8, numlen)

/-- src/lexer/parse_string.rs:599-632 `tokadd_escape` (and 593-597); `true` is `Ok(())`. -/
def tokaddEscape : LexM Bool := do
  let c ← nextc
  match c with
  | none =>
    yyerror0 .InvalidEscapeCharacter
    tokenFlush
    return false
  | some ch =>
    if ch = 10 then return true
    else if asc '0' ≤ ch ∧ ch < asc '8' then
      let p ← pcurSub 1
      modB fun b => { b with pcur := p }
      let (_, numlen) ← getB fun b => scanOct b 3 b.pcur 0
      modB fun b => { b with pcur := b.pcur + numlen }
      tokcopy (numlen + 1)
      return true
    else if ch = asc 'x' then
      let (_, numlen) ← tokHex
      if numlen = 0 then return false
      else
        tokcopy (numlen + 2)
        return true
    else
      tokadd (asc '\\')
      tokadd ch
      return true

/-- src/lexer/parse_string.rs:634-638 `read_escape_eof`. -/
def readEscapeEof : LexM MB := do
  yyerror0 .InvalidEscapeCharacter
  tokenFlush
  return some 0

/-- src/lexer/parse_string.rs:694-700, 732-738: is the next character `u` or `U`? -/
def peekU : LexM Bool := getB fun b => isC b.peekc 'u' || isC b.peekc 'U'

/-- src/lexer/parse_string.rs:651-766 `read_escape`; the flags `ESCAPE_META` / `ESCAPE_CONTROL` are two booleans. The
recursion sets a flag each time, so three levels are enough. -/
def readEscape : (fuel : Nat) → (meta_ ctrl : Bool) → LexM MB
  | 0, _, _ => fail .fuel
  | n + 1, meta_, ctrl => do
    let c ← nextc
    match c with
    | none => readEscapeEof
    | some ch =>
      if ch = asc '\\' then return c
      else if ch = asc 'n' then return some 10
      else if ch = asc 't' then return some 9
      else if ch = asc 'r' then return some 13
      else if ch = asc 'f' then return some 12
      else if ch = asc 'v' then return some 11
      else if ch = asc 'a' then return some 7
      else if ch = asc 'e' then return some 27
      else if MB.u8Digit ch then
        pushback c
        let (v, numlen) ← getB fun b => scanOct b 3 b.pcur 0
        modB fun b => { b with pcur := b.pcur + numlen }
        return some v.toUInt8
      else if ch = asc 'x' then
        let (v, numlen) ← tokHex
        if numlen = 0 then return some 0 else return v
      else if ch = asc 'b' then return some 8
      else if ch = asc 's' then return some 32
      else if ch = asc 'M' then
        if meta_ then readEscapeEof
        else
          let c ← nextc
          if !isC c '-' then readEscapeEof
          else
            let c ← nextc
            if isC c '\\' then
              if ← peekU then
                let _ ← nextc
                readEscapeEof
              else
                let r ← readEscape n true ctrl
                return r.map fun byte => byte ||| 0x80
            else if c.isNone || !MB.isAscii c then readEscapeEof
            else
              match MB.escapedControlCode c with
              | some c2 =>
                if MB.isControl c || !ctrl then warnSpaceChar c2 "\\M-" else warnSpaceChar c2 "\\C-\\M-"
                return c.map fun c => c ||| 0x80
              | none =>
                if MB.isControl c then readEscapeEof
                else return c.map fun c => c ||| 0x80
      else if ch = asc 'C' ∨ ch = asc 'c' then
        let bad ← if ch = asc 'C' then (fun c => !isC c '-') <$> nextc else pure false
        if bad then readEscapeEof
        else if ctrl then readEscapeEof
        else
          let c ← nextc
          if isC c '\\' then
            if ← peekU then
              let _ ← nextc
              readEscapeEof
            else
              let r ← readEscape n meta_ true
              return r.map fun c => c &&& 0x9f
          else if isC c '?' then return some 0x7f
          else if c.isNone || !MB.isAscii c then readEscapeEof
          else
            match MB.escapedControlCode c with
            | some c2 =>
              if MB.isControl c then
                if meta_ then warnSpaceChar c2 "\\M-" else warnSpaceChar c2 ""
              else if meta_ then warnSpaceChar c2 "\\M-\\C-"
              else warnSpaceChar c2 "\\C-"
              return c.map fun c => c &&& 0x9f
            | none =>
              if MB.isControl c then readEscapeEof
              else return c.map fun c => c &&& 0x9f
      else return c

/-- Upper-case hexadecimal digit. -/
def hexDigit (n : Nat) : UInt8 := if n < 10 then (48 + n).toUInt8 else (55 + n).toUInt8

/-- src/lexer/parse_string.rs:326-328: `write!(&mut escbuf[..], "\\x{:X}", c)` into a zeroed 5-byte buffer, first 4 bytes. -/
def escbuf (c : UInt8) : Bytes :=
  if c.toNat < 16 then [asc '\\', asc 'x', hexDigit c.toNat, 0]
  else [asc '\\', asc 'x', hexDigit (c.toNat / 16), hexDigit (c.toNat % 16)]

/-- One iteration of the loop of `tokadd_string`: it ends with a result, or goes on. -/
inductive TsStep where
  | done (r : Option MB) (nest : Nat)
  | go (nest : Nat)

/-- src/lexer/parse_string.rs:313-360: a backslash followed by an ordinary character `ch`. -/
def tsEscapeOther (func : Nat) (term : UInt8) (paren : Option UInt8) (nest : Nat) (ch : UInt8) : LexM TsStep := do
  if !MB.u8Ascii ch && !hasF func STR_FUNC_EXPAND then do
    tokadd (asc '\\')
    tokadd ch
  else pure ()
  if hasF func STR_FUNC_REGEXP then
    if ch = asc 'c' ∨ ch = asc 'C' ∨ ch = asc 'M' then
      pushback (some ch)
      match ← readEscape 4 false false with
      | none => fail .expect
      | some v =>
        modS fun s => { s with tokenbuf := s.tokenbuf ++ escbuf v }
        return .go nest
    else if ch = term ∧ !simpleReMeta (some ch) then
      tokadd ch
      return .go nest
    else
      pushback (some ch)
      if !(← tokaddEscape) then return .done none nest else return .go nest
  else if hasF func STR_FUNC_EXPAND then
    pushback (some ch)
    if hasF func STR_FUNC_ESCAPE then tokadd (asc '\\') else pure ()
    match ← readEscape 4 false false with
    | none => return .done none nest
    | some v =>
      tokadd v
      return .go nest
  else if hasF func STR_FUNC_QWORDS && MB.u8Space ch then
    tokadd ch
    return .go nest
  else if ch ≠ term ∧ some ch ≠ paren then
    tokadd (asc '\\')
    pushback (some ch)
    return .go nest
  else
    tokadd ch
    return .go nest

/-- src/lexer/parse_string.rs:274-361: a backslash inside a literal. -/
def tsBackslash (func : Nat) (term : UInt8) (paren : Option UInt8) (nest : Nat) : LexM TsStep := do
  setPtok (← pcurSub 1)
  let c ← nextc
  match c with
  | none => return .done none nest
  | some ch =>
    if ch = 10 then
      if hasF func STR_FUNC_QWORDS then
        tokadd ch
        return .go nest
      else if hasF func STR_FUNC_EXPAND then
        if !hasF func STR_FUNC_INDENT || (← getB fun b => decide (b.heredocIndent < 0)) then return .go nest
        else if ch = term then return .done (some (some (asc '\\'))) nest
        else
          tokadd (asc '\\')
          tokadd ch
          return .go nest
      else
        tokadd (asc '\\')
        tokadd ch
        return .go nest
    else if ch = asc '\\' then
      if hasF func STR_FUNC_ESCAPE then tokadd ch else pure ()
      tokadd ch
      return .go nest
    else if ch = asc 'u' then
      if !hasF func STR_FUNC_EXPAND then
        tokadd (asc '\\')
        tokadd ch
        return .go nest
      else
        tokaddUtf8 (some term) (hasF func STR_FUNC_REGEXP)
        return .go nest
    else tsEscapeOther func term paren nest ch

/-- src/lexer/parse_string.rs:247-370: one iteration of the loop of `tokadd_string`. -/
def tsStep (func : Nat) (term : UInt8) (paren : Option UInt8) (nest : Nat) : LexM TsStep := do
  let c ← nextc
  match c with
  | none => return .done (some c) nest
  | some ch =>
    modB fun b => if b.heredocIndent > 0 then updateIndent c b else b
    if some ch = paren then
      tokadd ch
      return .go (nest + 1)
    else if ch = term then
      if nest = 0 then
        pushback c
        return .done (some c) nest
      else
        tokadd ch
        return .go (nest - 1)
    else if hasF func STR_FUNC_EXPAND && ch == asc '#' && (← getB fun b => decide (b.pcur < b.pend)) then
      let c2 ← getB fun b => b.byteAt b.pcur
      if isC c2 '$' || isC c2 '@' || isC c2 '{' then
        pushback c
        return .done (some c) nest
      else
        tokadd ch
        return .go nest
    else if ch = asc '\\' then tsBackslash func term paren nest
    else if !(← isAsciiPrev) then
      tokadd ch
      return .go nest
    else if hasF func STR_FUNC_QWORDS && MB.u8Space ch then
      pushback c
      return .done (some c) nest
    else
      tokadd ch
      return .go nest

/-- src/lexer/parse_string.rs:247-372: the loop of `tokadd_string`. -/
def tsLoop (func : Nat) (term : UInt8) (paren : Option UInt8) : (fuel : Nat) → (nest : Nat) → LexM (Option MB × Nat)
  | 0, _ => fail .fuel
  | n + 1, nest => do
    match ← tsStep func term paren nest with
    | .done r nest => return (r, nest)
    | .go nest => tsLoop func term paren n nest

/-- src/lexer/parse_string.rs:237-373 `tokadd_string`: the result and the new nesting depth. -/
def tokaddString (func : Nat) (term : UInt8) (paren : Option UInt8) (nest : Nat) : LexM (Option MB × Nat) := do
  tsLoop func term paren (← fuel) nest

/-- src/lexer/parse_string.rs:187-235 `peek_variable_name`. -/
def peekVariableName : LexM (Option Tok) := do
  let ptr ← pcur
  let pend ← getB (·.pend)
  if ptr + 1 ≥ pend then return none
  else
    let c ← charAt ptr
    let ptr := ptr + 1
    let final (c : MB) : Option Tok :=
      if !MB.isAscii c || isC c '_' || MB.isAlpha c then some .tSTRING_DVAR else none
    if isC c '$' then
      let c ← charAt ptr
      if isC c '-' then
        let ptr := ptr + 1
        if ptr ≥ pend then return none
        else return final (← charAt ptr)
      else if MB.isGlobalNamePunct c || MB.isDigit c then return some .tSTRING_DVAR
      else return final c
    else if isC c '@' then
      let c ← charAt ptr
      if isC c '@' then
        let ptr := ptr + 1
        if ptr ≥ pend then return none
        else return final (← charAt ptr)
      else return final c
    else if isC c '{' then
      modB fun b => { b with pcur := ptr }
      modS fun s => { s with commandStart := true }
      return some .tSTRING_DBEG
    else return none

/-- src/lexer/parse_string.rs:150-167: the loop of `regx_options`: the first non-letter and the known options. -/
def regxLoop : (fuel : Nat) → (result : Bytes) → LexM (MB × Bytes)
  | 0, _ => fail .fuel
  | n + 1, result => do
    let c ← nextc
    match c with
    | none => return (c, result)
    | some ch =>
      if !MB.u8Alpha ch then return (c, result)
      else if (ascs "onesuixm").contains ch then regxLoop n (result ++ [ch])
      else
        tokadd ch
        regxLoop n result

/-- src/lexer/parse_string.rs:145-185 `regx_options`. -/
def regxOptions : LexM Bytes := do
  newtok
  let (c, result) ← regxLoop (← fuel) []
  pushback c
  if (← toklen) > 0 then
    let tok ← getS (·.tokenbuf)
    if Utf8.valid tok then
      compileError (.UnknownRegexOptions tok) (← currentLoc)
      return result
    else fail .expect
  else return result

/-- src/lexer/parse_string.rs:128-143 `string_term`. -/
def stringTerm (term : UInt8) (func : Nat) : LexM Tok := do
  modS fun s => { s with strterm := none }
  if hasF func STR_FUNC_REGEXP then
    let flags ← regxOptions
    setLval (Utf8.encode term.toNat ++ flags)
    setState EXPR_END
    return .tREGEXP_END
  else if hasF func STR_FUNC_LABEL && (← isLabelSuffix 0) then
    let _ ← nextc
    setState (EXPR_BEG ||| EXPR_LABEL)
    return .tLABEL_END
  else
    setState EXPR_END
    return .tSTRING_END

/-- src/lexer/parse_string.rs:61-67: skip white space; returns the first other character. -/
def skipSpaces : (fuel : Nat) → LexM MB
  | 0 => fail .fuel
  | n + 1 => do
    let c ← nextc
    if !MB.isSpace c then return c else skipSpaces n

/-- src/lexer/parse_string.rs:21-23 `restore_strterm`. -/
def restoreStrterm (l : StringLiteral) : LexM Unit := modS fun s => { s with strterm := some (.string l) }

/-- src/lexer/parse_string.rs:100-125: the content of a literal up to the next stop. -/
def stringContent (quote : StringLiteral) (func : Nat) (term : UInt8) (paren : Option UInt8) : LexM Tok := do
  let (added, nest) ← tokaddString func term paren quote.nest
  let quote := { quote with nest := nest }
  if added.isSome && (← getB (·.eofp)) then
    setPtok (← pcur)
    if hasF func STR_FUNC_QWORDS then
      yyerror0 .UnterminatedList
      modS fun s => { s with strterm := none }
      return .tSTRING_END
    else
      if hasF func STR_FUNC_REGEXP then yyerror0 .UnterminatedRegexp else yyerror0 .UnterminatedString
      modS fun s => { s with lval := some s.tokenbuf }
      restoreStrterm { quote with func := quote.func ||| STR_FUNC_TERM }
      return .tSTRING_CONTENT
  else
    modS fun s => { s with lval := some s.tokenbuf }
    restoreStrterm quote
    return .tSTRING_CONTENT

/-- src/lexer/parse_string.rs:25-126 `parse_string`, with the literal taken out of `strterm` (15-20). `!STR_FUNC_LIST` is a
bit complement. -/
def parseString (quote : StringLiteral) : LexM Tok := do
  modS fun s => { s with strterm := none }
  let func := quote.func
  let term := quote.term
  let paren := quote.paren
  modS fun s => { s with lvalStart := some s.buffer.pcur }
  if hasF func STR_FUNC_TERM then
    if hasF func STR_FUNC_QWORDS then do let _ ← nextc else pure ()
    setState EXPR_END
    modS fun s => { s with strterm := none }
    if hasF func STR_FUNC_REGEXP then return .tREGEXP_END
    else match quote.heredocEnd with
      | some h =>
        modS fun s => { s with lvalStart := some h.start, lvalEnd := some h.stop, lval := some h.value }
        return .tSTRING_END
      | none => return .tSTRING_END
  else
    let c ← nextc
    let isSp := hasF func STR_FUNC_QWORDS && MB.isSpace c
    let c ← if isSp then skipSpaces (← fuel) else pure c
    let space := isSp || hasF func STR_FUNC_LIST
    let quote := if hasF func STR_FUNC_LIST then { quote with func := quote.func ^^^ STR_FUNC_LIST } else quote
    if c = some term ∧ quote.nest = 0 then
      if hasF func STR_FUNC_QWORDS then
        pushback c
        restoreStrterm { quote with func := quote.func ||| STR_FUNC_TERM }
        return .tSPACE
      else
        restoreStrterm quote
        stringTerm term func
    else if space then
      pushback c
      restoreStrterm quote
      return .tSPACE
    else
      newtok
      if hasF func STR_FUNC_EXPAND && isC c '#' then
        match ← peekVariableName with
        | some t =>
          restoreStrterm quote
          return t
        | none =>
          tokadd (asc '#')
          pushback (← nextc)
          stringContent quote func term paren
      else
        pushback c
        stringContent quote func term paren

end Verif.Lexer
