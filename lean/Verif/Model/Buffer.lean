import Verif.Model.Decoder
/-!
Model of `src/maybe_byte.rs` and `src/source/buffer.rs`: the reader under the lexer.
`debug-buffer` printing is left out. `usize` values are `Nat` (no overflow of additions: offsets are bounded by the input
length, which fits `usize`); subtractions and indexings are checked. `heredoc_indent` and `heredoc_line_indent` (`i32`) are
`Int` (an `i32` overflow would need a line with more than 2^28 leading tabs).
-/
namespace Verif

/-- src/maybe_byte.rs:1-5 `MaybeByte`; `none` is `EndOfInput`. -/
abbrev MB := Option UInt8

/-- `c == b'x'` (src/maybe_byte.rs `PartialEq<u8>`). -/
def isC (c : MB) (ch : Char) : Bool := c == some (asc ch)

namespace MB
/-- `u8::is_ascii`. -/
def u8Ascii (c : UInt8) : Bool := c < 128
/-- `u8::is_ascii_digit`. -/
def u8Digit (c : UInt8) : Bool := 48 ≤ c && c ≤ 57
/-- `u8::is_ascii_alphabetic`. -/
def u8Alpha (c : UInt8) : Bool := (65 ≤ c && c ≤ 90) || (97 ≤ c && c ≤ 122)
/-- `u8::is_ascii_alphanumeric`. -/
def u8Alnum (c : UInt8) : Bool := u8Alpha c || u8Digit c
/-- `u8::is_ascii_hexdigit`. -/
def u8Hex (c : UInt8) : Bool := u8Digit c || (65 ≤ c && c ≤ 70) || (97 ≤ c && c ≤ 102)
/-- `u8::is_ascii_whitespace`: space, `\t`, `\n`, form feed, `\r`. -/
def u8AsciiWs (c : UInt8) : Bool := c == 32 || c == 9 || c == 10 || c == 12 || c == 13
/-- src/maybe_byte.rs `is_ascii`. -/
def isAscii (c : MB) : Bool := match c with | some c => u8Ascii c | none => false
/-- src/maybe_byte.rs `is_alpha`. -/
def isAlpha (c : MB) : Bool := match c with | some c => u8Alpha c | none => false
/-- src/maybe_byte.rs `is_digit`. -/
def isDigit (c : MB) : Bool := match c with | some c => u8Digit c | none => false
/-- src/maybe_byte.rs `is_alnum`. -/
def isAlnum (c : MB) : Bool := match c with | some c => u8Alnum c | none => false
/-- src/maybe_byte.rs `is_hexdigit`. -/
def isHexdigit (c : MB) : Bool := match c with | some c => u8Hex c | none => false
/-- `is_space` on a byte: space or `\t..=\r`. -/
def u8Space (c : UInt8) : Bool := c == 32 || (9 ≤ c && c ≤ 13)
/-- src/maybe_byte.rs `is_space`. -/
def isSpace (c : MB) : Bool := match c with | some c => u8Space c | none => false
/-- src/maybe_byte.rs `PUNCT`. -/
def PUNCT : Bytes := ascs "!\"$&'*+,./0:;<=>?@\\`~"
/-- src/maybe_byte.rs `is_global_name_punct`. -/
def isGlobalNamePunct (c : MB) : Bool := match c with | some c => PUNCT.contains c | none => false
/-- src/maybe_byte.rs `is_control`: `(c as char).is_control()`, i.e. U+0000..001F and U+007F..009F. -/
def isControl (c : MB) : Bool := match c with | some c => c < 32 || (127 ≤ c && c ≤ 159) | none => false
/-- src/maybe_byte.rs `escaped_control_code`. -/
def escapedControlCode (c : MB) : Option UInt8 :=
  if isC c ' ' then some (asc 's')
  else if c == some 10 then some (asc 'n')
  else if c == some 9 then some (asc 't')
  else if c == some 11 then some (asc 'v')
  else if c == some 13 then some (asc 'r')
  else if c == some 12 then some (asc 'f')
  else none
/-- src/maybe_byte.rs `PartialOrd<u8>`: `EndOfInput` is less than every byte. -/
def lt (c : MB) (n : UInt8) : Bool := match c with | some c => c < n | none => true
/-- `c <= n`. -/
def le (c : MB) (n : UInt8) : Bool := match c with | some c => c ≤ n | none => true
/-- `c > n`. -/
def gt (c : MB) (n : UInt8) : Bool := match c with | some c => n < c | none => false
/-- `c >= n`. -/
def ge (c : MB) (n : UInt8) : Bool := match c with | some c => n ≤ c | none => false
end MB

/-- src/lex_state.rs:44-46 `is_spacearg`. -/
def isSpacearg (isArg : Bool) (c : MB) (spaceSeen : Bool) : Bool := isArg && spaceSeen && !MB.isSpace c

namespace Input
/-- src/source/input.rs:30-32 `byte_at`. -/
def byteAt (i : Input) (idx : Nat) : MB := i.decoded.bytes[idx]?
/-- src/source/input.rs:34-36 `unchecked_byte_at` (panics out of range). -/
def uncheckedByteAt (i : Input) (idx : Nat) : Res UInt8 :=
  match i.decoded.bytes[idx]? with
  | some c => .ok c
  | none => .error .index
/-- src/source/input.rs:57-59 `line_at`. -/
def lineAt (i : Input) (idx : Nat) : Res SourceLine := i.decoded.lineAt idx
/-- src/source/input.rs:61-63 `lines_count`. -/
def linesCount (i : Input) : Nat := i.decoded.lines.length
end Input

/-- src/source/buffer.rs:9-38 `Buffer`. -/
structure Buffer where
  input : Input
  lineCount : Nat := 0
  prevline : Option Nat := none
  lastline : Nat := 0
  nextline : Nat := 0
  pbeg : Nat := 0
  pcur : Nat := 0
  pend : Nat := 0
  ptok : Nat := 0
  eofp : Bool := false
  crSeen : Bool := false
  heredocEnd : Nat := 0
  heredocIndent : Int := 0
  heredocLineIndent : Int := 0
  tokidx : Nat := 0
  tokline : Nat := 0
  hasShebang : Bool := false
  rubySourceline : Nat := 0

namespace Buffer

/-- src/source/buffer.rs:214-219 `byte_at`. -/
def byteAt (b : Buffer) (idx : Nat) : MB := b.input.byteAt idx

/-- src/source/buffer.rs:221-223 `substr_at`. -/
def substrAt (b : Buffer) (start stop : Nat) : Res (Option Bytes) := b.input.decoded.substrAt start stop

/-- src/source/buffer.rs:113-115 `goto_eol`. -/
def gotoEol (b : Buffer) : Buffer := { b with pcur := b.pend }

/-- src/source/buffer.rs:117-119 `is_eol`. -/
def isEol (b : Buffer) : Bool := b.pcur ≥ b.pend

/-- src/source/buffer.rs:121-123 `is_eol_n`. -/
def isEolN (b : Buffer) (n : Nat) : Bool := b.pcur + n ≥ b.pend

/-- src/source/buffer.rs:128-130 `peek_n`. -/
def peekN (b : Buffer) (c : UInt8) (n : Nat) : Res Bool :=
  if b.isEolN n then .ok false else do return c == (← b.input.uncheckedByteAt (b.pcur + n))

/-- src/source/buffer.rs:125-127 `peek`. -/
def peek (b : Buffer) (c : UInt8) : Res Bool := b.peekN c 0

/-- src/source/buffer.rs:134-140 `peekc_n`. -/
def peekcN (b : Buffer) (n : Nat) : MB := if b.isEolN n then none else b.byteAt (b.pcur + n)

/-- src/source/buffer.rs:131-133 `peekc`. -/
def peekc (b : Buffer) : MB := b.peekcN 0

/-- src/source/buffer.rs:201-204 `set_ptok`. -/
def setPtok (b : Buffer) (p : Nat) : Buffer := { b with ptok := p }

/-- src/source/buffer.rs:197-199 `token_flush`. -/
def tokenFlush (b : Buffer) : Buffer := b.setPtok b.pcur

/-- src/source/buffer.rs:187-195 `getline`; `none` is `Err(())`. -/
def getline (b : Buffer) : Option (Nat × Buffer) :=
  if b.lineCount < b.input.linesCount then some (b.lineCount, { b with lineCount := b.lineCount + 1 })
  else none

/-- src/source/buffer.rs:170-184: the tail of `nextline`, loading line `v`. -/
def loadLine (b : Buffer) (v : Nat) : Res Buffer := do
  let line ← b.input.lineAt v
  let b := if b.heredocEnd > 0 then { b with rubySourceline := b.heredocEnd, heredocEnd := 0 } else b
  let b := { b with
    rubySourceline := b.rubySourceline + 1, pbeg := line.start, pcur := line.start, pend := line.stop }
  let b := b.tokenFlush
  return { b with prevline := some b.lastline, lastline := v }

/-- src/source/buffer.rs:142-185 `nextline`; the flag is `is_ok()`. -/
def nextlineFn (b : Buffer) : Res (Bool × Buffer) :=
  let v := b.nextline
  let b := { b with nextline := 0 }
  if v = 0 then
    if b.eofp then .ok (false, b)
    else do
      let noNl ← if b.pend > b.pbeg then (· != 10) <$> b.input.uncheckedByteAt (b.pend - 1) else pure false
      if noNl then return (false, { b with eofp := true }.gotoEol)
      else match b.getline with
        | some (v, b) => return (true, ← { b with crSeen := false }.loadLine v)
        | none => return (false, { b with eofp := true }.gotoEol)
  else do return (true, ← b.loadLine v)

/-- src/source/buffer.rs:206-212 `parser_cr`. -/
def parserCr (b : Buffer) (c : UInt8) : Res (UInt8 × Buffer) := do
  if ← b.peek 10 then return (10, { b with pcur := b.pcur + 1 }) else return (c, b)

/-- src/source/buffer.rs:101-110: the second half of `nextc`. -/
def readByte (b : Buffer) : Res (MB × Buffer) :=
  match b.input.byteAt b.pcur with
  | none => .ok (none, b)
  | some c =>
    let b := { b with pcur := b.pcur + 1 }
    if c = 13 then do
      let (c, b) ← b.parserCr c
      return (some c, b)
    else .ok (some c, b)

/-- src/source/buffer.rs:93-111 `nextc`. -/
def nextc (b : Buffer) : Res (MB × Buffer) :=
  if b.pcur = b.pend ∨ b.eofp ∨ b.nextline ≠ 0 then do
    let (ok, b) ← b.nextlineFn
    if !ok then return (none, b) else b.readByte
  else b.readByte

/-- src/source/buffer.rs:334-345 `pushback` of a byte (the value is only used for debug printing). -/
def pushbackByte (b : Buffer) : Res Buffer := do
  let b := { b with pcur := ← csub b.pcur 1 }
  if b.pcur > b.pbeg ∧ b.byteAt b.pcur = some 10 ∧ b.byteAt (b.pcur - 1) = some 13 then
    return { b with pcur := b.pcur - 1 }
  else return b

/-- src/source/buffer.rs:347-365 `pushback` of an optional byte. -/
def pushback (b : Buffer) (c : MB) : Res Buffer :=
  match c with
  | some _ => b.pushbackByte
  | none => .ok b

/-- src/source/buffer.rs:225-227 `was_bol`. -/
def wasBol (b : Buffer) : Bool := b.pcur == b.pbeg + 1

/-- src/source/buffer.rs:229-246 `is_word_match`. -/
def isWordMatch (b : Buffer) (word : Bytes) : Res Bool := do
  let len := word.length
  if (← b.substrAt b.pcur (b.pcur + len)) != some word then return false
  else if b.pcur + len = b.pend then return true
  else
    let c := b.byteAt (b.pcur + len)
    if MB.isSpace c then return true
    else return c == some 0 || c == some 0x1a || c == some 0x04

/-- src/source/buffer.rs:250-259: the loop of `is_looking_at_eol`, over the bytes `pcur..pend`. -/
def lookingAtEolLoop : Bytes → Bool
  | [] => true
  | c :: rest =>
    let eol := c == 10 || c == 35
    if eol || !MB.u8AsciiWs c then eol else lookingAtEolLoop rest

/-- src/source/buffer.rs:248-261 `is_looking_at_eol`. -/
def isLookingAtEol (b : Buffer) : Bool :=
  lookingAtEolLoop ((b.input.decoded.bytes.drop b.pcur).take (b.pend - b.pcur))

/-- src/source/buffer.rs:267-274: skip ASCII white space from `ptr` (the loop does not stop at the line end). -/
def skipWs (b : Buffer) (ptr : Nat) : Nat :=
  ptr + ((b.input.decoded.bytes.drop ptr).takeWhile MB.u8AsciiWs).length

/-- src/source/buffer.rs:263-301 `is_whole_match` (`isize::try_from` of a length always succeeds). -/
def isWholeMatch (b : Buffer) (eos : Bytes) (indent : Nat) : Res Bool := do
  let ptr := if indent > 0 then b.skipWs b.pbeg else b.pbeg
  let len := eos.length
  if b.pend < ptr + len then return false
  else
    let n ← csub b.pend (ptr + len)
    let lastChar := b.byteAt (ptr + len)
    let afterLast := b.byteAt (ptr + len + 1)
    if n > 0 ∧ lastChar ≠ some 10 ∧ (lastChar ≠ some 13 ∨ n ≤ 1 ∨ afterLast ≠ some 10) then return false
    else return some eos == (← b.substrAt ptr (ptr + len))

/-- src/source/buffer.rs:303-314 `eof_no_decrement`. -/
def eofNoDecrement (b : Buffer) : Res Buffer := do
  let b := match b.prevline with
    | some p => if !b.eofp then { b with lastline := p } else b
    | none => b
  let line ← b.input.lineAt b.lastline
  let b := { b with pbeg := line.start }
  let b := { b with pend := b.pbeg + (← line.len) }
  let b := { b with pcur := b.pend }
  let b ← b.pushbackByte
  return b.setPtok b.pcur

/-- src/source/buffer.rs:316-323 `is_identchar`. -/
def isIdentcharAt (b : Buffer) (begin : Nat) : Bool :=
  match b.input.byteAt begin with
  | some byte => MB.u8Alnum byte || byte == asc '_' || !MB.u8Ascii byte
  | none => false

/-- src/source/buffer.rs:67-91 `prepare`. -/
def prepare (b : Buffer) : Res Buffer := do
  let (c, b) ← b.nextc
  match c with
  | none => return b
  | some c =>
    if c = asc '#' then
      let bang ← b.peek (asc '!')
      let b := if bang then { b with hasShebang := true } else b
      b.pushback (some c)
    else if c = 0xef then
      let n ← csub b.pend b.pcur
      if n ≥ 2 ∧ b.byteAt b.pcur = some 0xbb ∧ b.byteAt (b.pcur + 1) = some 0xbf then
        return { b with pcur := b.pcur + 2, pbeg := b.pcur + 2 }
      else b.pushback (some c)
    else b.pushback (some c)

/-- src/source/buffer.rs:52-65 `new`. -/
def new (name : String) (bytes : Bytes) (decoder : Option DecoderFn) : Res Buffer :=
  prepare { input := (Input.new name decoder).updateBytes bytes }

end Buffer
end Verif
