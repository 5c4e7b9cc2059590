import Verif.Model.Lexer.String
/-! Model of `src/lexer/parse_heredoc.rs`. -/
namespace Verif.Lexer

/-- src/lexer/parse_heredoc.rs:52-62: read up to the closing quote of the identifier; `false` is the error return. -/
def hereQuoteLoop (term : MB) : (fuel : Nat) → LexM Bool
  | 0 => fail .fuel
  | n + 1 => do
    let c ← nextc
    if c = term then return true
    else if c.isNone || c == some 13 || c == some 10 then
      yyerror0 .UnterminatedHeredocId
      return false
    else hereQuoteLoop term n

/-- src/lexer/parse_heredoc.rs:72-82: read an unquoted identifier; `none` is the error return. -/
def hereIdLoop : (fuel : Nat) → LexM (Option MB)
  | 0 => fail .fuel
  | n + 1 => do
    match ← multibyteCharLen (← pcurSub 1) with
    | none => return none
    | some len =>
      let k ← liftB fun _ => csub len 1
      modB fun b => { b with pcur := b.pcur + k }
      let c ← nextc
      if c.isNone then return some c
      else if !(← isIdentchar) then return some c
      else hereIdLoop n

/-- src/lexer/parse_heredoc.rs:86-111: record the heredoc. -/
def heredocStart (token : Tok) (offset quote func : Nat) (indent : Int) : LexM Tok := do
  let len ← liftB fun b => do csub (← csub b.pcur (b.pbeg + offset)) quote
  match ← liftB fun b => b.substrAt b.ptok b.pcur with
  | none => fail .expect
  | some id =>
    setLval id
    modS fun s => { s with lvalStart := some s.buffer.ptok, lvalEnd := some s.buffer.pcur }
    gotoEol
    modS fun s =>
      { s with strterm := some (.heredoc ⟨s.buffer.lastline, offset, s.buffer.rubySourceline, len, quote, func⟩) }
    tokenFlush
    modB fun b => { b with heredocIndent := indent, heredocLineIndent := 0 }
    return token

/-- src/lexer/parse_heredoc.rs:12-112 `heredoc_identifier`. -/
def heredocIdentifier : LexM (Option Tok) := do
  let offset ← liftB fun b => csub b.pcur b.pbeg
  let c ← nextc
  let (c, func, offset, indent) ←
    if isC c '-' then do pure (← nextc, STR_FUNC_INDENT, offset + 1, (0 : Int))
    else if isC c '~' then do pure (← nextc, STR_FUNC_INDENT, offset + 1, (2147483647 : Int))
    else pure (c, 0, offset, (0 : Int))
  if isC c '\'' || isC c '"' || isC c '`' then
    let func := if isC c '\'' then func ||| str_squote else if isC c '"' then func ||| str_dquote else func ||| str_xquote
    let token := if isC c '`' then Tok.tXSTRING_BEG else Tok.tSTRING_BEG
    if !(← hereQuoteLoop c (← fuel)) then return some .END_OF_INPUT
    else return some (← heredocStart token (offset + 1) 1 func indent)
  else if !(← isIdentchar) then
    pushback c
    if hasF func STR_FUNC_INDENT then pushbackByte else pure ()
    return none
  else
    match ← hereIdLoop (← fuel) with
    | none => return some .END_OF_INPUT
    | some c =>
      pushback c
      return some (← heredocStart .tSTRING_BEG offset 0 (func ||| str_dquote) indent)

/-- src/lexer/parse_heredoc.rs:282-306 `compute_heredoc_end`; both loops stop at the end of input. -/
def computeHeredocEnd : LexM HeredocEnd := do
  let start ← getB (·.pbeg)
  let endStartsAt ← getB fun b =>
    start + ((b.input.decoded.bytes.drop start).takeWhile (· == asc ' ')).length
  let stop ← getB fun b =>
    endStartsAt + ((b.input.decoded.bytes.drop endStartsAt).takeWhile (· != 10)).length
  match ← liftB fun b => b.substrAt endStartsAt stop with
  | none => fail .expect
  | some value => return ⟨start, stop, value⟩

/-- src/lexer/parse_heredoc.rs:352-366 `heredoc_restore`. -/
def heredocRestore (here : HeredocLiteral) : LexM Unit := do
  modS fun s => { s with strterm := none }
  let line ← liftB fun b => b.input.lineAt here.lastline
  let len ← liftB fun _ => line.len
  let ptok ← liftB fun _ => csub (line.start + here.offset) here.quote
  modB fun b => { b with
    lastline := here.lastline
    pbeg := line.start
    pend := line.start + len
    pcur := line.start + here.offset + here.length + here.quote
    ptok := ptok
    heredocEnd := b.rubySourceline
    rubySourceline := here.sourceline
    nextline := if b.eofp then 0 else b.nextline
    eofp := false }

/-- src/lexer/parse_heredoc.rs:308-325 `here_document_error`. -/
def hereDocumentError (here : HeredocLiteral) (eos len : Nat) : LexM Tok := do
  heredocRestore here
  match ← liftB fun b => b.substrAt eos (eos + len) with
  | none => fail .expect
  | some id =>
    compileError (.UnterminatedHeredoc (Utf8.lossy id)) (← currentLoc)
    tokenFlush
    modS fun s => { s with strterm := none }
    setState EXPR_END
    return .tSTRING_END

/-- src/lexer/parse_heredoc.rs:327-339 `here_document_restore`. -/
def hereDocumentRestore (here : HeredocLiteral) : LexM Tok := do
  let h ← computeHeredocEnd
  modS fun s => { s with lvalStart := some h.start, lvalEnd := some h.stop, lval := some h.value }
  heredocRestore here
  tokenFlush
  modS fun s => { s with strterm := none }
  setState EXPR_END
  return .tSTRING_END

/-- src/lexer/parse_heredoc.rs:341-345 `heredoc_flush_str`. -/
def heredocFlushStr (str : Bytes) : LexM Tok := do
  setLval str
  return .tSTRING_CONTENT

/-- src/lexer/parse_heredoc.rs:347-350 `heredoc_flush`. -/
def heredocFlush : LexM Tok := do heredocFlushStr (← takeTok)

/-- src/lexer/parse_heredoc.rs:145-150: is the current line the terminator? -/
def atHeredocEnd (eos len indent : Nat) : LexM Bool := do
  match ← liftB fun b => b.substrAt eos (eos + len) with
  | none => fail .expect
  | some id => liftB fun b => b.isWholeMatch id indent

/-- src/lexer/parse_heredoc.rs:156-173: the end of the text of the current line, without a CRLF or CR ending. -/
def rawLineEnd (b : Buffer) (ptr : Nat) : Res Nat := do
  let ptrEnd := b.pend
  if ptrEnd > ptr then
    let last ← b.input.uncheckedByteAt (ptrEnd - 1)
    if last = 10 then
      if ptrEnd - 1 = ptr then return ptrEnd
      else if (← b.input.uncheckedByteAt (ptrEnd - 2)) ≠ 13 then return ptrEnd
      else return ptrEnd - 1
    else if last = 13 then return ptrEnd - 1
    else return ptrEnd
  else return ptrEnd

/-- src/lexer/parse_heredoc.rs:155-214: the loop for heredocs without interpolation; either a token is returned, or the
content and the end of the heredoc. -/
def hereRawLoop (here : HeredocLiteral) (eos len indent : Nat) : (fuel : Nat) → (str : Bytes) →
    LexM (Tok ⊕ (Bytes × HeredocEnd))
  | 0, _ => fail .fuel
  | n + 1, str => do
    let ptr ← liftB fun b => SourceLine.start <$> b.input.lineAt b.lastline
    let ptrEnd ← liftB (rawLineEnd · ptr)
    modB fun b =>
      if b.heredocIndent > 0 then
        { ((b.input.decoded.bytes.drop ptr).take (ptrEnd - ptr)).foldl (fun b c => updateIndent (some c) b) b with
          heredocLineIndent := 0 }
      else b
    match ← liftB fun b => b.substrAt ptr ptrEnd with
    | none => fail .expect
    | some s =>
      let str := if ptrEnd < (← getB (·.pend)) then str ++ s ++ [10] else str ++ s
      gotoEol
      if ← getB fun b => decide (b.heredocIndent > 0) then return .inl (← heredocFlushStr str)
      else if (← nextc).isNone then return .inl (← hereDocumentError here eos len)
      else if ← atHeredocEnd eos len indent then
        let e ← liftB fun b => csub b.pend 1
        modS fun s => { s with lvalEnd := some e }
        return .inr (str, ← computeHeredocEnd)
      else hereRawLoop here eos len indent n str

/-- src/lexer/parse_heredoc.rs:231-271: the loop for heredocs with interpolation. -/
def hereExpandLoop (here : HeredocLiteral) (eos len indent : Nat) : (fuel : Nat) → (c : MB) →
    LexM (Tok ⊕ HeredocEnd)
  | 0, _ => fail .fuel
  | n + 1, c => do
    pushback c
    match ← tokaddString here.func 10 none 0 with
    | (none, _) =>
      if ← getB (·.eofp) then return .inl (← hereDocumentError here eos len)
      else return .inl (← hereDocumentRestore here)
    | (some c, _) =>
      modS fun s => { s with lvalEnd := some (s.buffer.pcur + 1) }
      if c ≠ some 10 then
        if isC c '\\' then modB fun b => { b with heredocLineIndent := -1 } else pure ()
        return .inl (← heredocFlush)
      else
        tokaddMB (← nextc)
        if ← getB fun b => decide (b.heredocIndent > 0) then
          gotoEol
          return .inl (← heredocFlush)
        else
          let c ← nextc
          if c.isNone then return .inl (← hereDocumentError here eos len)
          else if ← atHeredocEnd eos len indent then return .inr (← computeHeredocEnd)
          else hereExpandLoop here eos len indent n c

/-- src/lexer/parse_heredoc.rs:275-279: the end of `here_document`. -/
def hereFinish (here : HeredocLiteral) (str : Bytes) (h : HeredocEnd) : LexM Tok := do
  heredocRestore here
  tokenFlush
  newStrterm (here.func ||| STR_FUNC_TERM) 0 (some 0) (some h)
  setLval str
  return .tSTRING_CONTENT

/-- src/lexer/parse_heredoc.rs:154-279: the body of a heredoc; `c` is its first character. -/
def hereBody (here : HeredocLiteral) (eos len indent : Nat) (c : MB) : LexM Tok := do
  if !hasF here.func STR_FUNC_EXPAND then
    match ← hereRawLoop here eos len indent (← fuel) [] with
    | .inl t => return t
    | .inr (str, h) => hereFinish here str h
  else
    newtok
    let fromC (c : MB) : LexM Tok := do
      match ← hereExpandLoop here eos len indent (← fuel) c with
      | .inl t => return t
      | .inr h => hereFinish here (← getS (·.tokenbuf)) h
    if isC c '#' then
      let t ← peekVariableName
      modB fun b =>
        if b.heredocLineIndent ≠ -1 then
          if b.heredocIndent > b.heredocLineIndent then
            { b with heredocIndent := b.heredocLineIndent, heredocLineIndent := -1 }
          else { b with heredocLineIndent := -1 }
        else b
      match t with
      | some t => return t
      | none =>
        tokadd (asc '#')
        fromC (← nextc)
    else fromC c

/-- src/lexer/parse_heredoc.rs:114-280 `here_document` for the heredoc in `strterm`. -/
def hereDocument (here : HeredocLiteral) : LexM Tok := do
  modS fun s => { s with lvalStart := some s.buffer.pcur }
  let line ← liftB fun b => b.input.lineAt here.lastline
  let eos := line.start + here.offset
  let len := here.length
  let indent := here.func &&& STR_FUNC_INDENT
  let c ← nextc
  if c.isNone then hereDocumentError here eos len
  else if !(← getB (·.wasBol)) then hereBody here eos len indent c
  else if ← getB fun b => b.heredocLineIndent == -1 then
    modB fun b => { b with heredocLineIndent := 0 }
    hereBody here eos len indent c
  else if ← atHeredocEnd eos len indent then hereDocumentRestore here
  else hereBody here eos len indent c

end Verif.Lexer
