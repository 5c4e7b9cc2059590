import Verif.Model.Lexer.String
/-! Model of `src/lexer/parse_ident.rs`, `parse_gvar.rs`, `parse_atmark.rs`, `parse_qmark.rs`, `parse_percent.rs`. -/
namespace Verif.Lexer

/-- src/lexer/parse_ident.rs:8-13 `is_var_name`. -/
def isVarName (x : Ext) (ident : Bytes) : Bool :=
  match Utf8.lossy ident with
  | first :: _ => !x.isUppercase first
  | [] => false

/-- src/lexer/parse_ident.rs:48-51: may `name=` be one name here (a `=` was just read)? -/
def setterSuffix : LexM Bool := liftB fun b => do
  if ← b.peek (asc '~') then return false
  else if ← b.peek (asc '>') then return false
  else if !(← b.peek (asc '=')) then return true
  else b.peekN (asc '>') 1

/-- src/lexer/parse_ident.rs:44-58: what follows the name; the result is the provisional token. -/
def identSuffix (c : MB) : LexM Tok := do
  let fid ← if isC c '!' || isC c '?' then (!·) <$> peek '=' else pure false
  if fid then
    tokaddMB c
    return .tFID
  else
    let setter ← if isC c '=' && (← getState).isSome EXPR_FNAME then setterSuffix else pure false
    if setter then
      tokaddMB c
      return .tIDENTIFIER
    else
      pushback c
      return .tCONSTANT

/-- src/lexer/parse_ident.rs:69-99: a reserved word. -/
def identKeyword (kw : ReservedWord) : LexM Tok := do
  let state ← getState
  if state.isSome EXPR_FNAME then
    setState EXPR_ENDFN
    setYylvalName
    return kw.id
  else
    setState kw.state
    modS fun s => if s.lexState.isSome EXPR_BEG then { s with commandStart := true } else s
    if kw.id = .kDO then
      if ← isLambdaBeginning then
        modS fun s => { s with lparBeg := -1 }
        return .kDO_LAMBDA
      else if ← getS (·.cond.isActive) then return .kDO_COND
      else if (← getS (·.cmdarg.isActive)) && !state.isSome EXPR_CMDARG then return .kDO_BLOCK
      else return .kDO
    else if state.isSome (EXPR_BEG ||| EXPR_LABELED) then return kw.id
    else
      if kw.id ≠ kw.modifierId then setState (EXPR_BEG ||| EXPR_LABEL) else pure ()
      return kw.modifierId

/-- src/lexer/parse_ident.rs:103-135: an ordinary name; `lastState` is the state before the name. -/
def identName (x : Ext) (lastState : LexState) (result : Tok) (cmdState : Bool) : LexM Tok := do
  let st ← getState
  if st.isSome (EXPR_BEG_ANY ||| EXPR_ARG_ANY ||| EXPR_DOT) then
    setState (if cmdState then EXPR_CMDARG else EXPR_ARG)
  else if st.is EXPR_FNAME then setState EXPR_ENDFN
  else setState EXPR_END
  setYylvalName
  let ident ← getS (·.tokenbuf)
  if !Utf8.valid ident then
    yyerror0 .InvalidMultibyteChar
    return .END_OF_INPUT
  else
    let result := if result = .tCONSTANT ∧ isVarName x ident then Tok.tIDENTIFIER else result
    if !lastState.isSome (EXPR_DOT ||| EXPR_FNAME) && result == .tIDENTIFIER && (← isLvarDefined ident) then
      setState (EXPR_END ||| EXPR_LABEL)
      return result
    else return result

/-- src/lexer/parse_ident.rs:28-136 `parse_ident`. -/
def parseIdent (x : Ext) (c : MB) (cmdState : Bool) : LexM Tok := do
  let lastState ← getState
  match ← identLoop (← fuel) c with
  | none => return .END_OF_INPUT
  | some c =>
    let result ← identSuffix c
    let label ← if (← getState).isLabelPossible cmdState then isLabelSuffix 0 else pure false
    if label then
      setState (EXPR_ARG ||| EXPR_LABELED)
      let _ ← nextc
      setYylvalName
      return .tLABEL
    else
      let kw ← if !(← getState).isSome EXPR_DOT then do
          let tok ← getS (·.tokenbuf)
          liftB fun _ => reservedWord tok
        else pure none
      match kw with
      | some kw => identKeyword kw
      | none => identName x lastState result cmdState

/-- src/lexer/parse_gvar.rs:83-90: the digits of `$1`, ...; returns the first other character. -/
def nthLoop : (fuel : Nat) → MB → LexM MB
  | 0, _ => fail .fuel
  | n + 1, c => do
    tokaddMB c
    let c ← nextc
    if c.isNone || !MB.isDigit c then return c else nthLoop n c

/-- src/lexer/parse_gvar.rs:115-120: the name of a global variable. -/
def gvarName (c : MB) : LexM Tok := do
  if ← tokaddIdent c then return .END_OF_INPUT
  else
    setState EXPR_END
    setYylvalName
    return .tGVAR

/-- src/lexer/parse_gvar.rs:8-121 `parse_gvar`. -/
def parseGvar (lastState : LexState) : LexM Tok := do
  setState EXPR_END
  setPtok (← pcurSub 1)
  newtok
  let c ← nextc
  if isC c '_' then
    let c ← nextc
    if ← isIdentchar then
      tokadd (asc '$')
      tokadd (asc '_')
      gvarName c
    else
      pushback c
      tokadd (asc '$')
      tokadd (asc '_')
      return .tGVAR
  else if (match c with | some ch => (ascs "~*$?!@/\\;,.=:<>\"").contains ch | none => false) then
    tokadd (asc '$')
    tokaddMB c
    return .tGVAR
  else if isC c '-' then
    tokadd (asc '$')
    tokaddMB c
    let c ← nextc
    if ← isIdentchar then
      if !(← tokaddMbchar c) then return .END_OF_INPUT else return .tGVAR
    else
      pushback c
      pushbackByte
      return .tCHAR
  else if isC c '&' || isC c '`' || isC c '\'' || isC c '+' then
    if lastState.isSome EXPR_FNAME then
      tokadd (asc '$')
      tokaddMB c
      return .tGVAR
    else return .tBACK_REF
  else if MB.ge c (asc '1') && MB.le c (asc '9') then
    tokadd (asc '$')
    let c ← nthLoop (← fuel) c
    pushback c
    if lastState.isSome EXPR_FNAME then return .tGVAR else return .tNTH_REF
  else if !(← isIdentchar) then
    match c with
    | some name =>
      if name = asc ' ' then compileError .GvarWithoutId (← currentLoc)
      else compileError (.InvalidGvarName name) (← currentLoc)
      return .tGVAR
    | none =>
      compileError .GvarWithoutId (← currentLoc)
      return .tGVAR
  else
    tokadd (asc '$')
    gvarName c

/-- src/lexer/parse_atmark.rs:7-61 `parse_atmark`. -/
def parseAtmark (lastState : LexState) : LexM Tok := do
  let ptr ← pcur
  let c ← nextc
  let ptok ← liftB fun _ => csub ptr 1
  setPtok ptok
  newtok
  tokadd (asc '@')
  let (result, c) ← if isC c '@' then do
      tokadd (asc '@')
      pure (Tok.tCVAR, ← nextc)
    else pure (Tok.tIVAR, c)
  setState (if lastState.isSome EXPR_FNAME then EXPR_ENDFN else EXPR_END)
  let bad ← if c.isNone then pure true else (!·) <$> isIdentchar
  if bad then
    pushback c
    compileError (if result = .tIVAR then .IvarWithoutId else .CvarWithoutId) (← currentLoc)
    setState EXPR_END
    return result
  else
    match c with
    | some ch =>
      if MB.u8Digit ch then
        compileError (if result = .tIVAR then .InvalidIvarName ch else .InvalidCvarName ch) (← currentLoc)
        setState EXPR_END
        return result
      else if ← tokaddIdent c then return .END_OF_INPUT
      else
        setYylvalName
        return result
    | none => fail .unreachable

/-- src/lexer/parse_qmark.rs:8-12 `parse_qmark_ternary`. -/
def qmarkTernary (c : MB) : LexM Tok := do
  pushback c
  setState EXPR_VALUE
  return .tEH

/-- src/lexer/parse_qmark.rs:48-59: the end of the name at `ptr`; `none` on a malformed character. -/
def qmarkNameLoop : (fuel : Nat) → (ptr : Nat) → LexM (Option Nat)
  | 0, _ => fail .fuel
  | n + 1, ptr => do
    match ← multibyteCharLen ptr with
    | none => return none
    | some len =>
      let ptr := ptr + len
      if ← getB fun b => decide (ptr < b.pend) && b.isIdentcharAt ptr then qmarkNameLoop n ptr else return some ptr

/-- src/lexer/parse_qmark.rs:88-92: a character literal is complete. -/
def qmarkChar : LexM Tok := do
  setLval (← takeTok)
  setState EXPR_END
  return .tCHAR

/-- src/lexer/parse_qmark.rs:45-70: `?` before a name is the ternary operator. -/
def qmarkName (spaceSeen : Bool) (c : MB) : LexM Tok := do
  if spaceSeen then
    let start ← pcurSub 1
    match ← qmarkNameLoop (← fuel) start with
    | none => return .END_OF_INPUT
    | some ptr =>
      match ← liftB fun b => b.substrAt start ptr with
      | none => fail .expect
      | some name =>
        let before ← liftB fun _ => csub start 1
        warn (.AmbiguousTernaryOperator (Utf8.lossy name)) ⟨before, start⟩
        qmarkTernary c
  else qmarkTernary c

/-- src/lexer/parse_qmark.rs:71-84: `?\` and an escape. -/
def qmarkEscape : LexM Tok := do
  if ← peek 'u' then
    let _ ← nextc
    tokaddUtf8 none false
    qmarkChar
  else if ← getB fun b => !b.isEol && !MB.isAscii (b.byteAt b.pcur) then
    let c ← getB fun b => b.byteAt b.pcur
    let _ ← nextc
    if !(← tokaddMbchar c) then return .END_OF_INPUT else qmarkChar
  else
    tokaddMB (← readEscape 4 false false)
    qmarkChar

/-- src/lexer/parse_qmark.rs:14-93 `parse_qmark` (never `Err`). -/
def parseQmark (spaceSeen : Bool) : LexM Tok := do
  if (← getState).isEnd then
    setState EXPR_VALUE
    return .tEH
  else
    let c ← nextc
    if c.isNone then
      compileError .IncompleteCharacterSyntax (← currentLoc)
      return .END_OF_INPUT
    else if MB.isSpace c then
      if !(← getState).isArg then
        match MB.escapedControlCode c with
        | some c2 => warnSpaceChar c2 "?"
        | none => pure ()
      else pure ()
      qmarkTernary c
    else
      newtok
      if !(← isAsciiPrev) then
        if !(← tokaddMbchar c) then return .END_OF_INPUT else qmarkChar
      else if (MB.isAlnum c || isC c '_') && (← getB fun b => decide (b.pcur < b.pend) && b.isIdentcharAt b.pcur) then
        qmarkName spaceSeen c
      else if isC c '\\' then qmarkEscape
      else
        tokaddMB c
        qmarkChar

/-- src/lexer/parse_percent.rs:9-21 `percent_unknown`. -/
def percentUnknown (term : MB) : LexM Tok := do
  pushback term
  match ← multibyteCharLen (← pcur) with
  | none => return .END_OF_INPUT
  | some len =>
    modB fun b => { b with pcur := b.pcur + len }
    compileError .UnknownTypeOfPercentString (← currentLocShort)
    return .END_OF_INPUT

/-- src/lexer/parse_percent.rs:112-118 `percent_unterminated`. -/
def percentUnterminated : LexM Tok := do
  compileError .UnterminatedQuotedString (← currentLoc)
  return .END_OF_INPUT

/-- src/lexer/parse_percent.rs:43-109: the literal kind `kind` and the opening delimiter are known. -/
def percentOpen (kind : UInt8) (open_ : UInt8) (ptok : Nat) : LexM Tok := do
  let (term, paren) :=
    if open_ = asc '(' then (asc ')', some open_)
    else if open_ = asc '[' then (asc ']', some open_)
    else if open_ = asc '{' then (asc '}', some open_)
    else if open_ = asc '<' then (asc '>', some open_)
    else (open_, none)
  setPtok (← liftB fun _ => csub ptok 1)
  let go (func : Nat) (t : Tok) : LexM Tok := do
    newStrterm func term paren none
    return t
  if kind = asc 'Q' then go str_dquote .tSTRING_BEG
  else if kind = asc 'q' then go str_squote .tSTRING_BEG
  else if kind = asc 'W' then go str_dword .tWORDS_BEG
  else if kind = asc 'w' then go str_sword .tQWORDS_BEG
  else if kind = asc 'I' then go str_dword .tSYMBOLS_BEG
  else if kind = asc 'i' then go str_sword .tQSYMBOLS_BEG
  else if kind = asc 'x' then go str_xquote .tXSTRING_BEG
  else if kind = asc 'r' then go str_regexp .tREGEXP_BEG
  else if kind = asc 's' then
    newStrterm str_ssym term paren none
    setState (EXPR_FNAME ||| EXPR_FITEM)
    return .tSYMBEG
  else
    compileError .UnknownTypeOfPercentString (← currentLocShort)
    return .END_OF_INPUT

/-- src/lexer/parse_percent.rs:23-110 `percent_quotation`. -/
def percentQuotation (c : MB) (ptok : Nat) : LexM Tok := do
  match c with
  | none => percentUnterminated
  | some ch =>
    if !MB.u8Alnum ch then
      if !MB.u8Ascii ch then percentUnknown c else percentOpen (asc 'Q') ch ptok
    else
      let term ← nextc
      if MB.isAlnum term then percentUnknown term
      else match term with
        | none => percentUnterminated
        | some term => percentOpen ch term ptok

/-- src/lexer/parse_percent.rs:120-154 `parse_percent`. -/
def parsePercent (spaceSeen : Bool) (lastState : LexState) : LexM Tok := do
  let ptok ← pcur
  if (← getState).isBeg then
    percentQuotation (← nextc) ptok
  else
    let c ← nextc
    if isC c '=' then
      setLval (ascs "%=")
      setState EXPR_BEG
      return .tOP_ASGN
    else if (← spacearg c spaceSeen) || ((← getState).isSome EXPR_FITEM && isC c 's') then
      percentQuotation c ptok
    else
      setStateAfterOp EXPR_BEG
      pushback c
      warnBalanced .tPERCENT "%%" "string literal" c spaceSeen lastState

end Verif.Lexer
