import Verif.Model.Lexer.Numeric
import Verif.Model.Lexer.Heredoc
import Verif.Model.Lexer.Names
import Verif.Model.Lexer.Magic
/-!
Model of `src/lexer/main.rs`: `parser_yylex` and `yylex`.
The body of the retry loop is split by first character; each branch returns a token, goes back to the loop head with a value
of `space_seen`, or leaves the loop to read a name.
-/
namespace Verif.Lexer

/-- What one pass of the retry loop ends with. -/
inductive Next where
  | tok (t : Tok)
  | retry (spaceSeen : Bool)
  | ident

/-- Shorthand for a finished token. -/
def done (t : Tok) : LexM Next := return .tok t

/-- `set_yylval_id(op); lex_state.set(EXPR_BEG); return tOP_ASGN`. -/
def opAsgn (op : String) : LexM Next := do
  setLval (ascs op)
  setState EXPR_BEG
  done .tOP_ASGN

/-- src/lexer/main.rs:266-308: after a newline outside of brackets: look for a leading `.` or `&.` on the next lines. -/
def newlineLoop : (fuel : Nat) → (spaceSeen : Bool) → LexM Next
  | 0, _ => fail .fuel
  | n + 1, spaceSeen => do
    let c ← nextc
    if isC c ' ' || c == some 9 || c == some 12 || c == some 13 || c == some 11 then newlineLoop n true
    else if isC c '#' then
      pushback c
      return .retry spaceSeen
    else
      let leading ← if isC c '&' || isC c '.' then (· == isC c '&') <$> peek '.' else pure false
      if leading then
        pushback c
        return .retry spaceSeen
      else if c.isNone then
        liftBuf (·.eofNoDecrement)
        return .tok (← normalNewline)
      else
        let sourceline ← liftB fun b => csub b.rubySourceline 1
        modB fun b => { b with rubySourceline := sourceline, nextline := b.lastline }
        liftBuf (·.eofNoDecrement)
        return .tok (← normalNewline)
where
  /-- Run a buffer update that may panic. -/
  liftBuf (f : Buffer → Res Buffer) : LexM Unit := fun s => do return ((), { s with buffer := ← f s.buffer })

/-- src/lexer/main.rs:254-309: a newline (or the end of a comment line) was read. -/
def lexNewline (tokenSeen spaceSeen : Bool) : LexM Next := do
  modS fun s => { s with tokenSeen := tokenSeen }
  let st ← getState
  let cc := st.isSome (EXPR_BEG ||| EXPR_CLASS ||| EXPR_FNAME ||| EXPR_DOT) && !st.isSome EXPR_LABELED
  if cc || st.isAll (EXPR_ARG ||| EXPR_LABELED) then
    if !cc && (← getS (·.context.get .inKwarg)) then return .tok (← normalNewline)
    else return .retry spaceSeen
  else newlineLoop (← fuel) spaceSeen

/-- `self.comments.push(Comment::new(loc, input))`. -/
def pushComment (loc : Loc) : LexM Unit := do
  let c ← liftB fun b => Comment.new loc b.input.decoded
  modS fun s => { s with comments := s.comments ++ [c] }

/-- src/lexer/main.rs:236-253: a comment. -/
def lexComment (x : Ext) (tokenSeen spaceSeen : Bool) : LexM Next := do
  modS fun s => { s with tokenSeen := tokenSeen }
  let len ← liftB fun b => csub b.pend b.pcur
  match ← magicComment x (← pcur) len with
  | none => done .END_OF_INPUT
  | some magic =>
    let top ← if !magic then liftB commentAtTop else pure false
    if top then liftB (fun b => setFileEncoding b b.pcur b.pend) else pure ()
    gotoEol
    pushComment (← currentLoc)
    lexNewline tokenSeen spaceSeen

/-- src/lexer/main.rs:311-375. -/
def lexStar (spaceSeen : Bool) (lastState : LexState) : LexM Next := do
  let c ← nextc
  if isC c '*' then
    let c ← nextc
    if isC c '=' then opAsgn "**="
    else
      pushback c
      let result ← if ← spacearg c spaceSeen then do
          warn .DStarInterpretedAsArgPrefix (← currentLoc)
          pure Tok.tDSTAR
        else if (← getState).isBeg then pure .tDSTAR
        else warnBalanced .tPOW "**" "argument prefix" c spaceSeen lastState
      setStateAfterOp EXPR_BEG
      done result
  else if isC c '=' then opAsgn "*="
  else
    pushback c
    let result ← if ← spacearg c spaceSeen then do
        warn .StarInterpretedAsArgPrefix (← currentLoc)
        pure Tok.tSTAR
      else if (← getState).isBeg then pure .tSTAR
      else warnBalanced .tSTAR2 "*" "argument prefix" c spaceSeen lastState
    setStateAfterOp EXPR_BEG
    done result

/-- src/lexer/main.rs:377-395. -/
def lexBang : LexM Next := do
  let c ← nextc
  let op := (← getState).isAfterOperator
  setState (if op then EXPR_ARG else EXPR_BEG)
  if op && isC c '@' then done .tBANG
  else if isC c '=' then done .tNEQ
  else if isC c '~' then done .tNMATCH
  else
    pushback c
    done .tBANG

/-- src/lexer/main.rs:403-417: skip the lines of an embedded document; `false` at the end of input. -/
def embdocLoop (beginLoc : Loc) : (fuel : Nat) → LexM Bool
  | 0 => fail .fuel
  | n + 1 => do
    gotoEol
    let c ← nextc
    if c.isNone then
      compileError .EmbeddedDocumentMeetsEof beginLoc
      return false
    else
      let stop ← if isC c '=' then liftB (·.isWordMatch (ascs "end")) else pure false
      if stop then return true
      else
        pushback c
        embdocLoop beginLoc n

/-- src/lexer/main.rs:427-447: operators that start with `=`. -/
def lexEqOp : LexM Next := do
  setStateAfterOp EXPR_BEG
  let c ← nextc
  if isC c '=' then
    let c ← nextc
    if isC c '=' then done .tEQQ
    else
      pushback c
      done .tEQ
  else if isC c '~' then done .tMATCH
  else if isC c '>' then done .tASSOC
  else
    pushback c
    done .tEQL

/-- src/lexer/main.rs:397-448. -/
def lexEq (spaceSeen : Bool) : LexM Next := do
  let doc ← if ← getB (·.wasBol) then liftB (·.isWordMatch (ascs "begin")) else pure false
  if doc then
    let b ← pcurSub 1
    let beginLoc : Loc := ⟨b, (← pcur) + 5⟩
    gotoEol
    if ← embdocLoop beginLoc (← fuel) then
      gotoEol
      pushComment (beginLoc.withEnd (← pcur))
      return .retry spaceSeen
    else done .END_OF_INPUT
  else lexEqOp

/-- src/lexer/main.rs:463-497: operators that start with `<`; `c` is the second character. -/
def lexLtOp (c : MB) (spaceSeen : Bool) (lastState : LexState) : LexM Next := do
  let st ← getState
  if st.isAfterOperator then setState EXPR_ARG
  else
    modS fun s => if st.isSome EXPR_CLASS then { s with commandStart := true } else s
    setState EXPR_BEG
  if isC c '=' then
    let c ← nextc
    if isC c '>' then done .tCMP
    else
      pushback c
      done .tLEQ
  else if isC c '<' then
    let c ← nextc
    if isC c '=' then opAsgn "<<="
    else
      pushback c
      return .tok (← warnBalanced .tLSHFT "<<" "here document" c spaceSeen lastState)
  else
    pushback c
    done .tLT

/-- src/lexer/main.rs:450-498. -/
def lexLt (spaceSeen : Bool) (lastState : LexState) : LexM Next := do
  let c ← nextc
  let st ← getState
  if isC c '<' && !st.isSome (EXPR_DOT ||| EXPR_CLASS) && !st.isEnd
      && (!st.isArg || st.isSome EXPR_LABELED || spaceSeen) then
    match ← heredocIdentifier with
    | some t => done t
    | none => lexLtOp c spaceSeen lastState
  else lexLtOp c spaceSeen lastState

/-- src/lexer/main.rs:500-524. -/
def lexGt : LexM Next := do
  setStateAfterOp EXPR_BEG
  let c ← nextc
  if isC c '=' then done .tGEQ
  else if isC c '>' then
    let c ← nextc
    if isC c '=' then opAsgn ">>="
    else
      pushback c
      done .tRSHFT
  else
    pushback c
    done .tGT

/-- src/lexer/main.rs:526-535, 554-563: a quote starts a string. -/
def lexQuote (func : Nat) (quote : UInt8) (cmdState : Bool) : LexM Next := do
  let label := if (← getState).isLabelPossible cmdState then str_label else 0
  newStrterm (func ||| label) quote none none
  setPtok (← pcurSub 1)
  done .tSTRING_BEG

/-- src/lexer/main.rs:537-552. -/
def lexBacktick (cmdState : Bool) : LexM Next := do
  let st ← getState
  if st.isSome EXPR_FNAME then
    setState EXPR_ENDFN
    done .tBACK_REF2
  else if st.isSome EXPR_DOT then
    setState (if cmdState then EXPR_CMDARG else EXPR_ARG)
    done .tBACK_REF2
  else
    newStrterm str_xquote (asc '`') none none
    done .tXSTRING_BEG

/-- src/lexer/main.rs:593-604: is the warning about a block argument given, and which character is tested later? -/
def ampWarn (c : MB) (b : Buffer) : Bool × MB :=
  if !isC c ':' then (true, c)
  else
    let c := b.peekcN 1
    if !c.isNone then (true, c)
    else (!(isC c '\'' || isC c '"' || b.isIdentcharAt (b.pcur + 1)), c)

/-- src/lexer/main.rs:569-629. -/
def lexAmp (spaceSeen : Bool) (lastState : LexState) : LexM Next := do
  let c ← nextc
  if isC c '&' then
    setState EXPR_BEG
    let c ← nextc
    if isC c '=' then opAsgn "&&="
    else
      pushback c
      done .tANDOP
  else if isC c '=' then opAsgn "&="
  else if isC c '.' then
    setLval (ascs "&.")
    setState EXPR_DOT
    done .tANDDOT
  else
    pushback c
    let result ← if ← spacearg c spaceSeen then do
        let (w, _) ← getB (ampWarn c)
        if w then warn .AmpersandInterpretedAsArgPrefix (← currentLoc) else pure ()
        pure Tok.tAMPER
      else if (← getState).isBeg then pure .tAMPER
      else warnBalanced .tAMPER2 "&" "argument prefix" c spaceSeen lastState
    setStateAfterOp EXPR_BEG
    done result

/-- src/lexer/main.rs:631-660. -/
def lexPipe (lastState : LexState) : LexM Next := do
  let c ← nextc
  if isC c '|' then
    setState EXPR_BEG
    let c ← nextc
    if isC c '=' then opAsgn "||="
    else
      pushback c
      if lastState.isSome EXPR_BEG then
        pushbackByte
        done .tPIPE
      else done .tOROP
  else if isC c '=' then opAsgn "|="
  else
    setStateAfterOp (EXPR_BEG ||| EXPR_LABEL)
    pushback c
    done .tPIPE

/-- src/lexer/main.rs:677-679, 719-721: is the sign a unary operator? (`arg_ambiguous` is always true.) -/
def unaryHere (op : UInt8) (c : MB) (spaceSeen : Bool) : LexM Bool := do
  if (← getState).isBeg then return true
  else if ← spacearg c spaceSeen then
    argAmbiguous op (← currentLocShort)
    return true
  else return false

/-- src/lexer/main.rs:662-698. -/
def lexPlus (spaceSeen : Bool) (lastState : LexState) : LexM Next := do
  let c ← nextc
  if (← getState).isAfterOperator then
    setState EXPR_ARG
    if isC c '@' then done .tUPLUS
    else
      pushback c
      done .tPLUS
  else if isC c '=' then opAsgn "+="
  else if ← unaryHere (asc '+') c spaceSeen then
    setState EXPR_BEG
    pushback c
    if MB.isDigit c then return .tok (← parseNumeric (asc '+')) else done .tUPLUS
  else
    setState EXPR_BEG
    pushback c
    return .tok (← warnBalanced .tPLUS "+" "unary operator" c spaceSeen lastState)

/-- src/lexer/main.rs:700-740. -/
def lexMinus (spaceSeen : Bool) (lastState : LexState) : LexM Next := do
  let c ← nextc
  if (← getState).isAfterOperator then
    setState EXPR_ARG
    if isC c '@' then done .tUMINUS
    else
      pushback c
      done .tMINUS
  else if isC c '=' then opAsgn "-="
  else if isC c '>' then
    setState EXPR_ENDFN
    done .tLAMBDA
  else if ← unaryHere (asc '-') c spaceSeen then
    setState EXPR_BEG
    pushback c
    if MB.isDigit c then done .tUMINUS_NUM else done .tUMINUS
  else
    setState EXPR_BEG
    pushback c
    return .tok (← warnBalanced .tMINUS "-" "unary operator" c spaceSeen lastState)

/-- src/lexer/main.rs:748-761: three dots were read. -/
def lexDot3 (isBeg : Bool) (lastState : LexState) : LexM Next := do
  if ← getS (·.context.get .inArgdef) then
    setState EXPR_ENDARG
    done .tBDOT3
  else if ← getS fun s => s.parenNest == 0 && s.buffer.isLookingAtEol then
    warn .TripleDotAtEol (← currentLoc)
    done (if isBeg then .tBDOT3 else .tDOT3)
  else if ← getS fun s => decide (s.lparBeg ≥ 0) && s.lparBeg + 1 == s.parenNest && lastState.isSome EXPR_LABEL then
    done .tDOT3
  else done (if isBeg then .tBDOT3 else .tDOT3)

/-- src/lexer/main.rs:768-781: `.` before a digit. -/
def lexDotDigit (spaceSeen : Bool) : LexM Next := do
  let prev ← liftB fun b => do
    if (← csub b.pcur 1) > b.pbeg then return b.byteAt (← csub b.pcur 2) else return none
  let _ ← parseNumeric (asc '.')
  yyerror0 (if MB.isDigit prev then .FractionAfterNumeric else .NoDigitsAfterDot)
  setState EXPR_END
  tokenFlush
  return .retry spaceSeen

/-- src/lexer/main.rs:742-786. -/
def lexDot (spaceSeen : Bool) (lastState : LexState) : LexM Next := do
  let isBeg := (← getState).isBeg
  setState EXPR_BEG
  let c ← nextc
  if isC c '.' then
    let c ← nextc
    if isC c '.' then lexDot3 isBeg lastState
    else
      pushback c
      done (if isBeg then .tBDOT2 else .tDOT2)
  else
    pushback c
    if MB.isDigit c then lexDotDigit spaceSeen
    else
      setLval (ascs ".")
      setState EXPR_DOT
      done .tDOT

/-- src/lexer/main.rs:792-808: `)` and `]`. -/
def lexClose (state : Nat) (t : Tok) : LexM Next := do
  modS fun s => { s with
    cond := s.cond.pop, cmdarg := s.cmdarg.pop, lexState := state, parenNest := s.parenNest - 1 }
  done t

/-- src/lexer/main.rs:810-823. -/
def lexRcurly : LexM Next := do
  if ← getS fun s => s.braceNest == 0 then
    modS fun s => { s with braceNest := s.braceNest - 1 }
    done .tSTRING_DEND
  else
    modS fun s => { s with braceNest := s.braceNest - 1 }
    lexClose EXPR_END .tRCURLY

/-- src/lexer/main.rs:825-865. -/
def lexColon (spaceSeen : Bool) (lastState : LexState) : LexM Next := do
  let c ← nextc
  if isC c ':' then
    let st ← getState
    if st.isBeg || st.isSome EXPR_CLASS || (← spacearg none spaceSeen) then
      setState EXPR_BEG
      done .tCOLON3
    else
      setLval (ascs "::")
      setState EXPR_DOT
      done .tCOLON2
  else if (← getState).isEnd || MB.isSpace c || isC c '#' then
    pushback c
    let result ← warnBalanced .tCOLON ":" "symbol literal" c spaceSeen lastState
    setState EXPR_BEG
    done result
  else
    if isC c '\'' then newStrterm str_ssym (asc '\'') none none
    else if isC c '"' then newStrterm str_dsym (asc '"') none none
    else pushback c
    setState EXPR_FNAME
    done .tSYMBEG

/-- src/lexer/main.rs:867-897. -/
def lexSlash (spaceSeen : Bool) (lastState : LexState) : LexM Next := do
  if (← getState).isBeg then
    newStrterm str_regexp (asc '/') none none
    done .tREGEXP_BEG
  else
    let c ← nextc
    if isC c '=' then opAsgn "/="
    else
      pushback c
      if ← spacearg c spaceSeen then
        argAmbiguous (asc '/') (← currentLoc)
        newStrterm str_regexp (asc '/') none none
        done .tREGEXP_BEG
      else
        setStateAfterOp EXPR_BEG
        return .tok (← warnBalanced .tDIVIDE "/" "regexp literal" c spaceSeen lastState)

/-- src/lexer/main.rs:899-913. -/
def lexCaret : LexM Next := do
  let c ← nextc
  if isC c '=' then opAsgn "^="
  else
    setStateAfterOp EXPR_BEG
    pushback c
    done .tCARET

/-- src/lexer/main.rs:915-919. -/
def lexSemi : LexM Next := do
  setState EXPR_BEG
  modS fun s => { s with commandStart := true }
  done .tSEMI

/-- src/lexer/main.rs:921-924. -/
def lexComma : LexM Next := do
  setState (EXPR_BEG ||| EXPR_LABEL)
  done .tCOMMA

/-- src/lexer/main.rs:926-938. -/
def lexTilde : LexM Next := do
  if (← getState).isAfterOperator then
    let c ← nextc
    if !isC c '@' then pushback c else pure ()
    setState EXPR_ARG
    done .tTILDE
  else
    setState EXPR_BEG
    done .tTILDE

/-- `paren_nest += 1; cond.push(false); cmdarg.push(false)`. -/
def openNest : LexM Unit := modS fun s =>
  { s with parenNest := s.parenNest + 1, cond := s.cond.push false, cmdarg := s.cmdarg.push false }

/-- src/lexer/main.rs:940-964. -/
def lexLparen (spaceSeen : Bool) : LexM Next := do
  let st ← getState
  let result ←
    if st.isBeg then pure Tok.tLPAREN
    else if !spaceSeen then pure .tLPAREN2
    else if st.isArg || st.isAll (EXPR_END ||| EXPR_LABEL) then pure .tLPAREN_ARG
    else if st.isSome EXPR_ENDFN && !(← isLambdaBeginning) then do
      warn .ParenthesesIterpretedAsArglist (← currentLoc)
      pure .tLPAREN2
    else pure .tLPAREN2
  openNest
  setState (EXPR_BEG ||| EXPR_LABEL)
  done result

/-- src/lexer/main.rs:966-995. -/
def lexLbrack (spaceSeen : Bool) : LexM Next := do
  let st ← getState
  if st.isAfterOperator then
    modS fun s => { s with parenNest := s.parenNest + 1 }
    let c ← nextc
    if isC c ']' then
      modS fun s => { s with parenNest := s.parenNest - 1 }
      setState EXPR_ARG
      let c ← nextc
      if isC c '=' then done .tASET
      else
        pushback c
        done .tAREF
    else
      pushback c
      setState (EXPR_ARG ||| EXPR_LABEL)
      done .tLBRACK2
  else
    openNest
    setState (EXPR_BEG ||| EXPR_LABEL)
    if st.isBeg || (st.isArg && (spaceSeen || st.isSome EXPR_LABELED)) then done .tLBRACK else done .tLBRACK2

/-- src/lexer/main.rs:997-1025. -/
def lexLcurly : LexM Next := do
  modS fun s => { s with braceNest := s.braceNest + 1 }
  let st ← getState
  let result :=
    if ← isLambdaBeginning then Tok.tLAMBEG
    else if st.isSome EXPR_LABELED then .tLBRACE
    else if st.isSome (EXPR_ARG_ANY ||| EXPR_END ||| EXPR_ENDFN) then .tLCURLY
    else if st.isSome EXPR_ENDARG then .tLBRACE_ARG
    else .tLBRACE
  if result ≠ .tLBRACE then
    modS fun s => { s with commandStart := true }
    setState EXPR_BEG
  else setState (EXPR_BEG ||| EXPR_LABEL)
  openNest
  done result

/-- src/lexer/main.rs:1027-1048. -/
def lexBackslash : LexM Next := do
  let c ← nextc
  if c == some 10 then return .retry true
  else if isC c ' ' then done .tSP
  else if MB.isSpace c then
    if c == some 9 then done .tSLASH_T
    else if c == some 12 then done .tSLASH_F
    else if c == some 13 then done .tSLASH_R
    else if c == some 11 then done .tVTAB
    else fail .unreachable
  else
    pushback c
    done .tBACKSLASH

/-- src/lexer/main.rs:1062-1068. -/
def lexUnderscore : LexM Next := do
  let stop ← if ← getB (·.wasBol) then liftB (·.isWholeMatch (ascs "__END__") 0) else pure false
  if stop then
    modB fun b => { b with eofp := true }
    done .END_OF_INPUT
  else
    newtok
    return .ident

/-- src/lexer/main.rs:1070-1081. -/
def lexOther (c : UInt8) (spaceSeen : Bool) : LexM Next := do
  if !(← isIdentchar) then
    compileError (.InvalidChar c) (← currentLoc)
    tokenFlush
    return .retry spaceSeen
  else
    newtok
    return .ident

/-- src/lexer/main.rs:220-228: a carriage return that is not part of a CRLF; the code then reads a name. -/
def lexCr : LexM Next := do
  if !(← getB (·.crSeen)) then
    modB fun b => { b with crSeen := true }
    warn .SlashRAtMiddleOfLine (← currentLoc)
    return .ident
  else return .ident

/-- src/lexer/main.rs:213-1082: one pass of the retry loop after reading the character `c`. -/
def dispatch (x : Ext) (c : UInt8) (spaceSeen : Bool) (lastState : LexState) (cmdState tokenSeen : Bool) : LexM Next := do
  if c = 0 ∨ c = 4 ∨ c = 0x1a then done .END_OF_INPUT
  else if c = 13 then lexCr
  else if c = asc ' ' ∨ c = 9 ∨ c = 12 ∨ c = 11 then return .retry true
  else if c = asc '#' then lexComment x tokenSeen spaceSeen
  else if c = 10 then lexNewline tokenSeen spaceSeen
  else if c = asc '*' then lexStar spaceSeen lastState
  else if c = asc '!' then lexBang
  else if c = asc '=' then lexEq spaceSeen
  else if c = asc '<' then lexLt spaceSeen lastState
  else if c = asc '>' then lexGt
  else if c = asc '"' then lexQuote str_dquote c cmdState
  else if c = asc '`' then lexBacktick cmdState
  else if c = asc '\'' then lexQuote str_squote c cmdState
  else if c = asc '?' then return .tok (← parseQmark spaceSeen)
  else if c = asc '&' then lexAmp spaceSeen lastState
  else if c = asc '|' then lexPipe lastState
  else if c = asc '+' then lexPlus spaceSeen lastState
  else if c = asc '-' then lexMinus spaceSeen lastState
  else if c = asc '.' then lexDot spaceSeen lastState
  else if MB.u8Digit c then return .tok (← parseNumeric c)
  else if c = asc ')' then lexClose EXPR_ENDFN .tRPAREN
  else if c = asc ']' then lexClose EXPR_END .tRBRACK
  else if c = asc '}' then lexRcurly
  else if c = asc ':' then lexColon spaceSeen lastState
  else if c = asc '/' then lexSlash spaceSeen lastState
  else if c = asc '^' then lexCaret
  else if c = asc ';' then lexSemi
  else if c = asc ',' then lexComma
  else if c = asc '~' then lexTilde
  else if c = asc '(' then lexLparen spaceSeen
  else if c = asc '[' then lexLbrack spaceSeen
  else if c = asc '{' then lexLcurly
  else if c = asc '\\' then lexBackslash
  else if c = asc '%' then return .tok (← parsePercent spaceSeen lastState)
  else if c = asc '$' then return .tok (← parseGvar lastState)
  else if c = asc '@' then return .tok (← parseAtmark lastState)
  else if c = asc '_' then lexUnderscore
  else lexOther c spaceSeen

/-- src/lexer/main.rs:202-1087: the retry loop. -/
def yylexLoop (x : Ext) (cmdState tokenSeen : Bool) : (fuel : Nat) → (spaceSeen : Bool) → LexM Tok
  | 0, _ => fail .fuel
  | n + 1, spaceSeen => do
    let lastState ← getState
    tokenFlush
    match ← nextc with
    | none => return .END_OF_INPUT
    | some c =>
      match ← dispatch x c spaceSeen lastState cmdState tokenSeen with
      | .tok t => return t
      | .retry spaceSeen => yylexLoop x cmdState tokenSeen n spaceSeen
      | .ident => parseIdent x (some c) cmdState

/-- src/lexer/main.rs:178-1088 `parser_yylex`. -/
def parserYylex (x : Ext) : LexM Tok := do
  match ← getS (·.strterm) with
  | some (.heredoc here) => hereDocument here
  | some (.string lit) =>
    tokenFlush
    parseString lit
  | none =>
    let cmdState ← getS (·.commandStart)
    let tokenSeen ← getS (·.tokenSeen)
    modS fun s => { s with commandStart := false, tokenSeen := true }
    yylexLoop x cmdState tokenSeen (← fuel) false

/-- src/lexer/main.rs:130-166 `yylex`. -/
def yylex (x : Ext) : LexM Token := do
  modS fun s => { s with lval := none }
  let t ← parserYylex x
  let begin ← getS fun s => s.lvalStart.getD s.buffer.ptok
  let stop ← getS fun s => s.lvalEnd.getD s.buffer.pcur
  modS fun s => { s with lvalStart := none, lvalEnd := none }
  let value ← match ← getS (·.lval) with
    | some v => pure v
    | none => (·.getD []) <$> liftB fun b => b.substrAt begin stop
  modS fun s => { s with lval := none }
  if t = .tNL then return ⟨t, [10], ⟨begin, begin + 1⟩⟩
  else return ⟨t, value, ⟨begin, stop⟩⟩

/-- src/lexer/main.rs:95-107 `new`. -/
def new (name : String) (bytes : Bytes) (decoder : Option DecoderFn) : Res Lexer := do
  return { buffer := ← Buffer.new name bytes decoder, lparBeg := -1 }

/-- src/lexer/main.rs:116-128 `tokenize_until_eof`, with a step budget. -/
def tokenizeUntilEof (x : Ext) : (fuel : Nat) → LexM (List Token)
  | 0 => fail .fuel
  | n + 1 => do
    let t ← yylex x
    if t.tokenType = .END_OF_INPUT then return []
    else return t :: (← tokenizeUntilEof x n)

end Verif.Lexer
