import Verif.Model.Lexer.Core
/-! Model of `src/lexer/parse_numeric.rs`. -/
namespace Verif.Lexer

/-- src/lexer/parse_numeric.rs:8-10: the suffix bit sets `NUM_SUFFIX_R` / `NUM_SUFFIX_I` as two flags. -/
structure NumSuffix where
  r : Bool
  i : Bool
deriving DecidableEq, Repr

/-- src/lexer/parse_numeric.rs:10 `NUM_SUFFIX_ALL`. -/
def NUM_SUFFIX_ALL : NumSuffix := ⟨true, true⟩

/-- src/lexer/parse_numeric.rs:366-375 `set_number_literal`. -/
def setNumberLiteral (value : Bytes) (t : Tok) (suffix : NumSuffix) : LexM Tok := do
  if suffix.i then
    setLval (value ++ [asc 'i'])
    setState EXPR_END
    return .tIMAGINARY
  else
    setLval value
    setState EXPR_END
    return t

/-- src/lexer/parse_numeric.rs:421-428 `set_integer_literal`. -/
def setIntegerLiteral (value : Bytes) (suffix : NumSuffix) : LexM Tok :=
  if suffix.r then setNumberLiteral (value ++ [asc 'r']) .tRATIONAL suffix
  else setNumberLiteral value .tINTEGER suffix

/-- src/lexer/parse_numeric.rs:318-321 `invalid_octal`. -/
def invalidOctal : LexM Unit := yyerror0 .InvalidOctalDigit

/-- src/lexer/parse_numeric.rs:323-327 `trailing_uc`. -/
def trailingUc (nondigit : UInt8) : LexM Tok := do
  setPtok (← pcurSub 1)
  yyerror0 (.TrailingCharInNumber nondigit)
  return .END_OF_INPUT

/-- src/lexer/parse_numeric.rs:377-383 `no_digits`. -/
def noDigits : LexM Tok := do
  yyerror0 .NumericLiteralWithoutDigits
  if ← peek '_' then
    let _ ← nextc
    setIntegerLiteral (ascs "0") ⟨false, false⟩
  else setIntegerLiteral (ascs "0") ⟨false, false⟩

/-- src/lexer/parse_numeric.rs:391-416: the loop of `number_literal_suffix`. -/
def suffixLoop (lastp : Nat) : (fuel : Nat) → (mask result : NumSuffix) → LexM NumSuffix
  | 0, _, _ => fail .fuel
  | n + 1, mask, result => do
    let c ← nextc
    if c.isNone then return result
    else if mask.i && isC c 'i' then suffixLoop lastp n ⟨false, false⟩ { result with i := true }
    else if mask.r && isC c 'r' then suffixLoop lastp n { mask with r := false } { result with r := true }
    else if !MB.isAscii c || MB.isAlpha c || isC c '_' then
      modB fun b => { b with pcur := lastp }
      return ⟨false, false⟩
    else
      pushback c
      return result

/-- src/lexer/parse_numeric.rs:385-419 `number_literal_suffix`. -/
def numberLiteralSuffix (mask : NumSuffix) : LexM NumSuffix := do
  let lastp ← pcur
  suffixLoop lastp (← fuel) mask ⟨false, false⟩

/-- src/lexer/parse_numeric.rs:343-364 `parse_numeric_footer`. -/
def parseNumericFooter (isFloat seenE : Bool) : LexM Tok := do
  if isFloat then
    let suffix ← numberLiteralSuffix (if seenE then ⟨false, true⟩ else NUM_SUFFIX_ALL)
    let tok ← takeTok
    if suffix.r then setNumberLiteral (tok ++ [asc 'r']) .tRATIONAL suffix
    else setNumberLiteral tok .tFLOAT suffix
  else
    let suffix ← numberLiteralSuffix NUM_SUFFIX_ALL
    let tok ← takeTok
    setIntegerLiteral tok suffix

/-- src/lexer/parse_numeric.rs:329-341 `decode_num` (the value of `trailing_uc` is dropped). -/
def decodeNum (c : MB) (nondigit : Option MB) (isFloat seenE : Bool) : LexM Tok := do
  pushback c
  match nondigit with
  | some (some byte) =>
    let _ ← trailingUc byte
    parseNumericFooter isFloat seenE
  | _ => parseNumericFooter isFloat seenE

/-- src/lexer/parse_numeric.rs:36-59, 78-101, 120-143: the digit loop of the prefixed literals. -/
def digitLoop (isD : MB → Bool) : (fuel : Nat) → MB → Option MB → LexM (MB × Option MB)
  | 0, _, _ => fail .fuel
  | n + 1, c, nondigit => do
    if isC c '_' then
      if nondigit.isSome then return (c, nondigit)
      else
        tokaddMB c
        let c' ← nextc
        if c'.isNone then return (c', some c) else digitLoop isD n c' (some c)
    else if !isD c then return (c, nondigit)
    else
      tokaddMB c
      let c' ← nextc
      if c'.isNone then return (c', none) else digitLoop isD n c' none

/-- src/lexer/parse_numeric.rs:31-72, 73-114, 115-156: a literal with prefix `0x`, `0b` or `0d`; `c` is the prefix letter. -/
def prefixed (isD : MB → Bool) (start : Nat) (c : MB) : LexM Tok := do
  tokaddMB c
  let c ← nextc
  let (c, nondigit) ← if isD c then digitLoop isD (← fuel) c none else pure (c, none)
  pushback c
  if (← toklen) = start + 1 then noDigits
  else match nondigit with
    | some (some byte) => trailingUc byte
    | _ =>
      let suffix ← numberLiteralSuffix NUM_SUFFIX_ALL
      let tok ← takeTok
      setIntegerLiteral (ascs "0" ++ tok) suffix

/-- How the loop of `parse_octal` ends. -/
inductive OctEnd where
  | stop (c : MB) (nondigit : Option MB)
  | invalid (c : MB) (nondigit : Option MB)

/-- src/lexer/parse_numeric.rs:270-297: the loop of `parse_octal`. -/
def octalLoop : (fuel : Nat) → MB → Option MB → LexM OctEnd
  | 0, _, _ => fail .fuel
  | n + 1, c, nondigit => do
    if isC c '_' then
      if nondigit.isSome then return .stop c nondigit
      else
        tokaddMB c
        let c' ← nextc
        if c'.isNone then return .stop c' (some c) else octalLoop n c' (some c)
    else if MB.lt c (asc '0') || MB.gt c (asc '9') then return .stop c nondigit
    else if MB.gt c (asc '7') then
      invalidOctal
      return .invalid c nondigit
    else
      tokaddMB c
      let c' ← nextc
      if c'.isNone then return .stop c' none else octalLoop n c' none

/-- Result of `parse_octal`: a token, or the changed `c` and `nondigit`. -/
inductive OctRes where
  | tok (t : Tok)
  | cont (c : MB) (nondigit : Option MB)

/-- src/lexer/parse_numeric.rs:264-316 `parse_octal`. -/
def parseOctal (c : MB) (nondigit : Option MB) (start : Nat) : LexM OctRes := do
  match ← octalLoop (← fuel) c nondigit with
  | .invalid c nondigit => return .cont c nondigit
  | .stop c nondigit =>
    if (← toklen) > start then
      pushback c
      match nondigit with
      | some (some byte) => return .tok (← trailingUc byte)
      | _ =>
        let suffix ← numberLiteralSuffix NUM_SUFFIX_ALL
        let tok ← takeTok
        return .tok (← setIntegerLiteral (ascs "0" ++ tok) suffix)
    else match nondigit with
      | some (some byte) =>
        pushback c
        return .tok (← trailingUc byte)
      | _ => return .cont c nondigit

/-- src/lexer/parse_numeric.rs:193-261: the main digit loop. -/
def numLoop : (fuel : Nat) → (c : MB) → (isFloat seenPoint seenE : Bool) → (nondigit : Option MB) → LexM Tok
  | 0, _, _, _, _, _ => fail .fuel
  | n + 1, c, isFloat, seenPoint, seenE, nondigit => do
    if MB.isDigit c then
      tokaddMB c
      numLoop n (← nextc) isFloat seenPoint seenE none
    else if isC c '.' then
      match nondigit with
      | some (some byte) => trailingUc byte
      | _ =>
        if seenPoint || seenE then decodeNum c nondigit isFloat seenE
        else
          let c0 ← nextc
          if !MB.isDigit c0 then
            pushback c0
            decodeNum c nondigit isFloat seenE
          else
            tokadd (asc '.')
            tokaddMB c0
            numLoop n (← nextc) true true seenE none
    else if isC c 'e' || isC c 'E' then
      match nondigit with
      | some nd =>
        pushback c
        decodeNum nd nondigit isFloat seenE
      | none =>
        if seenE then decodeNum c nondigit isFloat seenE
        else
          let c' ← nextc
          if !isC c' '-' && !isC c' '+' && !MB.isDigit c' then
            pushback c'
            decodeNum c' none isFloat seenE
          else
            tokaddMB c
            tokaddMB c'
            let nd := if isC c' '-' || isC c' '+' then some c' else none
            numLoop n (← nextc) true seenPoint true nd
    else if isC c '_' then
      tokaddMB c
      if nondigit.isSome then decodeNum c nondigit isFloat seenE
      else numLoop n (← nextc) isFloat seenPoint seenE (some c)
    else decodeNum c nondigit isFloat seenE

/-- src/lexer/parse_numeric.rs:171-190: what follows the octal prefixes, when no literal was completed. -/
def afterZero (c : MB) (nondigit : Option MB) : LexM Tok := do
  if MB.gt c (asc '7') && MB.le c (asc '9') then
    invalidOctal
    numLoop (← fuel) c false false false nondigit
  else if isC c '.' || isC c 'e' || isC c 'E' then
    tokadd (asc '0')
    numLoop (← fuel) c false false false nondigit
  else
    pushback c
    let suffix ← numberLiteralSuffix NUM_SUFFIX_ALL
    let tok ← takeTok
    setIntegerLiteral (tok ++ [asc '0']) suffix

/-- src/lexer/parse_numeric.rs:163-178: the `0o` prefix and the octal digits. -/
def zeroOctal (c : MB) (nondigit : Option MB) (start : Nat) : LexM Tok := do
  if isC c 'o' || isC c 'O' then
    tokaddMB c
    let c ← nextc
    if c.isNone || isC c '_' || !MB.isDigit c then noDigits
    else if MB.ge c (asc '0') && MB.le c (asc '7') then
      match ← parseOctal c nondigit start with
      | .tok t => return t
      | .cont c nondigit => afterZero c nondigit
    else afterZero c nondigit
  else if MB.ge c (asc '0') && MB.le c (asc '7') then
    match ← parseOctal c nondigit start with
    | .tok t => return t
    | .cont c nondigit => afterZero c nondigit
  else afterZero c nondigit

/-- src/lexer/parse_numeric.rs:28-191: literals that start with `0`. -/
def zeroLiteral : LexM Tok := do
  let start ← toklen
  let c ← nextc
  if isC c 'x' || isC c 'X' then prefixed MB.isHexdigit start c
  else if isC c 'b' || isC c 'B' then prefixed (fun c => isC c '0' || isC c '1') start c
  else if isC c 'd' || isC c 'D' then prefixed MB.isDigit start c
  else if isC c '_' then
    match ← parseOctal c none start with
    | .tok t => return t
    | .cont c nondigit => zeroOctal c nondigit start
  else zeroOctal c none start

/-- src/lexer/parse_numeric.rs:13-262 `parse_numeric`. -/
def parseNumeric (pre : UInt8) : LexM Tok := do
  setState EXPR_END
  newtok
  let c ← if pre = asc '-' ∨ pre = asc '+' then do tokadd pre; nextc else pure (some pre)
  if isC c '0' then zeroLiteral
  else numLoop (← fuel) c false false false none

end Verif.Lexer
