import Verif.Model.Lexer.Core
/-! Model of `src/lexer/parse_magic_comment.rs`. -/
namespace Verif.Lexer

/-- src/lexer/parse_magic_comment.rs:9-21 `MAGIC_COMMENTS`. -/
def MAGIC_COMMENTS : List (Bytes × MagicKind) := [
  (ascs "coding", .encoding),
  (ascs "encoding", .encoding),
  (ascs "frozen_string_literal", .frozenStringLiteral),
  (ascs "shareable_constant_value", .shareableConstantValue),
  (ascs "warn_indent", .warnIndent)]

/-- `while len > 0 && p(char_at(str)) { str += 1; len -= 1 }`: the number of steps, for `n` = `len` (0 if negative). -/
def mcSkip (p : MB → Bool) (b : Buffer) : (n : Nat) → (str : Nat) → Nat
  | 0, _ => 0
  | n + 1, str => if p (b.byteAt str) then mcSkip p b n (str + 1) + 1 else 0

/-- src/lexer/parse_magic_comment.rs:24-37 `comment_at_top`. -/
def commentAtTop (b : Buffer) : Res Bool := do
  let ptrEnd ← csub b.pcur 1
  if b.lineCount ≠ (if b.hasShebang then 2 else 1) then return false
  else return mcSkip MB.isSpace b (ptrEnd - b.pbeg) b.pbeg == ptrEnd - b.pbeg

/-- src/lexer/parse_magic_comment.rs:42-88: look for `coding` followed by a separator; `none` is the early return. -/
def sfeFind (b : Buffer) (send : Nat) : (fuel : Nat) → (str : Nat) → (sep : Bool) → Res (Option (Nat × Bool))
  | 0, _, _ => .error .fuel
  | n + 1, str, sep => do
    if (← csub send str) ≤ 6 then return none
    else
      let c := b.byteAt (str + 6)
      if isC c 'C' || isC c 'c' then sfeFind b send n (str + 6) sep
      else if isC c 'O' || isC c 'o' then sfeFind b send n (str + 5) sep
      else if isC c 'D' || isC c 'd' then sfeFind b send n (str + 4) sep
      else if isC c 'I' || isC c 'i' then sfeFind b send n (str + 3) sep
      else if isC c 'N' || isC c 'n' then sfeFind b send n (str + 2) sep
      else if isC c 'G' || isC c 'g' then sfeFind b send n (str + 1) sep
      else if isC c '=' || isC c ':' then
        if (← b.substrAt str (str + 6)) = some (ascs "coding") then return some (str + 6, true)
        else sfeFind b send n (str + 6) false
      else if !MB.isSpace (b.byteAt (str + 6)) then sfeFind b send n (str + 6) sep
      else if (← b.substrAt str (str + 6)) = some (ascs "coding") then return some (str + 6, sep)
      else sfeFind b send n (str + 6) false

/-- src/lexer/parse_magic_comment.rs:90-98: advance at least once and skip white space; `none` is the early return. -/
def sfeSkip (b : Buffer) (send : Nat) : (fuel : Nat) → (str : Nat) → Res (Option Nat)
  | 0, _ => .error .fuel
  | n + 1, str =>
    let str := str + 1
    if str ≥ send then .ok none
    else if !MB.isSpace (b.byteAt str) then .ok (some str)
    else sfeSkip b send n str

/-- src/lexer/parse_magic_comment.rs:111-116: the end of the encoding name. -/
def sfeName (b : Buffer) (send : Nat) : (fuel : Nat) → (str : Nat) → Res Nat
  | 0, _ => .error .fuel
  | n + 1, str =>
    let c := b.byteAt str
    if isC c '-' || isC c '_' || (MB.isAlnum c && str + 1 < send) then sfeName b send n (str + 1) else .ok str

/-- src/lexer/parse_magic_comment.rs:109-121: the encoding name is extracted and dropped. -/
def sfeValue (b : Buffer) (send beg : Nat) : Res Unit := do
  let stop ← sfeName b send (b.input.decoded.bytes.length + 1) beg
  match ← b.substrAt beg stop with
  | some _ => return ()
  | none => .error .expect

/-- src/lexer/parse_magic_comment.rs:39-122 `set_file_encoding`: it has no effect (but could panic). -/
def setFileEncoding (b : Buffer) (str send : Nat) : Res Unit := do
  match ← sfeFind b send (send + 1) str false with
  | none => return ()
  | some (str, sep) =>
    match ← sfeSkip b send (send + 1) str with
    | none => return ()
    | some str =>
      if sep then sfeValue b send str
      else
        let c := b.byteAt str
        if !isC c '=' && !isC c ':' then return ()
        else match ← sfeSkip b send (send + 1) (str + 1) with
          | none => return ()
          | some str => sfeValue b send str

/-- src/lexer/parse_magic_comment.rs:127-149: the loop of `magic_comment_marker`. -/
def markerLoop (b : Buffer) (str len : Nat) : (fuel : Nat) → (i : Nat) → Res Nat
  | 0, _ => .error .fuel
  | n + 1, i =>
    if i < len then
      let c := b.byteAt (str + i)
      if isC c '-' then do
        if isC (b.byteAt (← csub (str + i) 1)) '*' && isC (b.byteAt (← csub (str + i) 2)) '-' then return str + i + 1
        else markerLoop b str len n (i + 2)
      else if isC c '*' then do
        if i + 1 ≥ len then return 0
        else if !isC (b.byteAt (str + i + 1)) '-' then markerLoop b str len n (i + 4)
        else if !isC (b.byteAt (← csub (str + i) 1)) '-' then markerLoop b str len n (i + 2)
        else return str + i + 2
      else markerLoop b str len n (i + 3)
    else .ok 0

/-- src/lexer/parse_magic_comment.rs:124-151 `magic_comment_marker`. -/
def magicCommentMarker (b : Buffer) (str len : Nat) : Res Nat := markerLoop b str len (len + 1) 2

/-- src/lexer/parse_magic_comment.rs:183, 205: one of `'":;`. -/
def mcSep (c : MB) : Bool := isC c '\'' || isC c '"' || isC c ':' || isC c ';'

/-- src/lexer/parse_magic_comment.rs:258-271: the end of a quoted value and the new `len` (`n` = `len`, 0 if negative). -/
def mcQuoted (b : Buffer) : (n : Nat) → (str : Nat) → (len : Int) → Nat × Int
  | 0, str, len => (str, len - 1)
  | n + 1, str, len =>
    let c := b.byteAt str
    if len - 1 > 0 ∧ !isC c '"' then
      if isC c '\\' then mcQuoted b n (str + 2) (len - 2) else mcQuoted b n (str + 1) (len - 1)
    else (str, len - 1)

/-- src/lexer/parse_magic_comment.rs:254-292: the value: (vbeg, vend, str, len). -/
def mcValue (b : Buffer) (str : Nat) (len : Int) : Nat × Nat × Nat × Int :=
  if isC (b.byteAt str) '"' then
    let (vend, len) := mcQuoted b len.toNat (str + 1) len
    if len ≠ 0 then (str + 1, vend, vend + 1, len - 1) else (str + 1, vend, vend, len)
  else
    let k := mcSkip (fun c => !isC c '"' && !isC c ';' && !MB.isSpace c) b len.toNat str
    (str, str + k, str + k, len - k)

/-- src/lexer/parse_magic_comment.rs:317 `name.replace('-', "_")`. -/
def mcName (name : Bytes) : Bytes := name.map fun c => if c = asc '-' then asc '_' else c

/-- src/lexer/parse_magic_comment.rs:318-366: record the comment under each matching kind; `false` is `Err(())`. -/
def mcRecord (x : Ext) (name : Bytes) (keyL valueL : Loc) : List (Bytes × MagicKind) → LexM Bool
  | [] => return true
  | (n, kind) :: rest => do
    if mcName name = n then
      let top ← if kind = .encoding then liftB commentAtTop else pure false
      let ok ← if top then do
          match ← liftB fun b => b.substrAt valueL.begin valueL.stop with
          | none => fail .expect
          | some enc =>
            if !Utf8.valid enc then do
              compileError (.EncodingErrorUtf8 (Utf8.lossy enc)) valueL
              pure false
            else do
              let (input, r, _) ← getB fun b => b.input.setEncoding x.up (Utf8.lossy enc)
              modB fun b => { b with input := input }
              match r with
              | .ok _ => pure true
              | .error e => do
                compileError (.EncodingError e) valueL
                pure false
        else pure true
      if !ok then return false
      else
        modS fun s => { s with magicComments := s.magicComments ++ [⟨kind, keyL, valueL⟩] }
        mcRecord x name keyL valueL rest
    else mcRecord x name keyL valueL rest

/-- src/lexer/parse_magic_comment.rs:176-369: the main loop; `none` is `Err(())`. -/
def mcLoop (x : Ext) (indicator : Bool) : (fuel : Nat) → (str : Nat) → (len : Int) → LexM (Option Bool)
  | 0, _, _ => fail .fuel
  | n + 1, str, len => do
    if len ≤ 0 then return some true
    else
      let b ← getB id
      let k := mcSkip (fun c => mcSep c || MB.isSpace c) b len.toNat str
      let (str, len) := (str + k, len - k)
      let beg := str
      let k := mcSkip (fun c => !mcSep c && !MB.isSpace c) b len.toNat str
      let (str, len) := (str + k, len - k)
      let stop := str
      let k := mcSkip MB.isSpace b len.toNat str
      let (str, len) := (str + k, len - k)
      if len = 0 then return some true
      else if !isC (b.byteAt str) ':' then
        if !indicator then return some false else mcLoop x indicator n str len
      else
        let (str, len) := (str + 1, len - 1)
        let k := mcSkip MB.isSpace b len.toNat str
        let (str, len) := (str + k, len - k)
        if len = 0 then return some true
        else
          let (vbeg, vend, str, len) := mcValue b str len
          let k := mcSkip (fun c => (indicator && isC c ';') || MB.isSpace c) b len.toNat str
          let (str, len) := (str + k, len - k)
          if !indicator && len != 0 then return some false
          else
            match ← liftB fun b => b.substrAt beg stop with
            | none => fail .expect
            | some name =>
              if !Utf8.valid name then return none
              else if !(← mcRecord x name ⟨beg, stop⟩ ⟨vbeg, vend⟩ MAGIC_COMMENTS) then return none
              else mcLoop x indicator n str len

/-- src/lexer/parse_magic_comment.rs:153-370 `magic_comment`; `none` is `Err(())`. -/
def magicComment (x : Ext) (str len : Nat) : LexM (Option Bool) := do
  if len ≤ 7 then return some false
  else
    let beg ← liftB (magicCommentMarker · str len)
    if beg ≠ 0 then
      let n ← liftB fun _ => csub (str + len) beg
      let stop ← liftB (magicCommentMarker · beg n)
      if stop = 0 then return some false
      else
        let len ← liftB fun _ => do csub (← csub stop beg) 3
        if len < 2 ^ 31 then mcLoop x true (len + 1) beg len else fail .expect
    else if len < 2 ^ 31 then mcLoop x false (len + 1) str len
    else fail .expect

end Verif.Lexer
