import Verif.Model.Basic
/-!
Model of `src/source/source_line.rs`, `src/source/decoded_input.rs` and of `Loc` / `src/loc_ext.rs`.
-/
namespace Verif

/-- src/source/source_line.rs:4-13 `SourceLine`. -/
structure SourceLine where
  start : Nat
  stop : Nat
  endsWithEof : Bool
deriving DecidableEq, Repr

namespace SourceLine

/-- src/source/source_line.rs:17-19 `len` (`self.end - self.start`, checked). -/
def len (l : SourceLine) : Res Nat := csub l.stop l.start

/-- src/source/source_line.rs:22-24 `is_empty`. -/
def isEmpty (l : SourceLine) : Res Bool := do return (← l.len) == 0

/-- src/source/source_line.rs:27-33 `line_end`. -/
def lineEnd (l : SourceLine) : Res Nat :=
  if !l.endsWithEof then csub l.stop 1 else .ok l.stop

end SourceLine

/-- src/source/decoded_input.rs:6-15 `DecodedInput`. -/
structure DecodedInput where
  name : String
  lines : List SourceLine
  bytes : Bytes
deriving DecidableEq, Repr

namespace DecodedInput

/-- src/source/decoded_input.rs:19-27 `named`. -/
def named (name : String) : DecodedInput := ⟨name, [], []⟩

/-- src/source/decoded_input.rs:47-58: the `for (idx, c) in bytes.iter().enumerate()` loop of
`update_bytes`; state is the line being built and the lines pushed so far. -/
def updateLoop : (idx : Nat) → (line : SourceLine) → (lines : List SourceLine) → Bytes →
    SourceLine × List SourceLine
  | _, line, lines, [] => (line, lines)
  | idx, line, lines, c :: rest =>
    let line := { line with stop := idx + 1 }
    if c = 10 then
      let line := { line with endsWithEof := false }
      updateLoop (idx + 1) ⟨idx + 1, 0, true⟩ (lines ++ [line]) rest
    else
      updateLoop (idx + 1) line lines rest

/-- src/source/decoded_input.rs:39-65 `update_bytes`. -/
def updateBytes (d : DecodedInput) (bytes : Bytes) : DecodedInput :=
  let (line, lines) := updateLoop 0 ⟨0, 0, true⟩ [] bytes
  let line := { line with stop := bytes.length, endsWithEof := true }
  { d with bytes := bytes, lines := lines ++ [line] }

/-- src/source/decoded_input.rs:34-36 `take_bytes` (`std::mem::take`). -/
def takeBytes (d : DecodedInput) : Bytes × DecodedInput :=
  (d.bytes, { d with bytes := [] })

/-- src/source/decoded_input.rs:100-102 `len`. -/
def len (d : DecodedInput) : Nat := d.bytes.length

/-- src/source/decoded_input.rs:77-85: the loop over `lines` in `line_col_for_pos`. -/
def lineColLoop : (lineno : Nat) → (pos : Nat) → List SourceLine → Res (Option (Nat × Nat))
  | _, _, [] => .ok none
  | lineno, pos, line :: rest => do
    let n ← line.len
    if n > pos then
      return some (lineno, pos)
    else
      lineColLoop (lineno + 1) (← csub pos n) rest

/-- src/source/decoded_input.rs:70-86 `line_col_for_pos`. -/
def lineColForPos (d : DecodedInput) (pos : Nat) : Res (Option (Nat × Nat)) :=
  if pos = d.len then
    match d.lines.getLast? with
    | none => .ok none
    | some lastLine => do
      return some ((← csub d.lines.length 1), (← lastLine.len))
  else
    lineColLoop 0 pos d.lines

/-- src/source/decoded_input.rs:88-90 `line_at` (panics out of range). -/
def lineAt (d : DecodedInput) (idx : Nat) : Res SourceLine :=
  match d.lines[idx]? with
  | some l => .ok l
  | none => .error .index

/-- src/source/decoded_input.rs:92-98 `substr_at`. The slice `&self.bytes[start..end]` itself would panic
out of range; the guard is modelled separately from the slice. -/
def sliceChecked (bytes : Bytes) (start stop : Nat) : Res Bytes :=
  if start ≤ stop ∧ stop ≤ bytes.length then .ok ((bytes.drop start).take (stop - start))
  else .error .index

/-- src/source/decoded_input.rs:92-98 `substr_at`. -/
def substrAt (d : DecodedInput) (start stop : Nat) : Res (Option Bytes) :=
  if start ≤ stop ∧ stop ≤ d.bytes.length then do
    return some (← sliceChecked d.bytes start stop)
  else .ok none

end DecodedInput

/-- `Loc` of the external crate `lib_ruby_parser_ast`; documented by the commented-out copy
src/loc_ext.rs:39-153. -/
structure Loc where
  begin : Nat
  stop : Nat
deriving DecidableEq, Repr

namespace Loc

/-- src/loc_ext.rs:46-48 `size`. -/
def size (l : Loc) : Res Nat := csub l.stop l.begin

/-- src/loc_ext.rs:51-56 `with_begin`. -/
def withBegin (l : Loc) (b : Nat) : Loc := { l with begin := b }

/-- src/loc_ext.rs:59-64 `with_end`. -/
def withEnd (l : Loc) (e : Nat) : Loc := { l with stop := e }

/-- Conversion used by `adjust_*` (src/loc_ext.rs:67-94): `usize -> i32` fails from 2^31 on, the sum is an
`i32` addition and the result is converted back with a failing conversion for negative values. -/
def adjustNat (n : Nat) (d : Int) : Res Nat :=
  if n < 2 ^ 31 then
    let r := (n : Int) + d
    if r < 2 ^ 31 ∧ -(2 ^ 31) ≤ r then
      if 0 ≤ r then .ok r.toNat else .error .expect
    else .error .underflow
  else .error .expect

/-- src/loc_ext.rs:67-79 `adjust_begin`. -/
def adjustBegin (l : Loc) (d : Int) : Res Loc := do return { l with begin := (← adjustNat l.begin d) }

/-- src/loc_ext.rs:82-94 `adjust_end`. -/
def adjustEnd (l : Loc) (d : Int) : Res Loc := do return { l with stop := (← adjustNat l.stop d) }

/-- src/loc_ext.rs:98-100 `resize`. -/
def resize (l : Loc) (n : Nat) : Loc := l.withEnd (l.begin + n)

/-- src/loc_ext.rs:103-108 `join`. -/
def join (a b : Loc) : Loc := ⟨min a.begin b.begin, max a.stop b.stop⟩

/-- src/loc_ext.rs:110-115 `maybe_join`. -/
def maybeJoin (a : Loc) : Option Loc → Loc
  | some b => a.join b
  | none => a

/-- src/loc_ext.rs:15-17 `begin_line_col`. -/
def beginLineCol (l : Loc) (d : DecodedInput) : Res (Option (Nat × Nat)) := d.lineColForPos l.begin

/-- src/loc_ext.rs:19-30 `expand_to_line`. -/
def expandToLine (l : Loc) (d : DecodedInput) : Res (Option (Nat × Loc)) := do
  match ← l.beginLineCol d with
  | none => return none
  | some (beginLine, _) =>
    let line ← d.lineAt beginLine
    return some (beginLine, ⟨line.start, (← line.lineEnd)⟩)

end Loc
end Verif
