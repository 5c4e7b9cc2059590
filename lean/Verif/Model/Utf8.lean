import Verif.Model.Source
/-!
UTF-8 as used through Rust's standard library: `String::from_utf8_lossy`, `std::str::from_utf8`,
`char::from_u32` and `char::encode_utf8`.  A text is a list of Unicode scalar values (`Nat`).
This file models documented behaviour of `std` (trusted), not code of the repository.
-/
namespace Verif.Utf8

/-- Unicode scalar values (`char::from_u32` succeeds). -/
def isScalar (n : Nat) : Bool := n < 0xD800 || (0xE000 ≤ n && n < 0x110000)

/-- `char::encode_utf8`. -/
def encode (n : Nat) : Bytes :=
  if n < 0x80 then [n.toUInt8]
  else if n < 0x800 then [(0xC0 + n / 64).toUInt8, (0x80 + n % 64).toUInt8]
  else if n < 0x10000 then
    [(0xE0 + n / 4096).toUInt8, (0x80 + n / 64 % 64).toUInt8, (0x80 + n % 64).toUInt8]
  else
    [(0xF0 + n / 262144).toUInt8, (0x80 + n / 4096 % 64).toUInt8, (0x80 + n / 64 % 64).toUInt8,
      (0x80 + n % 64).toUInt8]

/-- Bytes of a text. -/
def encodeAll (cs : List Nat) : Bytes := (cs.map encode).flatten

/-- Is `b` in `lo..=hi`? -/
def inR (b : UInt8) (lo hi : Nat) : Bool := lo ≤ b.toNat && b.toNat ≤ hi

/-- Result of looking at the front of a non-empty byte string: a scalar value, or an ill-formed maximal
subpart (`none`), and the number of bytes it occupies. -/
def step (b0 : UInt8) (rest : Bytes) : Option Nat × Nat :=
  let n0 := b0.toNat
  if n0 < 0x80 then (some n0, 1)
  else if inR b0 0xC2 0xDF then
    match rest with
    | b1 :: _ => if inR b1 0x80 0xBF then (some (n0 % 32 * 64 + b1.toNat % 64), 2) else (none, 1)
    | [] => (none, 1)
  else if inR b0 0xE0 0xEF then
    let lo := if n0 = 0xE0 then 0xA0 else 0x80
    let hi := if n0 = 0xED then 0x9F else 0xBF
    match rest with
    | b1 :: rest =>
      if inR b1 lo hi then
        match rest with
        | b2 :: _ =>
          if inR b2 0x80 0xBF then
            (some (n0 % 16 * 4096 + b1.toNat % 64 * 64 + b2.toNat % 64), 3)
          else (none, 2)
        | [] => (none, 2)
      else (none, 1)
    | [] => (none, 1)
  else if inR b0 0xF0 0xF4 then
    let lo := if n0 = 0xF0 then 0x90 else 0x80
    let hi := if n0 = 0xF4 then 0x8F else 0xBF
    match rest with
    | b1 :: rest =>
      if inR b1 lo hi then
        match rest with
        | b2 :: rest =>
          if inR b2 0x80 0xBF then
            match rest with
            | b3 :: _ =>
              if inR b3 0x80 0xBF then
                (some (n0 % 8 * 262144 + b1.toNat % 64 * 4096 + b2.toNat % 64 * 64 + b3.toNat % 64), 4)
              else (none, 3)
            | [] => (none, 3)
          else (none, 2)
        | [] => (none, 2)
      else (none, 1)
    | [] => (none, 1)
  else (none, 1)

/-- Chunked decoding: a scalar or an ill-formed subpart per chunk. `n` bounds the number of chunks. -/
def chunksN : (n : Nat) → Bytes → List (Option Nat)
  | 0, _ => []
  | _, [] => []
  | n + 1, b0 :: rest =>
    let (c, k) := step b0 rest
    c :: chunksN n ((b0 :: rest).drop k)

/-- Every chunk has at least one byte, so the length bounds the number of chunks. -/
def chunks (bs : Bytes) : List (Option Nat) := chunksN bs.length bs

/-- `String::from_utf8_lossy`: ill-formed subparts become U+FFFD. -/
def lossy (bs : Bytes) : List Nat := (chunks bs).map (·.getD 0xFFFD)

/-- `std::str::from_utf8(bs).is_ok()`. -/
def valid (bs : Bytes) : Bool := (chunks bs).all (·.isSome)

end Verif.Utf8

namespace Verif.Loc

/-- src/loc_ext.rs:33-36 `source` (text as scalar values). -/
def source (l : Loc) (d : DecodedInput) : Res (Option (List Nat)) := do
  match ← d.substrAt l.begin l.stop with
  | none => return none
  | some bs => return some (Utf8.lossy bs)

end Verif.Loc
