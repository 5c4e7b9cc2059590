import Verif.Model.Report
/-!
Model of `src/source/decoder.rs` and of `src/source/input.rs`.
Encoding names are texts (lists of scalar values). `str::to_uppercase` is a parameter `up` (per scalar value),
constrained only on ASCII by `UpOk`; a user decoder is an arbitrary function. To be able to say *how often* and *with
what* the decoder is called, `decodeInput` also returns the list of calls it made.
-/
namespace Verif

/-- src/source/decoder.rs:5-13 `InputError`. -/
inductive InputError where
  | unsupportedEncoding (name : List Nat)
  | decodingError (msg : List Nat)
deriving DecidableEq, Repr

/-- src/source/decoder.rs:26-32 `DecoderResult`. -/
inductive DecoderResult where
  | ok (bytes : Bytes)
  | err (e : InputError)
deriving DecidableEq, Repr

/-- src/source/decoder.rs:65 `DecoderFn`. -/
abbrev DecoderFn := List Nat → Bytes → DecoderResult

/-- What is known about `char::to_uppercase` on ASCII. -/
structure UpOk (up : Nat → List Nat) : Prop where
  lower : ∀ n, 97 ≤ n → n ≤ 122 → up n = [n - 32]
  other : ∀ n, n < 128 → ¬ (97 ≤ n ∧ n ≤ 122) → up n = [n]

/-- `str::to_uppercase`. -/
def toUppercase (up : Nat → List Nat) (t : List Nat) : List Nat := (t.map up).flatten

/-- src/source/decoder.rs:90-101 `decode_input`, with the list of decoder calls. -/
def decodeInput (up : Nat → List Nat) (input : Bytes) (enc : List Nat) (decoder : Option DecoderFn) :
    DecoderResult × List (List Nat × Bytes) :=
  if toUppercase up enc = lit "UTF-8" ∨ toUppercase up enc = lit "ASCII-8BIT" ∨
      toUppercase up enc = lit "BINARY" then (.ok input, [])
  else match decoder with
    | some f => (f enc input, [(enc, input)])
    | none => (.err (.unsupportedEncoding enc), [])

/-- src/source/input.rs:8-11 `Input`. -/
structure Input where
  decoded : DecodedInput
  decoder : Option DecoderFn

namespace Input

/-- src/source/input.rs:15-23 `new`. -/
def new (name : String) (decoder : Option DecoderFn) : Input := ⟨.named name, decoder⟩

/-- src/source/input.rs:26-28 `update_bytes`. -/
def updateBytes (i : Input) (bytes : Bytes) : Input := { i with decoded := i.decoded.updateBytes bytes }

/-- src/source/input.rs:65-74 `set_encoding`: the bytes are *taken* out of the input before decoding; `?` leaves
early on error. Returns the new input, the result and the decoder calls. -/
def setEncoding (up : Nat → List Nat) (i : Input) (encoding : List Nat) :
    Input × Except InputError Unit × List (List Nat × Bytes) :=
  let (bytes, decoded) := i.decoded.takeBytes
  let i := { i with decoded := decoded }
  match decodeInput up bytes encoding i.decoder with
  | (.ok newInput, calls) => (i.updateBytes newInput, .ok (), calls)
  | (.err e, calls) => (i, .error e, calls)

end Input
end Verif
