import Verif.Model.Decoder
import Verif.Props.Source
/-! Property theorems C09, C10 (encodings). -/
namespace Verif.Props
open Verif Spec

/-- ASCII lower-case letters made upper-case, everything else unchanged. -/
def asciiUpper (n : Nat) : Nat := if 97 ≤ n ∧ n ≤ 122 then n - 32 else n

/-- `enc` is `name` up to ASCII letter case. -/
def SameIgnoringCase (enc : List Nat) (name : String) : Prop := enc.map asciiUpper = lit name

instance (enc : List Nat) (name : String) : Decidable (SameIgnoringCase enc name) :=
  inferInstanceAs (Decidable (_ = _))

/-- One of the built-in encodings. -/
def BuiltIn (enc : List Nat) : Prop :=
  SameIgnoringCase enc "UTF-8" ∨ SameIgnoringCase enc "ASCII-8BIT" ∨ SameIgnoringCase enc "BINARY"

instance (enc : List Nat) : Decidable (BuiltIn enc) := inferInstanceAs (Decidable (_ ∨ _))

theorem toUppercase_ascii {up : Nat → List Nat} (hup : UpOk up) {enc : List Nat} (h : ∀ c ∈ enc, c < 128) :
    toUppercase up enc = enc.map asciiUpper := by
  unfold toUppercase
  induction enc with
  | nil => rfl
  | cons c cs ih =>
    have hc := h c (by simp)
    rw [List.map_cons, List.flatten_cons, ih (fun x hx => h x (by simp [hx])), List.map_cons]
    have : up c = [asciiUpper c] := by
      unfold asciiUpper
      split
      · exact hup.lower c (by omega) (by omega)
      · exact hup.other c hc (by assumption)
    rw [this]; rfl

/-- **C09** Encoding dispatch for every ASCII name, every input and every decoder: the result together with the exact
list of calls made to the decoder. -/
theorem C09_dispatch (up : Nat → List Nat) (hup : UpOk up) (input : Bytes) (enc : List Nat)
    (henc : ∀ c ∈ enc, c < 128) (decoder : Option DecoderFn) :
    decodeInput up input enc decoder =
      if BuiltIn enc then (.ok input, [])
      else match decoder with
        | some f => (f enc input, [(enc, input)])
        | none => (.err (.unsupportedEncoding enc), []) := by
  unfold decodeInput
  rw [toUppercase_ascii hup henc]
  rfl

/-- **C09** For names that are not ASCII only the dispatch on the upper-cased name is known: either the bytes are used
as they are and nothing is called, or the decoder is called once with the original name and bytes. -/
theorem C09_dispatch_any (up : Nat → List Nat) (input : Bytes) (enc : List Nat) (decoder : Option DecoderFn) :
    decodeInput up input enc decoder = (.ok input, []) ∨
    (∃ f, decoder = some f ∧ decodeInput up input enc decoder = (f enc input, [(enc, input)])) ∨
    (decoder = none ∧ decodeInput up input enc decoder = (.err (.unsupportedEncoding enc), [])) := by
  unfold decodeInput
  split
  · exact Or.inl rfl
  · cases decoder with
    | some f => exact Or.inr (Or.inl ⟨f, rfl, rfl⟩)
    | none => exact Or.inr (Or.inr ⟨rfl, rfl⟩)

/-- The ASCII part of upper-casing used in concrete instances. -/
def asciiUp (n : Nat) : List Nat := [asciiUpper n]

theorem asciiUp_ok : UpOk asciiUp :=
  ⟨fun n h1 h2 => by simp [asciiUp, asciiUpper, h1, h2], fun n _ h => by simp [asciiUp, asciiUpper, h]⟩

example : BuiltIn (lit "Utf-8") ∧ ¬ BuiltIn (lit "utf8") := by decide
example : decodeInput asciiUp [255] (lit "binary") (some fun _ _ => .ok []) = (.ok [255], []) := by decide
example : decodeInput asciiUp [255] (lit "koi8-r") (some fun _ b => .ok (1 :: b))
    = (.ok [1, 255], [(lit "koi8-r", [255])]) := by decide

/-- The full claim of C10, for one input, name and decoder. -/
def KeepsSource (up : Nat → List Nat) (i : Input) (enc : List Nat) : Prop :=
  ∀ e i' calls, i.setEncoding up enc = (i', .error e, calls) → i'.decoded.bytes = i.decoded.bytes

/-- **C10 is violated**: a source in an unknown encoding is lost - the returned input is empty, and a diagnostic that
points at the magic comment cannot be rendered. -/
theorem C10_violated :
    ¬ (∀ up i enc, KeepsSource up i enc) ∧
    (let i := (Input.new "x" none).updateBytes (ascs "# encoding: koi8-r\n")
     (i.setEncoding asciiUp (lit "koi8-r")).1.decoded.bytes = [] ∧
     (Diagnostic.mk .error [] ⟨12, 18⟩).render (i.setEncoding asciiUp (lit "koi8-r")).1.decoded = .ok none) := by
  constructor
  · intro h
    have := h asciiUp ((Input.new "x" none).updateBytes [65]) (lit "koi8-r") (.unsupportedEncoding (lit "koi8-r"))
      ⟨⟨"x", [⟨0, 1, true⟩], []⟩, none⟩ [] rfl
    simp [Input.updateBytes] at this
  · decide

/-- **C10** what does hold: on success the input is re-split from exactly the decoded bytes; on error the error of the
dispatch is reported, no bytes are left, the line table and name are the old ones. Missing for the full claim: the
bytes after an error. -/
theorem C10_partial (up : Nat → List Nat) (i : Input) (enc : List Nat) :
    (∀ bytes calls, decodeInput up i.decoded.bytes enc i.decoder = (.ok bytes, calls) →
      i.setEncoding up enc = (i.updateBytes bytes, .ok (), calls)) ∧
    (∀ e calls, decodeInput up i.decoded.bytes enc i.decoder = (.err e, calls) →
      ∃ i', i.setEncoding up enc = (i', .error e, calls) ∧ i'.decoded.bytes = [] ∧
        i'.decoded.lines = i.decoded.lines ∧ i'.decoded.name = i.decoded.name) := by
  constructor
  · intro bytes calls h
    unfold Input.setEncoding
    simp only [DecodedInput.takeBytes, h]
    rfl
  · intro e calls h
    unfold Input.setEncoding
    simp only [DecodedInput.takeBytes, h]
    exact ⟨_, rfl, rfl, rfl, rfl⟩

example : (((Input.new "x" (some fun _ _ => .ok (ascs "a\nb"))).updateBytes [65]).setEncoding asciiUp
    (lit "koi8-r")).1.decoded.lines.length = 2 := by decide

end Verif.Props
