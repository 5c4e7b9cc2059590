import Verif.Spec.Quoted
import Verif.Model.Utf8
/-! Specification of the text of literals with escape sequences (`"..."`, `%Q`, `` `...` ``, `%x`), as described in Ruby's manual. -/
namespace Verif.EscapeSpec

/-- Hexadecimal digits. -/
def hex (c : UInt8) : Option Nat :=
  ((ascs "0123456789abcdef").idxOf? c).or ((ascs "0123456789ABCDEF").idxOf? c)

/-- Octal digits. -/
def oct (c : UInt8) : Option Nat := (ascs "01234567").idxOf? c

/-- The number that digits denote. -/
def value (base : Nat) (dig : UInt8 → Option Nat) (ds : Bytes) : Nat := ds.foldl (fun acc c => acc * base + (dig c).getD 0) 0

/-- Between one and `most` digits, followed by no further digit unless there are `most` already. -/
structure Number (dig : UInt8 → Option Nat) (most : Nat) (ds rest : Bytes) : Prop where
  digits : ∀ c ∈ ds, (dig c).isSome = true
  pos : 1 ≤ ds.length
  len : ds.length ≤ most
  whole : ds.length = most ∨ ∀ c, rest.head? = some c → dig c = none

/-- Letters with a meaning of their own. -/
def letters : List (UInt8 × UInt8) :=
  [(asc 'n', 10), (asc 't', 9), (asc 'r', 13), (asc 'f', 12), (asc 'v', 11), (asc 'a', 7), (asc 'e', 27), (asc 'b', 8), (asc 's', 32)]

/-- Characters that stand for themselves after a backslash: every one without a meaning. `without` leaves characters out. -/
structure Itself (without : Bytes) (c : UInt8) : Prop where
  letter : c ∉ letters.map (·.1)
  special : c ∉ ascs "01234567xuMCc"
  line : c ≠ 10
  out : c ∉ without

/-- Printable ASCII characters without the space. -/
def Graph (c : UInt8) : Prop := 33 ≤ c ∧ c ≤ 126
instance (c : UInt8) : Decidable (Graph c) := by unfold Graph; infer_instance

/-- Prefixes of control characters. -/
def controls : List Bytes := [ascs "c", ascs "C-"]

/-- An escape sequence for one byte: the text after the backslash, the byte and the text that follows. A sequence has at most one
`\M-` and one control prefix; `meta_` and `ctrl` say which were there already. -/
inductive Byte (without : Bytes) : (meta_ ctrl : Bool) → Bytes → UInt8 → Bytes → Prop
  | letter {m k c v rest} : (c, v) ∈ letters → Byte without m k (c :: rest) v rest
  | itself {m k c rest} : Itself without c → Byte without m k (c :: rest) c rest
  | octal {m k ds rest} : Number oct 3 ds rest → Byte without m k (ds ++ rest) (UInt8.ofNat (value 8 oct ds)) rest
  | hex {m k ds rest} : Number hex 2 ds rest → Byte without m k (asc 'x' :: (ds ++ rest)) (UInt8.ofNat (value 16 hex ds)) rest
  | delete {m p rest} : p ∈ controls → Byte without m false (p ++ asc '?' :: rest) 0x7f rest
  | control {m p c rest} : p ∈ controls → Graph c → c ≠ asc '?' → c ≠ asc '\\' → Byte without m false (p ++ c :: rest) (c &&& 0x9f) rest
  | controlOf {m p text v rest} : p ∈ controls → text.head? ≠ some (asc 'U') → Byte without m true text v rest →
      Byte without m false (p ++ asc '\\' :: text) (v &&& 0x9f) rest
  | alt {k c rest} : Graph c → c ≠ asc '\\' → Byte without false k (ascs "M-" ++ c :: rest) (c ||| 0x80) rest
  | altOf {k text v rest} : text.head? ≠ some (asc 'U') → Byte without true k text v rest →
      Byte without false k (ascs "M-" ++ asc '\\' :: text) (v ||| 0x80) rest

/-- Blanks between code points. -/
def Sep (c : UInt8) : Prop := c = 32 ∨ c = 9

/-- Code points inside `\u{...}` up to the brace, and the text after it. -/
inductive Codes : Bytes → List Nat → Bytes → Prop
  | last {ds sp rest} : (∀ c ∈ ds, (hex c).isSome = true) → 1 ≤ ds.length → ds.length ≤ 6 → Utf8.isScalar (value 16 hex ds) = true →
      (∀ c ∈ sp, Sep c) → Codes (ds ++ (sp ++ asc '}' :: rest)) [value 16 hex ds] rest
  | cons {ds sp text ns rest} : (∀ c ∈ ds, (hex c).isSome = true) → 1 ≤ ds.length → ds.length ≤ 6 → Utf8.isScalar (value 16 hex ds) = true →
      (∀ c ∈ sp, Sep c) → sp ≠ [] → Codes text ns rest → Codes (ds ++ (sp ++ text)) (value 16 hex ds :: ns) rest

/-- An escape sequence: the text after the backslash, the bytes it denotes and the text that follows. A backslash in front of the end of
a line joins the lines. -/
inductive Escape (without : Bytes) : Bytes → Bytes → Bytes → Prop
  | byte {text v rest} : Byte without false false text v rest → Escape without text [v] rest
  | join {rest} : Escape without (10 :: rest) [] rest
  | four {ds rest} : (∀ c ∈ ds, (hex c).isSome = true) → ds.length = 4 → Utf8.isScalar (value 16 hex ds) = true →
      Escape without (asc 'u' :: (ds ++ rest)) (Utf8.encode (value 16 hex ds)) rest
  | codes {sp text ns rest} : (∀ c ∈ sp, Sep c) → Codes text ns rest → Escape without (asc 'u' :: asc '{' :: (sp ++ text)) (ns.flatMap Utf8.encode) rest

/-- The text of a literal that ends with `close` and has no interpolation; `opener` is the opening bracket if the literal is delimited by
brackets, `depth` counts the brackets that are open. -/
inductive Denotes (without : Bytes) (close : UInt8) (opener : Option UInt8) : (depth : Nat) → Bytes → Bytes → Bytes → Prop
  | stop {rest} : some close ≠ opener → Denotes without close opener 0 (close :: rest) [] (close :: rest)
  | up {depth c text v rest} : some c = opener → Denotes without close opener (depth + 1) text v rest →
      Denotes without close opener depth (c :: text) (c :: v) rest
  | down {depth text v rest} : some close ≠ opener → Denotes without close opener depth text v rest →
      Denotes without close opener (depth + 1) (close :: text) (close :: v) rest
  | plain {depth c text v rest} : some c ≠ opener → c ≠ close → c ≠ asc '\\' → (c = asc '#' → ∀ d, text.head? = some d → d ∉ ascs "$@{") →
      Denotes without close opener depth text v rest → Denotes without close opener depth (c :: text) (c :: v) rest
  | escape {depth text text' w v rest} : Escape without text w text' → Denotes without close opener depth text' v rest →
      Denotes without close opener depth (asc '\\' :: text) (w ++ v) rest

end Verif.EscapeSpec
