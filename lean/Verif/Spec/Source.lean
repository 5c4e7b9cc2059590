import Verif.Model.Basic
/-!
Specification vocabulary for positions in a byte array, written without reference to the model of
`DecodedInput`.
-/
namespace Verif.Spec

/-- Line feed. -/
abbrev LF : UInt8 := 10

/-- Number of line feeds among the first `pos` bytes. -/
def lineOf (bytes : Bytes) (pos : Nat) : Nat := (bytes.take pos).count LF

/-- Distance from `pos` back to just after the last line feed before it (or to the start). -/
def colOf (bytes : Bytes) (pos : Nat) : Nat :=
  ((bytes.take pos).reverse.takeWhile (fun c => c != LF)).length

/-- The bytes `a..b`. -/
def slice (bytes : Bytes) (a b : Nat) : Bytes := (bytes.drop a).take (b - a)

/-- `a..b` is a maximal range without line feed: it starts at 0 or after a line feed, ends at the end or at a
line feed, and contains none. -/
structure IsLineBody (bytes : Bytes) (a b : Nat) : Prop where
  le : a ≤ b
  stop_le : b ≤ bytes.length
  no_lf : LF ∉ slice bytes a b
  before : a = 0 ∨ bytes[a - 1]? = some LF
  after : b = bytes.length ∨ bytes[b]? = some LF

end Verif.Spec
