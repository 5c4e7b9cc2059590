import Verif.Spec.Source
import Verif.Model.Lexer.Core
/-!
What a comment is, in terms of the source bytes.
-/
namespace Verif.Spec

/-- `i..j` is a comment that starts with `#` and takes the rest of the line, with its line feed. -/
structure LineComment (bs : Bytes) (i j : Nat) : Prop where
  hash : bs[i]? = some 35
  lt : i < j
  stop_le : j ≤ bs.length
  no_lf : ∀ k, i ≤ k → k + 1 < j → bs[k]? ≠ some LF
  after : j = bs.length ∨ bs[j - 1]? = some LF

/-- A line starts at `i` (possibly after a byte order mark). -/
def LineStart (bs : Bytes) (i : Nat) : Prop := i = 0 ∨ bs[i - 1]? = some LF ∨ i = 3

/-- The word `w` stands at `i`, followed by white space, the end of the line or an end-of-script byte. -/
def WordAt (bs : Bytes) (i : Nat) (w : String) : Prop :=
  slice bs i (i + (ascs w).length) = ascs w ∧
    (bs[i + (ascs w).length]? = none ∨ ∃ c, bs[i + (ascs w).length]? = some c ∧
      (c = 32 ∨ (9 ≤ c ∧ c ≤ 13) ∨ c = 0 ∨ c = 0x1a ∨ c = 4))

/-- `i..j` is an embedded document: from a line with the word `=begin` up to and including a later line with
the word `=end`. -/
structure DocComment (bs : Bytes) (i j : Nat) : Prop where
  start : LineStart bs i
  head : WordAt bs i "=begin"
  stop_le : j ≤ bs.length
  tail : ∃ k, i < k ∧ k < j ∧ bs[k - 1]? = some LF ∧ WordAt bs k "=end" ∧
    (∀ m, k ≤ m → m + 1 < j → bs[m]? ≠ some LF) ∧ (j = bs.length ∨ bs[j - 1]? = some LF)

/-- A faithfully recorded comment. -/
def CommentOk (bs : Bytes) (c : Comment) : Prop :=
  (c.kind = .inline ∧ LineComment bs c.location.begin c.location.stop) ∨
  (c.kind = .document ∧ DocComment bs c.location.begin c.location.stop)

/-- The keys of each kind of magic comment. -/
def magicKeys : MagicKind → List String
  | .encoding => ["encoding", "coding"]
  | .frozenStringLiteral => ["frozen_string_literal"]
  | .warnIndent => ["warn_indent"]
  | .shareableConstantValue => ["shareable_constant_value"]

/-- A faithfully recorded magic comment: key and value lie, in this order and separated, inside one line comment, and the key
names the kind, up to `-` written for `_`. -/
structure MagicCommentOk (bs : Bytes) (m : MagicComment) : Prop where
  inside : ∃ i j, LineComment bs i j ∧ i < m.keyL.begin ∧ m.valueL.stop ≤ j
  key : m.keyL.begin ≤ m.keyL.stop
  sep : m.keyL.stop < m.valueL.begin
  value : m.valueL.begin ≤ m.valueL.stop
  kind : ∃ k ∈ magicKeys m.kind, (slice bs m.keyL.begin m.keyL.stop).map (fun b => if b = 45 then 95 else b) = ascs k

end Verif.Spec
