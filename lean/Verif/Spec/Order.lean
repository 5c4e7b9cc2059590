import Verif.Model.Lexer.Core
/-! What it means that tokens come in the order of the source. -/
namespace Verif.Spec

/-- At `p`, only a line end follows, or not even that. -/
def LastLineEnd (bs : Bytes) (p : Nat) : Prop :=
  bs.length ≤ p + 1 ∨ (bs.length = p + 2 ∧ bs[p]? = some 13 ∧ bs[p + 1]? = some 10)

/-- Token `a` comes before token `b` in the source: it does not begin later, and it ends before the other begins; except that after
the newline token of the last line end another one may follow for the same line end. -/
def Before (bs : Bytes) (a b : Token) : Prop :=
  a.loc.begin ≤ b.loc.begin ∧ (a.loc.stop ≤ b.loc.begin ∨ (a.tokenType = .tNL ∧ LastLineEnd bs a.loc.begin))

/-- The token opens a here document. -/
def OpensHere (t : Token) : Prop := (t.tokenType = .tSTRING_BEG ∨ t.tokenType = .tXSTRING_BEG) ∧ t.tokenValue.take 2 = ascs "<<"

end Verif.Spec
