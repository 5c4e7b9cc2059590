import Verif.Spec.Calls
import Verif.Spec.Words
/-!
What the builder relies on without checking it: the tokens it is given and the tables when it is called.
-/
namespace Verif.Grammar
open Builder

/-- The token is what its type says: words are UTF-8, identifiers and labels have at least one character, `$1` starts with an
ASCII character, a label includes its colon and the end of a quoted label the quote and the colon, and the end of a regexp is
within the first 2 GiB. -/
structure WellRead (t : Token) : Prop where
  word : t.tokenType.isWord = true → Utf8.valid t.tokenValue = true
  name : t.tokenType = .tIDENTIFIER ∨ t.tokenType = .tLABEL → t.tokenValue ≠ []
  nthRef : t.tokenType = .tNTH_REF → ∃ c rest, t.tokenValue = c :: rest ∧ c < 128
  label : t.tokenType = .tLABEL → 1 ≤ t.loc.stop ∧ t.loc.stop < 2 ^ 31
  labelEnd : t.tokenType = .tLABEL_END → 2 ≤ t.loc.stop
  regexpEnd : t.tokenType = .tREGEXP_END → t.loc.begin ≤ t.loc.stop ∧ t.loc.begin + 1 < 2 ^ 31

mutual
/-- `P` of all tokens of a derivation. -/
def TTree.AllTok (P : Token → Prop) : TTree → Prop
  | .leaf t => P t
  | .node _ kids => allTokL P kids
/-- The same for a list. -/
def allTokL (P : Token → Prop) : List TTree → Prop
  | [] => True
  | t :: ts => t.AllTok P ∧ allTokL P ts
end

mutual
/-- The tokens of a derivation, in order. -/
def TTree.yield : TTree → List Token
  | .leaf t => [t]
  | .node _ kids => yieldL kids
/-- The same for a list. -/
def yieldL : List TTree → List Token
  | [] => []
  | t :: ts => t.yield ++ yieldL ts
end

/-- The functions that declare the variables and keys of a pattern. -/
def BFn.declares : BFn → Bool
  | .matchVar | .matchRest | .matchPair | .matchLabel => true
  | _ => false

/-- `in {"a":}` (src/parser/parse.y:5124-5150): a key of a hash pattern that stands alone. -/
def Rule.loneKey (ρ : Rule) : Bool := ρ.lhs == NT.p_kw && syms ρ.rhs == some [.n NT.p_kw_label]
/-- The key is quoted. -/
def Rule.quotedLabel (ρ : Rule) : Bool := ρ.lhs == NT.p_kw_label &&
  syms ρ.rhs == some [.t .tSTRING_BEG, .n NT.string_contents, .t .tLABEL_END]
mutual
/-- Somewhere there is a quoted key that stands alone. -/
def TTree.quotedKey : TTree → Bool
  | .leaf _ => false
  | .node r kids => ((rules[r]?).any (·.loneKey) && kids.any fun k => k.rule.any (·.quotedLabel)) || quotedKeyL kids
/-- The same for a list. -/
def quotedKeyL : List TTree → Bool
  | [] => false
  | t :: ts => t.quotedKey || quotedKeyL ts
end

/-- The tables have a level to write to: one for the variables and keys of a pattern where a pattern is read, and one for the
numbered parameters in a block. -/
def Ready (pattern : Bool) (s : BState) : Prop :=
  (pattern = true → s.patternVariables.stack ≠ [] ∧ s.patternHashKeys.stack ≠ []) ∧
  (s.context.isInDynamicBlock = true → s.numparams.stack ≠ [])

end Verif.Grammar
