import Verif.Spec.Names
/-! Specification of instance, class and global variables: what text is one variable, and which token it is. -/
namespace Verif.NameSpec

/-- `rest` does not continue a name. -/
def Stops (rest : Bytes) : Prop := ∀ c, rest.head? = some c → ¬ NameByte c

/-- `v` is a variable and `rest` follows; `defining` says that the name of a method is expected. The last two are the type of the token and the state
after it. -/
inductive Variable (defining : Bool) : (v rest : Bytes) → Tok → LexState → Prop where
  /-- `@name` -/
  | ivar {cps rest} (name : Name cps) (stop : Stops rest) :
      Variable defining (asc '@' :: Utf8.encodeAll cps) rest .tIVAR (if defining then EXPR_ENDFN else EXPR_END)
  /-- `@@name` -/
  | cvar {cps rest} (name : Name cps) (stop : Stops rest) :
      Variable defining (asc '@' :: asc '@' :: Utf8.encodeAll cps) rest .tCVAR (if defining then EXPR_ENDFN else EXPR_END)
  /-- `$name`, `$_`, `$0` -/
  | gvar {cps rest} (chars : ∀ c ∈ cps, NameChar c) (first : ∃ c, cps.head? = some c ∧ ¬ (49 ≤ c ∧ c ≤ 57)) (stop : Stops rest) :
      Variable defining (asc '$' :: Utf8.encodeAll cps) rest .tGVAR EXPR_END
  /-- `$` and a punctuation character -/
  | punct {c rest} (punct : c ∈ ascs "~*$?!@/\\;,.=:<>\"") : Variable defining [asc '$', c] rest .tGVAR EXPR_END
  /-- `$-w` -/
  | option {cp rest} (char : NameChar cp) : Variable defining (asc '$' :: asc '-' :: Utf8.encode cp) rest .tGVAR EXPR_END
  /-- the parts of the last match -/
  | backRef {c rest} (ref : c ∈ ascs "&`'+") : Variable defining [asc '$', c] rest (if defining then .tGVAR else .tBACK_REF) EXPR_END
  /-- the groups of the last match -/
  | nthRef {d ds rest} (first : asc '1' ≤ d ∧ d ≤ asc '9') (digits : ∀ c ∈ ds, asc '0' ≤ c ∧ c ≤ asc '9')
      (stop : ∀ c, rest.head? = some c → ¬ (asc '0' ≤ c ∧ c ≤ asc '9')) :
      Variable defining (asc '$' :: d :: ds) rest (if defining then .tGVAR else .tNTH_REF) EXPR_END

/-- `text` begins like a variable but is none. -/
inductive Malformed : (text : Bytes) → Prop where
  | at1 {rest} (next : rest.head? ≠ some (asc '@')) (stop : Stops rest) : Malformed (asc '@' :: rest)
  | at1Digit {d rest} (digit : asc '0' ≤ d ∧ d ≤ asc '9') : Malformed (asc '@' :: d :: rest)
  | at2 {rest} (stop : Stops rest) : Malformed (asc '@' :: asc '@' :: rest)
  | at2Digit {d rest} (digit : asc '0' ≤ d ∧ d ≤ asc '9') : Malformed (asc '@' :: asc '@' :: d :: rest)
  | dollar {rest} (stop : Stops rest) (next : ∀ c, rest.head? = some c → c ∉ ascs "-~*$?!@/\\;,.=:<>\"&`'+") : Malformed (asc '$' :: rest)

end Verif.NameSpec
