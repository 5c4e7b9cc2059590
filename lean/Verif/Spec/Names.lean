import Verif.Model.Tokens
import Verif.Model.Utf8
/-! Specification of names and keywords: what text is one name, and which token it is. -/
namespace Verif.NameSpec

/-- Characters of names: letters, digits, the underscore, and everything outside of ASCII. -/
def NameChar (c : Nat) : Prop :=
  97 ≤ c ∧ c ≤ 122 ∨ 65 ≤ c ∧ c ≤ 90 ∨ 48 ≤ c ∧ c ≤ 57 ∨ c = 95 ∨ 128 ≤ c ∧ Utf8.isScalar c = true

/-- Bytes that continue a name. -/
def NameByte (c : UInt8) : Prop :=
  97 ≤ c ∧ c ≤ 122 ∨ 65 ≤ c ∧ c ≤ 90 ∨ 48 ≤ c ∧ c ≤ 57 ∨ c = 95 ∨ 128 ≤ c

/-- A name, without a mark at its end, as characters. -/
structure Name (cps : List Nat) : Prop where
  chars : ∀ c ∈ cps, NameChar c
  first : ∃ c, cps.head? = some c ∧ ¬ (48 ≤ c ∧ c ≤ 57)

/-- An equals sign belongs to the name of a method that is being defined, unless it starts another operator; `==>` is `=` and `=>`. -/
def Setter (rest : Bytes) : Prop :=
  rest.head? ≠ some (asc '~') ∧ rest.head? ≠ some (asc '>') ∧ (rest.head? = some (asc '=') → rest.tail.head? = some (asc '>'))

/-- The name ends with `mark` and `rest` follows; `defining` says that the name of a method is expected. -/
inductive Ends (defining : Bool) : (mark rest : Bytes) → Prop where
  /-- no mark -/
  | plain {rest} (stop : ∀ c, rest.head? = some c → ¬ NameByte c)
      (bang : ∀ c t, rest = c :: t → c = asc '!' ∨ c = asc '?' → t.head? = some (asc '='))
      (setter : ∀ t, rest = asc '=' :: t → defining = true → ¬ Setter t) : Ends defining [] rest
  /-- an exclamation or question mark that does not start `!=` or `?=` -/
  | mark {c rest} (mark : c = asc '!' ∨ c = asc '?') (next : rest.head? ≠ some (asc '=')) : Ends defining [c] rest
  /-- the equals sign in the name of a setter -/
  | setter {rest} (def' : defining = true) (next : Setter rest) : Ends defining [asc '='] rest

/-- The keywords: the token where an expression may start, the token elsewhere, and the state afterwards. -/
def keywords : List (String × Tok × Tok × LexState) := [
  ("BEGIN", .klBEGIN, .klBEGIN, EXPR_END), ("END", .klEND, .klEND, EXPR_END), ("__ENCODING__", .k__ENCODING__, .k__ENCODING__, EXPR_END),
  ("__FILE__", .k__FILE__, .k__FILE__, EXPR_END), ("__LINE__", .k__LINE__, .k__LINE__, EXPR_END),
  ("alias", .kALIAS, .kALIAS, EXPR_FNAME ||| EXPR_FITEM), ("and", .kAND, .kAND, EXPR_BEG), ("begin", .kBEGIN, .kBEGIN, EXPR_BEG),
  ("break", .kBREAK, .kBREAK, EXPR_MID), ("case", .kCASE, .kCASE, EXPR_BEG), ("class", .kCLASS, .kCLASS, EXPR_CLASS),
  ("def", .kDEF, .kDEF, EXPR_FNAME), ("defined?", .kDEFINED, .kDEFINED, EXPR_ARG), ("do", .kDO, .kDO, EXPR_BEG), ("else", .kELSE, .kELSE, EXPR_BEG),
  ("elsif", .kELSIF, .kELSIF, EXPR_BEG), ("end", .kEND, .kEND, EXPR_END), ("ensure", .kENSURE, .kENSURE, EXPR_BEG),
  ("false", .kFALSE, .kFALSE, EXPR_END), ("for", .kFOR, .kFOR, EXPR_BEG), ("if", .kIF, .kIF_MOD, EXPR_BEG), ("in", .kIN, .kIN, EXPR_BEG),
  ("module", .kMODULE, .kMODULE, EXPR_BEG), ("next", .kNEXT, .kNEXT, EXPR_MID), ("nil", .kNIL, .kNIL, EXPR_END), ("not", .kNOT, .kNOT, EXPR_ARG),
  ("or", .kOR, .kOR, EXPR_BEG), ("redo", .kREDO, .kREDO, EXPR_END), ("rescue", .kRESCUE, .kRESCUE_MOD, EXPR_MID),
  ("retry", .kRETRY, .kRETRY, EXPR_END), ("return", .kRETURN, .kRETURN, EXPR_MID), ("self", .kSELF, .kSELF, EXPR_END),
  ("super", .kSUPER, .kSUPER, EXPR_ARG), ("then", .kTHEN, .kTHEN, EXPR_BEG), ("true", .kTRUE, .kTRUE, EXPR_END),
  ("undef", .kUNDEF, .kUNDEF, EXPR_FNAME ||| EXPR_FITEM), ("unless", .kUNLESS, .kUNLESS_MOD, EXPR_BEG), ("until", .kUNTIL, .kUNTIL_MOD, EXPR_BEG),
  ("when", .kWHEN, .kWHEN, EXPR_BEG), ("while", .kWHILE, .kWHILE_MOD, EXPR_BEG), ("yield", .kYIELD, .kYIELD, EXPR_ARG)]

/-- The token of a name that is not a keyword. -/
def kind (mark : Bytes) (upper : Bool) : Tok :=
  if mark = [asc '!'] ∨ mark = [asc '?'] then .tFID
  else if mark = [] ∧ upper = true then .tCONSTANT
  else .tIDENTIFIER

/-- The state after a name that is not a keyword: `lvar` says that it is a local variable, `cmd` that a command may start here. -/
def stateAfter (st : LexState) (cmd lvar : Bool) : LexState :=
  if lvar then EXPR_END ||| EXPR_LABEL
  else if st.isSome (EXPR_BEG_ANY ||| EXPR_ARG_ANY ||| EXPR_DOT) then (if cmd then EXPR_CMDARG else EXPR_ARG)
  else if st = EXPR_FNAME then EXPR_ENDFN
  else EXPR_END

/-- A label can stand here. -/
def LabelAt (st : LexState) (cmd : Bool) : Prop :=
  st.isSome (EXPR_LABEL ||| EXPR_ENDFN) = true ∧ cmd = false ∨ st.isSome EXPR_ARG_ANY = true

/-- A colon that is not part of `::`. -/
def Colon (rest : Bytes) : Prop := rest.head? = some (asc ':') ∧ rest.tail.head? ≠ some (asc ':')

end Verif.NameSpec
