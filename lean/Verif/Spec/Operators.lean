import Verif.Model.Tokens
/-! Specification of operators and punctuation: which text is which token, and what may follow. -/
namespace Verif.OpSpec

/-- What the lexer expects next. -/
inductive Place where
  /-- an operand, or an operator that stands before its operand -/
  | operand
  /-- the name of a method -/
  | name
  /-- an operator that stands after its operand -/
  | operator
  /-- an operator, or the first argument of a command -/
  | argument
deriving DecidableEq, Repr

/-- States in which an operand was just read, and no command argument can follow. -/
structure AfterOperand (st : LexState) : Prop where
  isEnd : st.isSome EXPR_END_ANY = true
  only : st.isSome (EXPR_BEG_ANY ||| EXPR_ARG_ANY ||| EXPR_FNAME ||| EXPR_DOT ||| EXPR_FITEM ||| EXPR_LABELED) = false

/-- States in which an operand is expected. -/
structure BeforeOperand (st : LexState) : Prop where
  isBeg : st.isSome EXPR_BEG_ANY = true
  only : st.isSome (EXPR_END_ANY ||| EXPR_ARG_ANY ||| EXPR_FNAME ||| EXPR_DOT ||| EXPR_LABELED) = false

/-- States in which a name was just read that may be a command. -/
structure AfterName (st : LexState) : Prop where
  isArg : st.isSome EXPR_ARG_ANY = true
  only : st.isSome (EXPR_BEG_ANY ||| EXPR_END_ANY ||| EXPR_FNAME ||| EXPR_DOT ||| EXPR_FITEM ||| EXPR_LABELED) = false

/-- The state fits. -/
def Place.Is : Place → LexState → Prop
  | .operand, st => BeforeOperand st ∧ st.isSome EXPR_BEG = true
  | .name, st => st = EXPR_DOT
  | .operator, st => AfterOperand st
  | .argument, st => AfterName st

/-- Operators after an operand: the text, the token, and what is expected after it. -/
def infixes : List (String × Tok × Place) := [
  ("**", .tPOW, .operand), ("*", .tSTAR2, .operand), ("**=", .tOP_ASGN, .operand), ("*=", .tOP_ASGN, .operand),
  ("!", .tBANG, .operand), ("!=", .tNEQ, .operand), ("!~", .tNMATCH, .operand),
  ("=", .tEQL, .operand), ("==", .tEQ, .operand), ("===", .tEQQ, .operand), ("=~", .tMATCH, .operand), ("=>", .tASSOC, .operand),
  ("<", .tLT, .operand), ("<=", .tLEQ, .operand), ("<=>", .tCMP, .operand), ("<<", .tLSHFT, .operand), ("<<=", .tOP_ASGN, .operand),
  (">", .tGT, .operand), (">=", .tGEQ, .operand), (">>", .tRSHFT, .operand), (">>=", .tOP_ASGN, .operand),
  ("&", .tAMPER2, .operand), ("&&", .tANDOP, .operand), ("&&=", .tOP_ASGN, .operand), ("&=", .tOP_ASGN, .operand), ("&.", .tANDDOT, .name),
  ("|", .tPIPE, .operand), ("||", .tOROP, .operand), ("||=", .tOP_ASGN, .operand), ("|=", .tOP_ASGN, .operand),
  ("+", .tPLUS, .operand), ("+=", .tOP_ASGN, .operand), ("-", .tMINUS, .operand), ("-=", .tOP_ASGN, .operand), ("->", .tLAMBDA, .operator),
  (".", .tDOT, .name), ("..", .tDOT2, .operand), ("...", .tDOT3, .operand),
  (")", .tRPAREN, .operator), ("]", .tRBRACK, .operator), ("(", .tLPAREN2, .operand), ("[", .tLBRACK2, .operand),
  (":", .tCOLON, .operand), ("::", .tCOLON2, .name), ("/", .tDIVIDE, .operand), ("/=", .tOP_ASGN, .operand),
  ("^", .tCARET, .operand), ("^=", .tOP_ASGN, .operand), ("%", .tPERCENT, .operand), ("%=", .tOP_ASGN, .operand),
  (";", .tSEMI, .operand), (",", .tCOMMA, .operand), ("~", .tTILDE, .operand), ("?", .tEH, .operand)]

/-- Operators before an operand. -/
def prefixes : List (String × Tok × Place) := [
  ("**", .tDSTAR, .operand), ("*", .tSTAR, .operand), ("&", .tAMPER, .operand), ("!", .tBANG, .operand), ("~", .tTILDE, .operand),
  ("+", .tUPLUS, .operand), ("-", .tUMINUS, .operand), ("->", .tLAMBDA, .operator), ("..", .tBDOT2, .operand), ("...", .tBDOT3, .operand),
  ("::", .tCOLON3, .operand), ("(", .tLPAREN, .operand), ("[", .tLBRACK, .operand),
  (")", .tRPAREN, .operator), ("]", .tRBRACK, .operator), (";", .tSEMI, .operand), (",", .tCOMMA, .operand)]

/-- The text goes on with `rest` after the operator `op`, and no longer operator could be read. -/
def Longest (op : String) (rest : Bytes) : Prop := ∀ o ∈ infixes, ascs o.1 <+: ascs op ++ rest → o.1.length ≤ op.length

/-- Digits. -/
def Digit (c : UInt8) : Prop := c ∈ ascs "0123456789"

/-- What the reading by the longest match has to except after an operand: a dot before a digit is an error, three dots in a list of parameters
are a parameter, a parenthesis after a name that could be a label starts a command argument, `=begin` may start a comment. -/
structure UsualInfix (op : String) (rest : Bytes) (st : LexState) (inParams : Bool) : Prop where
  dot : op = "." → ∀ c, rest.head? = some c → ¬ Digit c
  dots : op = "..." → inParams = false
  paren : op = "(" → st.isAll (EXPR_END ||| EXPR_LABEL) = false
  doc : ¬ ascs "=begin" <+: ascs op ++ rest

/-- White space. -/
def White (c : UInt8) : Prop := c ∈ ascs " \t\n\r" ∨ c = 11 ∨ c = 12

/-- What it has to except after a name that may be a command, besides: after blanks a parenthesis, a bracket, two colons and a here document
start the first argument, and so does an operator that may also stand before an operand, unless it is followed by white space; a question mark
and a colon may be the begin of a character and a symbol. -/
structure UsualArgument (op : String) (blanks rest : Bytes) (inParams : Bool) : Prop where
  open_ : blanks ≠ [] → op ∉ ["(", "[", "::", "<<", "<<="]
  unary : blanks ≠ [] → op ∈ ["**", "*", "&", "+", "-", "/", "%"] → ∃ c, rest.head? = some c ∧ White c
  quest : op ≠ "?"
  colon : op = ":" → ∃ c, rest.head? = some c ∧ (White c ∨ c = asc '#')
  dot : op = "." → ∀ c, rest.head? = some c → ¬ Digit c
  dots : op = "..." → inParams = false
  doc : ¬ ascs "=begin" <+: ascs op ++ rest

/-- What it has to except before an operand: signs of numbers, and three dots in a list of parameters. -/
structure UsualPrefix (op : String) (rest : Bytes) (inParams inLambdaParams : Bool) : Prop where
  sign : op = "+" ∨ op = "-" → ∀ c, rest.head? = some c → ¬ Digit c
  dots : op = "..." → inParams = false ∧ inLambdaParams = false

/-- Operators that are names of methods, where such a name is expected. -/
def methodNames : List (String × Tok) := [
  ("|", .tPIPE), ("^", .tCARET), ("&", .tAMPER2), ("<=>", .tCMP), ("==", .tEQ), ("===", .tEQQ), ("=~", .tMATCH), (">", .tGT),
  (">=", .tGEQ), ("<", .tLT), ("<=", .tLEQ), ("!=", .tNEQ), ("<<", .tLSHFT), (">>", .tRSHFT), ("+", .tPLUS), ("-", .tMINUS),
  ("*", .tSTAR2), ("**", .tPOW), ("/", .tDIVIDE), ("%", .tPERCENT), ("~", .tTILDE), ("!", .tBANG), ("!~", .tNMATCH), ("+@", .tUPLUS),
  ("-@", .tUMINUS), ("[]", .tAREF), ("[]=", .tASET)]

/-- States in which the name of a method is expected. -/
structure BeforeName (st : LexState) : Prop where
  isName : st.isSome (EXPR_FNAME ||| EXPR_DOT) = true
  only : st.isSome (EXPR_BEG_ANY ||| EXPR_END_ANY ||| EXPR_ARG_ANY ||| EXPR_FITEM) = false

/-- No longer operator or name could be read. -/
def LongestName (op : String) (rest : Bytes) : Prop :=
  ∀ o ∈ infixes.map Prod.fst ++ methodNames.map Prod.fst ++ ["!@", "~@"], ascs o <+: ascs op ++ rest → o.length ≤ op.length

/-- What it has to except there: `=begin` may start a comment, `<<` a here document unless it comes after a dot. -/
structure UsualName (op : String) (rest : Bytes) (st : LexState) : Prop where
  doc : ¬ ascs "=begin" <+: ascs op ++ rest
  here : op = "<<" → st.isSome EXPR_DOT = true

end Verif.OpSpec
