import Verif.Model.Basic
/-!
Token kinds, lexer states and the reserved-word table.
-/
namespace Verif

/-- Token kinds: the `%token` declarations src/parser/parse.y:78-310 (the numbers bison gives them are immaterial; no two
kinds share one). `END_OF_INPUT` is bison's token 0. -/
inductive Tok where
  | kCLASS | kMODULE | kDEF | kUNDEF | kBEGIN | kRESCUE | kENSURE | kEND | kIF | kUNLESS | kTHEN | kELSIF
  | kELSE | kCASE | kWHEN | kWHILE | kUNTIL | kFOR | kBREAK | kNEXT | kREDO | kRETRY | kIN | kDO | kDO_COND
  | kDO_BLOCK | kDO_LAMBDA | kRETURN | kYIELD | kSUPER | kSELF | kNIL | kTRUE | kFALSE | kAND | kOR | kNOT
  | kIF_MOD | kUNLESS_MOD | kWHILE_MOD | kUNTIL_MOD | kRESCUE_MOD | kALIAS | kDEFINED | klBEGIN | klEND
  | k__LINE__ | k__FILE__ | k__ENCODING__ | tIDENTIFIER | tFID | tGVAR | tIVAR | tCONSTANT | tCVAR | tLABEL
  | tINTEGER | tFLOAT | tRATIONAL | tIMAGINARY | tCHAR | tNTH_REF | tBACK_REF | tSTRING_CONTENT | tREGEXP_END
  | END_OF_INPUT | tDOT | tBACKSLASH | tSP | tSLASH_T | tSLASH_F | tSLASH_R | tVTAB | tUPLUS | tUMINUS
  | tPOW | tCMP | tEQ | tEQQ | tNEQ | tGEQ | tLEQ | tANDOP | tOROP | tMATCH | tNMATCH | tDOT2 | tDOT3
  | tBDOT2 | tBDOT3 | tAREF | tASET | tLSHFT | tRSHFT | tANDDOT | tCOLON2 | tCOLON3 | tOP_ASGN | tASSOC
  | tLPAREN | tLPAREN_ARG | tRPAREN | tLBRACK | tLBRACE | tLBRACE_ARG | tSTAR | tDSTAR | tAMPER | tLAMBDA
  | tSYMBEG | tSTRING_BEG | tXSTRING_BEG | tREGEXP_BEG | tWORDS_BEG | tQWORDS_BEG | tSYMBOLS_BEG | tQSYMBOLS_BEG
  | tSTRING_END | tSTRING_DEND | tSTRING_DBEG | tSTRING_DVAR | tLAMBEG | tLABEL_END | tCOMMA | tLCURLY
  | tRCURLY | tLBRACK2 | tEQL | tPIPE | tAMPER2 | tGT | tLT | tBACK_REF2 | tCARET | tLPAREN2 | tRBRACK
  | tSEMI | tSPACE | tNL | tPLUS | tMINUS | tSTAR2 | tDIVIDE | tPERCENT | tTILDE | tBANG | tLAST_TOKEN
  | tLOWEST | tEH | tCOLON | tUMINUS_NUM
deriving DecidableEq, Repr

/-! src/lex_state.rs:59-110 `lex_states`: the bit masks. The Rust type is `i32`; all values used are non-negative. -/
/-- src/lex_state.rs:61. -/
def EXPR_BEG : Nat := 1
/-- src/lex_state.rs:64. -/
def EXPR_END : Nat := 2
/-- src/lex_state.rs:67. -/
def EXPR_ENDARG : Nat := 4
/-- src/lex_state.rs:70. -/
def EXPR_ENDFN : Nat := 8
/-- src/lex_state.rs:73. -/
def EXPR_ARG : Nat := 16
/-- src/lex_state.rs:76. -/
def EXPR_CMDARG : Nat := 32
/-- src/lex_state.rs:79. -/
def EXPR_MID : Nat := 64
/-- src/lex_state.rs:82. -/
def EXPR_FNAME : Nat := 128
/-- src/lex_state.rs:85. -/
def EXPR_DOT : Nat := 256
/-- src/lex_state.rs:88. -/
def EXPR_CLASS : Nat := 512
/-- src/lex_state.rs:91. -/
def EXPR_LABEL : Nat := 1024
/-- src/lex_state.rs:94. -/
def EXPR_LABELED : Nat := 2048
/-- src/lex_state.rs:97. -/
def EXPR_FITEM : Nat := 4096
/-- src/lex_state.rs:100. -/
def EXPR_VALUE : Nat := EXPR_BEG
/-- src/lex_state.rs:103. -/
def EXPR_BEG_ANY : Nat := EXPR_BEG ||| EXPR_MID ||| EXPR_CLASS
/-- src/lex_state.rs:106. -/
def EXPR_ARG_ANY : Nat := EXPR_ARG ||| EXPR_CMDARG
/-- src/lex_state.rs:109. -/
def EXPR_END_ANY : Nat := EXPR_END ||| EXPR_ENDARG ||| EXPR_ENDFN

/-- src/lex_state.rs:6-8 `LexState`. -/
abbrev LexState := Nat

namespace LexState
/-- src/lex_state.rs:11-13 `is`. -/
def is (s : LexState) (v : Nat) : Bool := s == v
/-- src/lex_state.rs:15-17 `is_some`. -/
def isSome (s : LexState) (v : Nat) : Bool := (s &&& v) != 0
/-- src/lex_state.rs:19-21 `is_all`. -/
def isAll (s : LexState) (v : Nat) : Bool := (s &&& v) == v
/-- src/lex_state.rs:32-34 `is_after_operator`. -/
def isAfterOperator (s : LexState) : Bool := isSome s (EXPR_FNAME ||| EXPR_DOT)
/-- src/lex_state.rs:35-37 `is_end`. -/
def isEnd (s : LexState) : Bool := isSome s EXPR_END_ANY
/-- src/lex_state.rs:38-40 `is_arg`. -/
def isArg (s : LexState) : Bool := isSome s EXPR_ARG_ANY
/-- src/lex_state.rs:41-43 `is_label_possible`. -/
def isLabelPossible (s : LexState) (cmdState : Bool) : Bool :=
  (isSome s (EXPR_LABEL ||| EXPR_ENDFN) && !cmdState) || isArg s
/-- src/lex_state.rs:47-49 `is_beg`. -/
def isBeg (s : LexState) : Bool := isSome s EXPR_BEG_ANY || isAll s (EXPR_ARG ||| EXPR_LABELED)
end LexState

/-- src/reserved_words/reserved_word.rs:3-8 `ReservedWord`. -/
structure ReservedWord where
  name : Bytes
  id : Tok
  modifierId : Tok
  state : Nat
deriving DecidableEq, Repr

/-- codegen/rust/reserved_words.rs:10-257 `RESERVED_WORDS` (the build-time list). -/
def reservedWordsList : List ReservedWord := [
  ⟨ascs "BEGIN", .klBEGIN, .klBEGIN, EXPR_END⟩,
  ⟨ascs "END", .klEND, .klEND, EXPR_END⟩,
  ⟨ascs "__ENCODING__", .k__ENCODING__, .k__ENCODING__, EXPR_END⟩,
  ⟨ascs "__FILE__", .k__FILE__, .k__FILE__, EXPR_END⟩,
  ⟨ascs "__LINE__", .k__LINE__, .k__LINE__, EXPR_END⟩,
  ⟨ascs "alias", .kALIAS, .kALIAS, EXPR_FNAME ||| EXPR_FITEM⟩,
  ⟨ascs "and", .kAND, .kAND, EXPR_VALUE⟩,
  ⟨ascs "begin", .kBEGIN, .kBEGIN, EXPR_BEG⟩,
  ⟨ascs "break", .kBREAK, .kBREAK, EXPR_MID⟩,
  ⟨ascs "case", .kCASE, .kCASE, EXPR_VALUE⟩,
  ⟨ascs "class", .kCLASS, .kCLASS, EXPR_CLASS⟩,
  ⟨ascs "def", .kDEF, .kDEF, EXPR_FNAME⟩,
  ⟨ascs "defined?", .kDEFINED, .kDEFINED, EXPR_ARG⟩,
  ⟨ascs "do", .kDO, .kDO, EXPR_BEG⟩,
  ⟨ascs "else", .kELSE, .kELSE, EXPR_BEG⟩,
  ⟨ascs "elsif", .kELSIF, .kELSIF, EXPR_VALUE⟩,
  ⟨ascs "end", .kEND, .kEND, EXPR_END⟩,
  ⟨ascs "ensure", .kENSURE, .kENSURE, EXPR_BEG⟩,
  ⟨ascs "false", .kFALSE, .kFALSE, EXPR_END⟩,
  ⟨ascs "for", .kFOR, .kFOR, EXPR_VALUE⟩,
  ⟨ascs "if", .kIF, .kIF_MOD, EXPR_VALUE⟩,
  ⟨ascs "in", .kIN, .kIN, EXPR_VALUE⟩,
  ⟨ascs "module", .kMODULE, .kMODULE, EXPR_VALUE⟩,
  ⟨ascs "next", .kNEXT, .kNEXT, EXPR_MID⟩,
  ⟨ascs "nil", .kNIL, .kNIL, EXPR_END⟩,
  ⟨ascs "not", .kNOT, .kNOT, EXPR_ARG⟩,
  ⟨ascs "or", .kOR, .kOR, EXPR_VALUE⟩,
  ⟨ascs "redo", .kREDO, .kREDO, EXPR_END⟩,
  ⟨ascs "rescue", .kRESCUE, .kRESCUE_MOD, EXPR_MID⟩,
  ⟨ascs "retry", .kRETRY, .kRETRY, EXPR_END⟩,
  ⟨ascs "return", .kRETURN, .kRETURN, EXPR_MID⟩,
  ⟨ascs "self", .kSELF, .kSELF, EXPR_END⟩,
  ⟨ascs "super", .kSUPER, .kSUPER, EXPR_ARG⟩,
  ⟨ascs "then", .kTHEN, .kTHEN, EXPR_BEG⟩,
  ⟨ascs "true", .kTRUE, .kTRUE, EXPR_END⟩,
  ⟨ascs "undef", .kUNDEF, .kUNDEF, EXPR_FNAME ||| EXPR_FITEM⟩,
  ⟨ascs "unless", .kUNLESS, .kUNLESS_MOD, EXPR_VALUE⟩,
  ⟨ascs "until", .kUNTIL, .kUNTIL_MOD, EXPR_VALUE⟩,
  ⟨ascs "when", .kWHEN, .kWHEN, EXPR_VALUE⟩,
  ⟨ascs "while", .kWHILE, .kWHILE_MOD, EXPR_VALUE⟩,
  ⟨ascs "yield", .kYIELD, .kYIELD, EXPR_ARG⟩]

end Verif
