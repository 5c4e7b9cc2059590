import Verif.Model.Tokens
/-! Tokens whose value is a word of the program. -/
namespace Verif

/-- The value of such a token is the text of a name, a number, a keyword or an operator, not a part of a literal and not the
space between the words of `%w[ ]`. -/
def Tok.isWord : Tok → Bool
  | .tSTRING_CONTENT | .tCHAR | .tSTRING_BEG | .tXSTRING_BEG | .tREGEXP_BEG | .tWORDS_BEG | .tQWORDS_BEG | .tSYMBOLS_BEG
  | .tQSYMBOLS_BEG | .tSYMBEG | .tSTRING_DBEG | .tSTRING_DEND | .tSTRING_DVAR | .tSTRING_END | .tLABEL_END | .tSPACE => false
  | _ => true
end Verif
