import Verif.Model.Basic
/-!
What a numeric literal is, as a grammar of texts (after doc/syntax/literals.rdoc of Ruby), independent of the scanner.
-/
namespace Verif.NumberSpec

/-- A decimal digit. -/
def Dec (c : UInt8) : Prop := c ∈ ascs "0123456789"
/-- A hexadecimal digit. -/
def Hex (c : UInt8) : Prop := c ∈ ascs "0123456789abcdefABCDEF"
/-- An octal digit. -/
def Oct (c : UInt8) : Prop := c ∈ ascs "01234567"
/-- A binary digit. -/
def Bin (c : UInt8) : Prop := c ∈ ascs "01"

/-- What may follow a digit: more digits, with single underscores in between. -/
inductive Tail (digit : UInt8 → Prop) : Bytes → Prop
  | nil : Tail digit []
  | digit {d w} : digit d → Tail digit w → Tail digit (d :: w)
  | sep {d w} : digit d → Tail digit w → Tail digit (asc '_' :: d :: w)

/-- Digits with single underscores in between. -/
inductive Digits (digit : UInt8 → Prop) : Bytes → Prop
  | mk {d w} : digit d → Tail digit w → Digits digit (d :: w)

/-- A decimal integer without leading zero. -/
inductive Whole : Bytes → Prop
  | zero : Whole (ascs "0")
  | nonzero {d w} : Dec d → d ≠ asc '0' → Tail Dec w → Whole (d :: w)

/-- Optional sign of an exponent. -/
def Sign (s : Bytes) : Prop := s = [] ∨ s = ascs "+" ∨ s = ascs "-"

/-- `e` or `E`. -/
def ExpLetter (c : UInt8) : Prop := c = asc 'e' ∨ c = asc 'E'

/-- The part of a float that follows the whole number; the flag says whether there is an exponent. -/
inductive Fraction : Bool → Bytes → Prop
  | point {w} : Digits Dec w → Fraction false (asc '.' :: w)
  | exp {e s w} : ExpLetter e → Sign s → Digits Dec w → Fraction true (e :: (s ++ w))
  | pointExp {v e s w} : Digits Dec v → ExpLetter e → Sign s → Digits Dec w → Fraction true (asc '.' :: (v ++ e :: (s ++ w)))

/-- An integer literal that starts with a base prefix. -/
inductive Based : Bytes → Prop
  | hex {p w} : p = asc 'x' ∨ p = asc 'X' → Digits Hex w → Based (asc '0' :: p :: w)
  | bin {p w} : p = asc 'b' ∨ p = asc 'B' → Digits Bin w → Based (asc '0' :: p :: w)
  | dec {p w} : p = asc 'd' ∨ p = asc 'D' → Digits Dec w → Based (asc '0' :: p :: w)
  | oct {p w} : p = asc 'o' ∨ p = asc 'O' → Digits Oct w → Based (asc '0' :: p :: w)
  | zero {w} : w ≠ [] → Tail Oct w → Based (asc '0' :: w)

/-- The suffixes: rational, imaginary, both. -/
inductive Suffix : (rational imaginary : Bool) → Bytes → Prop
  | none : Suffix false false []
  | r : Suffix true false (ascs "r")
  | i : Suffix false true (ascs "i")
  | ri : Suffix true true (ascs "ri")

/-- The kinds of literals. -/
inductive Kind where
  | integer | float | rational | imaginary
deriving DecidableEq, Repr

/-- The kind by base kind and suffix. -/
def kindOf (float rational imaginary : Bool) : Kind :=
  if imaginary then .imaginary else if rational then .rational else if float then .float else .integer

/-- A decimal literal and its kind; an exponent rules out `r`. -/
inductive Decimal : Kind → Bytes → Prop
  | integer {w x r i} : Whole w → Suffix r i x → Decimal (kindOf false r i) (w ++ x)
  | float {w f x e r i} : Whole w → Fraction e f → Suffix r i x → (e = true → r = false) → Decimal (kindOf true r i) (w ++ (f ++ x))

/-- A numeric literal and its kind. -/
inductive Literal : Kind → Bytes → Prop
  | decimal {k w} : Decimal k w → Literal k w
  | based {w x r i} : Based w → Suffix r i x → Literal (kindOf false r i) (w ++ x)

/-- What may follow a literal: a byte that cannot continue it. -/
def Stops (c : UInt8) : Prop := c < 128 ∧ c ∉ ascs "0123456789abcdefghijklmnopqrstuvwxyzABCDEFGHIJKLMNOPQRSTUVWXYZ_"

/-- `c` followed by `c'` ends a literal: a point must not be followed by a digit. -/
def StopsBefore (c : UInt8) (c' : Option UInt8) : Prop :=
  Stops c ∧ (c = asc '.' → ∃ x, c' = some x ∧ ¬ Dec x ∧ x ≠ 13)

end Verif.NumberSpec
