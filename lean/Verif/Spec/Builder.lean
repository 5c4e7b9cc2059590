import Verif.Model.Ast
import Verif.Model.Utf8
/-!
What the checks of `src/builder.rs` are supposed to decide, said without reference to them: predicates and relations on syntax
trees and lists.
-/
namespace Verif
namespace BuilderSpec

/-! ### C32: parameter names -/

/-- The name of a parameter and where it is written. -/
def paramOf : Node → Option (Text × Loc)
  | .Arg name x => some (name, x)
  | .Optarg name _ name_l _ _ => some (name, name_l)
  | .Kwarg name name_l _ => some (name, name_l)
  | .Kwoptarg name _ name_l _ => some (name, name_l)
  | .Shadowarg name x => some (name, x)
  | .Restarg name _ name_l x => name.map fun n => (n, name_l.getD x)
  | .Kwrestarg name _ name_l x => name.map fun n => (n, name_l.getD x)
  | .Blockarg name _ name_l x => name.map fun n => (n, name_l.getD x)
  | _ => none

/-- A node that can stand in a parameter list. -/
inductive IsParam : Node → Prop
  | arg : IsParam (.Arg a x)
  | optarg : IsParam (.Optarg a b c d x)
  | restarg : IsParam (.Restarg a b c x)
  | kwarg : IsParam (.Kwarg a b x)
  | kwoptarg : IsParam (.Kwoptarg a b c x)
  | kwrestarg : IsParam (.Kwrestarg a b c x)
  | shadowarg : IsParam (.Shadowarg a x)
  | blockarg : IsParam (.Blockarg a b c x)
  | forward : IsParam (.ForwardArg x)
  | kwnil : IsParam (.Kwnilarg a x)
  | mlhs : (∀ n ∈ items, IsParam n) → IsParam (.Mlhs items b e x)
  | procarg0 : (∀ n ∈ items, IsParam n) → IsParam (.Procarg0 items b e x)

mutual
/-- The named parameters of one entry of a parameter list, destructuring included, left to right. -/
def paramsOf : Node → List (Text × Loc)
  | .Mlhs items _ _ _ => paramsOfList items
  | .Procarg0 items _ _ _ => paramsOfList items
  | n => (paramOf n).toList
/-- The named parameters of a parameter list. -/
def paramsOfList : List Node → List (Text × Loc)
  | [] => []
  | n :: rest => paramsOf n ++ paramsOfList rest
end

/-- The locations of the repeated names: those that occurred before (in `seen` or to the left) and do not start with an
underscore. -/
def repeated (seen : List Text) : List (Text × Loc) → List Loc
  | [] => []
  | (name, l) :: rest =>
    if name ∈ seen ∧ name.head? ≠ some 95 then l :: repeated (name :: seen) rest else repeated (name :: seen) rest

/-! ### C33: expressions without a value -/

/-- Evaluation never yields a value: it ends in a jump, in the places looked at. -/
inductive Voids : Node → Prop
  | ret : Voids (.Return a k x)
  | brk : Voids (.Break a k x)
  | nxt : Voids (.Next a k x)
  | redo : Voids (.Redo x)
  | retry : Voids (.Retry x)
  | matched : Voids v → Voids (.MatchPattern v p o x)
  | matchedP : Voids v → Voids (.MatchPatternP v p o x)
  | seq : Voids last → Voids (.Begin (init ++ [last]) b e x)
  | kwseq : Voids last → Voids (.KwBegin (init ++ [last]) b e x)
  | ternary : Voids t → Voids f → Voids (.IfTernary c t f q o x)
  | cond : Voids t → Voids f → Voids (.If c (some t) (some f) k b l e x)
  | condMod : Voids t → Voids f → Voids (.IfMod c (some t) (some f) k x)
  | and : Voids l → Voids (.And l r o x)
  | or : Voids l → Voids (.Or l r o x)

/-- `m` is `n` or stands where the value of `n` comes from. -/
inductive ValueOf : Node → Node → Prop
  | refl : ValueOf n n
  | matched : ValueOf v m → ValueOf (.MatchPattern v p o x) m
  | matchedP : ValueOf v m → ValueOf (.MatchPatternP v p o x) m
  | seq : ValueOf last m → ValueOf (.Begin (init ++ [last]) b e x) m
  | kwseq : ValueOf last m → ValueOf (.KwBegin (init ++ [last]) b e x) m
  | ternary : ValueOf t m → ValueOf (.IfTernary c t f q o x) m
  | cond : ValueOf t m → ValueOf (.If c (some t) f k b l e x) m
  | condMod : ValueOf t m → ValueOf (.IfMod c (some t) f k x) m
  | and : ValueOf l m → ValueOf (.And l r o x) m
  | or : ValueOf l m → ValueOf (.Or l r o x) m

/-! ### C34: conditions -/

/-- `m` stands in condition position of `n`: through a parenthesized single statement, `and`/`or` and the ends of ranges and
flip-flops. -/
inductive CondPos : Node → Node → Prop
  | refl : CondPos n n
  | paren : CondPos s m → CondPos (.Begin [s] b e x) m
  | andL : CondPos l m → CondPos (.And l r o x) m
  | andR : CondPos r m → CondPos (.And l r o x) m
  | orL : CondPos l m → CondPos (.Or l r o x) m
  | orR : CondPos r m → CondPos (.Or l r o x) m
  | irangeL : CondPos l m → CondPos (.Irange (some l) r o x) m
  | irangeR : CondPos r m → CondPos (.Irange l (some r) o x) m
  | erangeL : CondPos l m → CondPos (.Erange (some l) r o x) m
  | erangeR : CondPos r m → CondPos (.Erange l (some r) o x) m
  | iflipL : CondPos l m → CondPos (.IFlipFlop (some l) r o x) m
  | iflipR : CondPos r m → CondPos (.IFlipFlop l (some r) o x) m
  | eflipL : CondPos l m → CondPos (.EFlipFlop (some l) r o x) m
  | eflipR : CondPos r m → CondPos (.EFlipFlop l (some r) o x) m

/-- A range or a regexp literal. -/
def isPlain : Node → Bool
  | .Irange .. => true
  | .Erange .. => true
  | .Regexp .. => true
  | _ => false

/-- Two trees agree up to conditions: a flip-flop for a range of the same ends, operator and location, a match against the
current line for the regexp at the same location, at any of the condition positions. -/
inductive SameUpToCond : Node → Node → Prop
  | refl : SameUpToCond n n
  | paren : SameUpToCond s s' → SameUpToCond (.Begin [s] b e x) (.Begin [s'] b e x)
  | and : SameUpToCond l l' → SameUpToCond r r' → SameUpToCond (.And l r o x) (.And l' r' o x)
  | or : SameUpToCond l l' → SameUpToCond r r' → SameUpToCond (.Or l r o x) (.Or l' r' o x)
  | irange : l.isSome = l'.isSome → r.isSome = r'.isSome → (∀ a ∈ l, ∀ a' ∈ l', SameUpToCond a a') →
      (∀ a ∈ r, ∀ a' ∈ r', SameUpToCond a a') → SameUpToCond (.Irange l r o x) (.IFlipFlop l' r' o x)
  | erange : l.isSome = l'.isSome → r.isSome = r'.isSome → (∀ a ∈ l, ∀ a' ∈ l', SameUpToCond a a') →
      (∀ a ∈ r, ∀ a' ∈ r', SameUpToCond a a') → SameUpToCond (.Erange l r o x) (.EFlipFlop l' r' o x)
  | regexp : SameUpToCond (.Regexp p opt b e x) (.MatchCurrentLine (.Regexp p opt b e x) x)

/-! ### C36: literal strings -/

mutual
/-- The parts of a string with the parentheses of interpolations dissolved. -/
def leavesOf : Node → List Node
  | .Begin statements _ _ _ => leaves statements
  | n => [n]
/-- The same for a list of parts. -/
def leaves : List Node → List Node
  | [] => []
  | n :: rest => leavesOf n ++ leaves rest
end

/-- The bytes of a literal fragment. -/
def literal : Node → Option Bytes
  | .Str value _ _ _ => some value
  | _ => none

/-! ### C30: columns -/

/-- The column after the blanks `bs` starting in column `col`: a tab goes to the next multiple of 8. -/
def columnAfter : Nat → Bytes → Nat
  | col, [] => col
  | col, c :: rest => columnAfter (if c = asc '\t' then 8 * (col / 8 + 1) else col + 1) rest

/-- A blank or a tab. -/
def isIndent (c : UInt8) : Prop := c = asc ' ' ∨ c = asc '\t'

/-! ### C38 -/

/-- The locations of the entries whose name occurred before, among the entries accepted by `p`. -/
def repeatedBy (p : Text → Bool) (seen : List Text) : List (Text × Loc) → List Loc
  | [] => []
  | (name, l) :: rest =>
    if p name then (if name ∈ seen then l :: repeatedBy p seen rest else repeatedBy p (name :: seen) rest)
    else repeatedBy p seen rest

end BuilderSpec
end Verif
