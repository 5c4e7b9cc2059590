/-!
Shared vocabulary of the model.

`Res α` is the result of a Rust computation that may panic.  Every operation of the code that can abort
(`-` on `usize` with overflow checks, `v[i]`, `unwrap`/`expect`, `unreachable!`) is an explicit error.
`fuel` is *not* a Rust outcome: it says that the step budget given to a modelled loop was too small; that it
never appears is what the termination theorems state.
-/
namespace Verif

/-- A byte array (`Vec<u8>` / `&[u8]`). -/
abbrev Bytes := List UInt8

/-- The ways a computation can abort. -/
inductive Panic where
  | underflow
  | index
  | expect
  | unreachable
  | fuel
deriving DecidableEq, Repr

/-- Result of a computation that may panic. -/
abbrev Res := Except Panic

/-- Results can be compared (used to evaluate concrete instances). -/
instance instDecidableEqExcept {ε α : Type} [DecidableEq ε] [DecidableEq α] : DecidableEq (Except ε α)
  | .ok a, .ok b => if h : a = b then isTrue (by rw [h]) else isFalse (by intro e; cases e; exact h rfl)
  | .error a, .error b => if h : a = b then isTrue (by rw [h]) else isFalse (by intro e; cases e; exact h rfl)
  | .ok _, .error _ => isFalse (by intro e; cases e)
  | .error _, .ok _ => isFalse (by intro e; cases e)

/-- Rust's checked `usize` subtraction (debug profile: `attempt to subtract with overflow`). -/
def csub (a b : Nat) : Res Nat :=
  if b ≤ a then .ok (a - b) else .error .underflow

@[simp] theorem csub_of_le {a b : Nat} (h : b ≤ a) : csub a b = .ok (a - b) := by
  simp [csub, h]

/-- ASCII code of a character literal, `b'x'` in Rust. -/
def asc (c : Char) : UInt8 := c.toNat.toUInt8

/-- `"..."`.as_bytes() for ASCII literals. -/
def ascs (s : String) : Bytes := s.toList.map asc

/-- A Rust `String`: the list of its Unicode scalar values. -/
abbrev Text := List Nat

/-- A text literal as scalar values. -/
def lit (s : String) : Text := s.toList.map Char.toNat

end Verif
