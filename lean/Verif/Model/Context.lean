import Verif.Model.Basic
/-!
Model of `src/context.rs`. The `usize` value is kept as a 64-bit word with the same bit operations.
-/
namespace Verif

/-- src/context.rs:10-12 `Context`. -/
structure Context where
  value : BitVec 64
deriving DecidableEq, Repr

/-- The seven flags declared with `context_flag!`, src/context.rs:48-54. -/
inductive CtxFlag where
  | inDefined | inKwarg | inArgdef | inDef | inClass | inLambda | inBlock
deriving DecidableEq, Repr

/-- src/context.rs:48-54: `1 << n`. -/
def CtxFlag.mask : CtxFlag → BitVec 64
  | .inDefined => 1#64 <<< 0
  | .inKwarg => 1#64 <<< 1
  | .inArgdef => 1#64 <<< 2
  | .inDef => 1#64 <<< 3
  | .inClass => 1#64 <<< 4
  | .inLambda => 1#64 <<< 5
  | .inBlock => 1#64 <<< 6

namespace Context
/-- `Default`. -/
def empty : Context := ⟨0⟩
/-- src/context.rs:19-21, the getter of a flag. -/
def get (c : Context) (f : CtxFlag) : Bool := (c.value &&& f.mask) != 0
/-- src/context.rs:23-32, the setter of a flag. -/
def set (c : Context) (f : CtxFlag) (v : Bool) : Context :=
  if v then ⟨c.value ||| f.mask⟩ else ⟨c.value &&& ~~~ f.mask⟩
/-- src/context.rs:75-98 `is_empty` (without the debug print). -/
def isEmpty (c : Context) : Bool := c.value == 0
/-- src/context.rs:65-67 `is_in_dynamic_block`. -/
def isInDynamicBlock (c : Context) : Bool := c.get .inBlock || c.get .inLambda
end Context
end Verif
