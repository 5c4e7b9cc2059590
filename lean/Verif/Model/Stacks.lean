import Verif.Model.Basic
/-!
Model of the bookkeeping stacks: `src/stack_state.rs`, `src/static_environment.rs`, `src/variables_stack.rs`,
`src/current_arg_stack.rs`, `src/max_numparam_stack.rs`.
A `Vec` used as a stack is a `List` with the top (last element of the `Vec`) first. A `BTreeSet<String>` of names is
a list used only through membership.
-/
namespace Verif

/-! ### `StackState` -/

/-- src/stack_state.rs:2-5; the name is only for debugging. `usize` is 64 bits wide. -/
structure StackState where
  stack : BitVec 64
deriving DecidableEq, Repr

namespace StackState
/-- src/stack_state.rs:8-10 `new`. -/
def new : StackState := ⟨0⟩
/-- src/stack_state.rs:12-14 `is_empty`. -/
def isEmpty (s : StackState) : Bool := s.stack == 0
/-- src/stack_state.rs:16-19 `push`. -/
def push (s : StackState) (bit : Bool) : StackState :=
  let bitValue : BitVec 64 := if bit then 1 else 0
  ⟨(s.stack <<< 1) ||| bitValue⟩
/-- src/stack_state.rs:21-23 `pop`. -/
def pop (s : StackState) : StackState := ⟨s.stack >>> 1⟩
/-- src/stack_state.rs:25-27 `is_active`. -/
def isActive (s : StackState) : Bool := (s.stack &&& 1) == 1
end StackState

/-! ### `StaticEnvironment` -/

/-- src/static_environment.rs:25-28. -/
structure StaticEnv where
  variables : List Text
  stack : List (List Text)
deriving DecidableEq, Repr

namespace StaticEnv
/-- src/static_environment.rs:30. -/
def FORWARD_ARGS : Text := lit "FORWARD_ARGS"
/-- src/static_environment.rs:31. -/
def ANONYMOUS_BLOCKARG : Text := lit "ANONYMOUS_BLOCKARG"
/-- src/static_environment.rs:35-40 `new`. -/
def new : StaticEnv := ⟨[], []⟩
/-- src/static_environment.rs:42-44 `is_empty`. -/
def isEmpty (e : StaticEnv) : Bool := e.stack.isEmpty
/-- src/static_environment.rs:49-52 `extend_static`. -/
def extendStatic (e : StaticEnv) : StaticEnv := ⟨[], e.variables :: e.stack⟩
/-- src/static_environment.rs:57-61 `extend_dynamic`. -/
def extendDynamic (e : StaticEnv) : StaticEnv := ⟨e.variables, e.variables :: e.stack⟩
/-- src/static_environment.rs:64-70 `unextend`. -/
def unextend (e : StaticEnv) : Res StaticEnv :=
  match e.stack with
  | [] => .error .expect
  | vs :: rest => .ok ⟨vs, rest⟩
/-- src/static_environment.rs:73-75 `declare`. -/
def declare (e : StaticEnv) (name : Text) : StaticEnv := { e with variables := name :: e.variables }
/-- src/static_environment.rs:78-80 `is_declared`. -/
def isDeclared (e : StaticEnv) (name : Text) : Bool := name ∈ e.variables
/-- src/static_environment.rs:82-84. -/
def declareForwardArgs (e : StaticEnv) : StaticEnv := e.declare FORWARD_ARGS
/-- src/static_environment.rs:86-88. -/
def isForwardArgsDeclared (e : StaticEnv) : Bool := e.isDeclared FORWARD_ARGS
/-- src/static_environment.rs:90-92. -/
def declareAnonymousBlockarg (e : StaticEnv) : StaticEnv := e.declare ANONYMOUS_BLOCKARG
/-- src/static_environment.rs:94-96. -/
def isAnonymousBlockargDeclared (e : StaticEnv) : Bool := e.isDeclared ANONYMOUS_BLOCKARG
end StaticEnv

/-! ### `VariablesStack` -/

/-- src/variables_stack.rs:6-8. -/
structure VarStack where
  stack : List (List Text)
deriving DecidableEq, Repr

namespace VarStack
/-- src/variables_stack.rs:11-15 `new`. -/
def new : VarStack := ⟨[]⟩
/-- src/variables_stack.rs:17-19 `is_empty`. -/
def isEmpty (v : VarStack) : Bool := v.stack.isEmpty
/-- src/variables_stack.rs:21-23 `push`. -/
def push (v : VarStack) : VarStack := ⟨[] :: v.stack⟩
/-- src/variables_stack.rs:25-27 `pop` (popping an empty `Vec` does nothing). -/
def pop (v : VarStack) : VarStack := ⟨v.stack.tail⟩
/-- src/variables_stack.rs:29-35 `declare`. -/
def declare (v : VarStack) (name : Text) : Res VarStack :=
  match v.stack with
  | [] => .error .expect
  | layer :: rest => .ok ⟨(name :: layer) :: rest⟩
/-- src/variables_stack.rs:37-43 `is_declared`. -/
def isDeclared (v : VarStack) (name : Text) : Res Bool :=
  match v.stack with
  | [] => .error .expect
  | layer :: _ => .ok (name ∈ layer)
end VarStack

/-! ### `CurrentArgStack` -/

/-- src/current_arg_stack.rs:13-15. -/
structure CurArgStack where
  stack : List (Option Text)
deriving DecidableEq, Repr

namespace CurArgStack
/-- src/current_arg_stack.rs:18-22 `new`. -/
def new : CurArgStack := ⟨[]⟩
/-- src/current_arg_stack.rs:24-26 `is_empty`. -/
def isEmpty (s : CurArgStack) : Bool := s.stack.isEmpty
/-- src/current_arg_stack.rs:28-30 `push`. -/
def push (s : CurArgStack) (v : Option Text) : CurArgStack := ⟨v :: s.stack⟩
/-- src/current_arg_stack.rs:37-39 `pop`. -/
def pop (s : CurArgStack) : CurArgStack := ⟨s.stack.tail⟩
/-- src/current_arg_stack.rs:32-35 `set` (pop, then push). -/
def set (s : CurArgStack) (v : Option Text) : CurArgStack := s.pop.push v
/-- src/current_arg_stack.rs:41-46 `top`. -/
def top (s : CurArgStack) : Option Text :=
  match s.stack.head? with
  | some (some v) => some v
  | _ => none
end CurArgStack

/-! ### `MaxNumparamStack` -/

/-- src/max_numparam_stack.rs:5-8 `StackItem` (`i32` as `Int`). -/
structure NumItem where
  value : Int
  isStatic : Bool
deriving DecidableEq, Repr

/-- src/max_numparam_stack.rs:11-13. -/
structure NumStack where
  stack : List NumItem
deriving DecidableEq, Repr

namespace NumStack
/-- src/max_numparam_stack.rs:16 `ORDINARY_PARAMS`. -/
def ORDINARY_PARAMS : Int := -1
/-- src/max_numparam_stack.rs:18-22 `new`. -/
def new : NumStack := ⟨[]⟩
/-- src/max_numparam_stack.rs:24-26 `is_empty`. -/
def isEmpty (s : NumStack) : Bool := s.stack.isEmpty
/-- src/max_numparam_stack.rs:44-50 `top` (`i32::MIN` when empty). -/
def top (s : NumStack) : Int :=
  match s.stack with
  | item :: _ => item.value
  | [] => -2147483648
/-- src/max_numparam_stack.rs:63-67 `set`: `stack[len - 1].value = value` (underflow on the empty stack). -/
def set (s : NumStack) (value : Int) : Res NumStack :=
  match s.stack with
  | [] => .error .underflow
  | item :: rest => .ok ⟨{ item with value := value } :: rest⟩
/-- src/max_numparam_stack.rs:28-30. -/
def setHasOrdinaryParams (s : NumStack) : Res NumStack := s.set ORDINARY_PARAMS
/-- src/max_numparam_stack.rs:32-34. -/
def hasOrdinaryParams (s : NumStack) : Bool := s.top == ORDINARY_PARAMS
/-- src/max_numparam_stack.rs:36-38. -/
def hasNumparams (s : NumStack) : Bool := s.top > 0
/-- src/max_numparam_stack.rs:40-42 `register`. -/
def register (s : NumStack) (numparam : Int) : Res NumStack := s.set (max s.top numparam)
/-- src/max_numparam_stack.rs:52-57 `push`. -/
def push (s : NumStack) (isStatic : Bool) : NumStack := ⟨⟨0, isStatic⟩ :: s.stack⟩
/-- src/max_numparam_stack.rs:59-61 `pop`. -/
def pop (s : NumStack) : NumStack := ⟨s.stack.tail⟩
/-- src/max_numparam_stack.rs:69-71 `inner_clone` (top first in the model). -/
def innerClone (s : NumStack) : List NumItem := s.stack
end NumStack

end Verif
