import Verif.Model.Stacks
import Verif.Model.Context
import Mathlib.Data.List.Induction
import Mathlib.Data.List.Infix
/-! Property theorems C11 - C17 (bookkeeping stacks and context flags). -/
namespace Verif.Props
open Verif

/-! ### C11: cond / cmdarg stacks -/

/-- Operations on a bit stack. -/
inductive BitOp where
  | push (b : Bool)
  | pop
deriving DecidableEq

/-- Running the code's stack. -/
def runBits (ops : List BitOp) : StackState :=
  ops.foldl (fun s op => match op with | .push b => s.push b | .pop => s.pop) .new

/-- Specification: an ordinary unbounded stack, newest first. -/
def specBits (ops : List BitOp) : List Bool :=
  ops.foldl (fun l op => match op with | .push b => b :: l | .pop => l.tail) []

/-- Specification of a stack that remembers at most 64 bits. -/
def specBits64 (ops : List BitOp) : List Bool :=
  ops.foldl (fun l op => match op with | .push b => (b :: l).take 64 | .pop => l.tail) []

/-- Deepest the unbounded stack gets during a run. -/
def maxDepth (ops : List BitOp) : Nat := (ops.inits.map (fun p => (specBits p).length)).foldr max 0

/-- The word represents the list. -/
def Repr64 (s : StackState) (l : List Bool) : Prop :=
  l.length ≤ 64 ∧ ∀ i, i < 64 → s.stack.getLsbD i = l.getD i false

theorem repr_push {s l} (h : Repr64 s l) (b : Bool) : Repr64 (s.push b) ((b :: l).take 64) := by
  obtain ⟨h1, h2⟩ := h
  refine ⟨by simp; omega, ?_⟩
  intro i hi
  simp only [StackState.push, BitVec.getLsbD_or, BitVec.getLsbD_shiftLeft]
  have hb : (if b = true then (1 : BitVec 64) else 0).getLsbD i = (decide (i = 0) && b) := by
    cases b
    · simp
    · simp only [if_true, Bool.and_true]
      rw [show (1 : BitVec 64) = 1#64 from rfl, BitVec.getLsbD_one]; simp
  rw [hb]
  rcases i with _ | i
  · simp
  · have := h2 i (by omega)
    have h63 : i < 63 := by omega
    simp [this, List.getD_eq_getElem?_getD, h63, hi]

theorem repr_pop {s l} (h : Repr64 s l) : Repr64 s.pop l.tail := by
  obtain ⟨h1, h2⟩ := h
  refine ⟨by simp; omega, ?_⟩
  intro i hi
  simp only [StackState.pop, BitVec.getLsbD_ushiftRight]
  by_cases h63 : 1 + i < 64
  · rw [h2 _ h63]
    cases l with
    | nil => simp
    | cons b l => simp [List.getD_eq_getElem?_getD, Nat.add_comm 1]
  · rw [BitVec.getLsbD_of_ge _ _ (by omega)]
    have : l.tail.length ≤ i := by simp; omega
    rw [List.getD_eq_getElem?_getD, List.getElem?_eq_none this]; rfl

theorem repr_run (ops : List BitOp) : Repr64 (runBits ops) (specBits64 ops) := by
  unfold runBits specBits64
  have : ∀ (s : StackState) (l : List Bool), Repr64 s l →
      Repr64 (ops.foldl (fun s op => match op with | .push b => s.push b | .pop => s.pop) s)
        (ops.foldl (fun l op => match op with | .push b => (b :: l).take 64 | .pop => l.tail) l) := by
    induction ops with
    | nil => intro s l h; exact h
    | cons op ops ih =>
      intro s l h
      simp only [List.foldl_cons]
      apply ih
      cases op with
      | push b => exact repr_push h b
      | pop => exact repr_pop h
  exact this _ _ ⟨by simp, by intro i hi; simp [StackState.new]⟩

/-- **C11** for every history the code behaves as a stack remembering the newest 64 bits: `is_active` is the top bit and
`is_empty` says that no remembered bit is set. -/
theorem C11_refines_64 (ops : List BitOp) :
    (runBits ops).isActive = (specBits64 ops).headD false ∧
    ((runBits ops).isEmpty = true ↔ ∀ b ∈ specBits64 ops, b = false) := by
  obtain ⟨h1, h2⟩ := repr_run ops
  constructor
  · have h0 := h2 0 (by omega)
    have hhead : (specBits64 ops).headD false = (specBits64 ops).getD 0 false := by
      cases specBits64 ops <;> rfl
    rw [hhead, ← h0]
    unfold StackState.isActive
    generalize (runBits ops).stack = w
    have hw : (w &&& 1) = if w.getLsbD 0 then 1 else 0 := by
      apply BitVec.eq_of_getLsbD_eq
      intro i hi
      rw [BitVec.getLsbD_and, show (1 : BitVec 64) = 1#64 from rfl, BitVec.getLsbD_one]
      by_cases h : i = 0
      · subst h; cases hh : w.getLsbD 0 <;> simp
      · cases hh : w.getLsbD 0 <;> simp [h]
    rw [hw]
    cases w.getLsbD 0 <;> decide
  · simp only [StackState.isEmpty, beq_iff_eq]
    constructor
    · intro h b hb
      obtain ⟨i, hi, rfl⟩ := List.getElem_of_mem hb
      have := h2 i (by omega)
      rw [h] at this
      simp [List.getD_eq_getElem?_getD, List.getElem?_eq_getElem hi] at this
      exact this
    · intro h
      apply BitVec.eq_of_getLsbD_eq
      intro i hi
      rw [h2 i hi, List.getD_eq_getElem?_getD]
      cases hg : (specBits64 ops)[i]? with
      | none => simp
      | some b => simp [h b (List.mem_of_getElem? hg)]

theorem spec_le_depth (ops : List BitOp) (p : List BitOp) (hp : p <+: ops) :
    (specBits p).length ≤ maxDepth ops := by
  have hm : (specBits p).length ∈ ops.inits.map (fun p => (specBits p).length) :=
    List.mem_map.mpr ⟨p, (List.mem_inits _ _).mpr hp, rfl⟩
  unfold maxDepth
  generalize ops.inits.map (fun p => (specBits p).length) = l at hm
  induction l with
  | nil => simp at hm
  | cons a l ih =>
    simp only [List.foldr_cons]
    rcases List.mem_cons.mp hm with h | h
    · omega
    · have := ih h; omega

theorem specBits_snoc (ops : List BitOp) (op : BitOp) : specBits (ops ++ [op]) =
    match op with | .push b => b :: specBits ops | .pop => (specBits ops).tail := by
  simp [specBits]

theorem specBits64_snoc (ops : List BitOp) (op : BitOp) : specBits64 (ops ++ [op]) =
    match op with | .push b => (b :: specBits64 ops).take 64 | .pop => (specBits64 ops).tail := by
  simp [specBits64]

/-- **C11** while at most 64 bits are held, the code is exactly an unbounded LIFO stack. -/
theorem C11_lifo (ops : List BitOp) (h : maxDepth ops ≤ 64) :
    (runBits ops).isActive = (specBits ops).headD false ∧
    ((runBits ops).isEmpty = true ↔ ∀ b ∈ specBits ops, b = false) := by
  have : ∀ p : List BitOp, p <+: ops → specBits64 p = specBits p := by
    intro p
    induction p using List.reverseRecOn with
    | nil => intro _; rfl
    | append_singleton p op ih =>
      intro hp
      have hp' := (List.prefix_append p [op]).trans hp
      rw [specBits_snoc, specBits64_snoc, ih hp']
      cases op with
      | pop => rfl
      | push b =>
        have := spec_le_depth ops _ hp
        rw [specBits_snoc] at this
        simp only [] at this ⊢
        exact List.take_of_length_le (by omega)
  rw [← this ops (List.prefix_refl _)]
  exact C11_refines_64 ops

/-- The limit is real: with 65 bits held the oldest one is forgotten. -/
theorem C11_limit_64 :
    let ops := BitOp.push true :: List.replicate 64 (BitOp.push false) ++ List.replicate 64 BitOp.pop
    (specBits ops).headD false = true ∧ (runBits ops).isActive = false := by decide +kernel

example : maxDepth [.push true, .push false, .pop] ≤ 64 ∧
    (runBits [.push true, .push false, .pop]).isActive = true := by decide

/-! ### C12, C13: local variable scopes -/

/-- Operations of the static environment. -/
inductive EnvOp where
  | extendStatic
  | extendDynamic
  | unextend
  | declare (name : Text)
deriving DecidableEq

/-- One operation of the code. -/
def envStep (e : StaticEnv) : EnvOp → Res StaticEnv
  | .extendStatic => .ok e.extendStatic
  | .extendDynamic => .ok e.extendDynamic
  | .unextend => e.unextend
  | .declare n => .ok (e.declare n)

/-- A history of operations of the code. -/
def envRun (e : StaticEnv) : List EnvOp → Res StaticEnv
  | [] => .ok e
  | op :: ops => match envStep e op with
    | .ok e' => envRun e' ops
    | .error p => .error p

/-- Specification: a scope knows whether it is static and which names were declared in it. -/
structure Scope where
  isStatic : Bool
  names : List Text

/-- A name is visible if declared here, or (from a dynamic scope) visible in the enclosing scope. -/
def visible (n : Text) : List Scope → Prop
  | [] => False
  | s :: rest => n ∈ s.names ∨ (s.isStatic = false ∧ visible n rest)

/-- One operation on the specification; leaving the outermost scope is not possible. -/
def scopeStep (ss : List Scope) : EnvOp → Option (List Scope)
  | .extendStatic => some (⟨true, []⟩ :: ss)
  | .extendDynamic => some (⟨false, []⟩ :: ss)
  | .unextend => match ss with | _ :: s :: rest => some (s :: rest) | _ => none
  | .declare n => match ss with | s :: rest => some ({ s with names := n :: s.names } :: rest) | [] => none

/-- A history on the specification. -/
def scopeRun (ss : List Scope) : List EnvOp → Option (List Scope)
  | [] => some ss
  | op :: ops => match scopeStep ss op with
    | some ss' => scopeRun ss' ops
    | none => none

/-- Environment and scope chain agree at every level. -/
def EnvAgrees : List (List Text) → List Scope → Prop
  | [], [] => True
  | vs :: vss, s :: ss => (∀ n, n ∈ vs ↔ visible n (s :: ss)) ∧ EnvAgrees vss ss
  | _, _ => False

theorem envAgrees_step (e : StaticEnv) (ss : List Scope) (h : EnvAgrees (e.variables :: e.stack) ss) (op : EnvOp) :
    (∃ e' ss', envStep e op = .ok e' ∧ scopeStep ss op = some ss' ∧ EnvAgrees (e'.variables :: e'.stack) ss') ∨
    (envStep e op = .error .expect ∧ scopeStep ss op = none) := by
  cases ss with
  | nil => simp [EnvAgrees] at h
  | cons s rest =>
    obtain ⟨h1, h2⟩ := h
    cases op with
    | extendStatic =>
      left; refine ⟨_, _, rfl, rfl, ?_, h1, h2⟩
      intro n; simp [visible, StaticEnv.extendStatic]
    | extendDynamic =>
      left; refine ⟨_, _, rfl, rfl, ?_, h1, h2⟩
      intro n; simp only [StaticEnv.extendDynamic]; rw [h1]; simp [visible]
    | unextend =>
      cases he : e.stack with
      | nil =>
        rw [he] at h2
        cases rest with
        | nil => right; simp [envStep, StaticEnv.unextend, he, scopeStep]
        | cons _ _ => simp [EnvAgrees] at h2
      | cons vs vss =>
        rw [he] at h2
        cases rest with
        | nil => simp [EnvAgrees] at h2
        | cons s' rest =>
          left
          exact ⟨⟨vs, vss⟩, s' :: rest, by simp [envStep, StaticEnv.unextend, he], rfl, h2⟩
    | declare m =>
      left; refine ⟨_, _, rfl, rfl, ?_, h2⟩
      intro n
      simp only [StaticEnv.declare, List.mem_cons, visible, h1, or_assoc]

/-- **C12** For every history from the empty environment: the code panics exactly when the history leaves the outermost
scope, and otherwise `is_declared` is exactly lexical visibility. -/
theorem C12_scoping (ops : List EnvOp) :
    match envRun .new ops with
    | .ok e => ∃ ss, scopeRun [⟨true, []⟩] ops = some ss ∧ ∀ n, e.isDeclared n = true ↔ visible n ss
    | .error p => p = .expect ∧ scopeRun [⟨true, []⟩] ops = none := by
  have key : ∀ (ops : List EnvOp) (e : StaticEnv) (ss : List Scope), EnvAgrees (e.variables :: e.stack) ss →
      match envRun e ops with
      | .ok e => ∃ ss', scopeRun ss ops = some ss' ∧ ∀ n, e.isDeclared n = true ↔ visible n ss'
      | .error p => p = .expect ∧ scopeRun ss ops = none := by
    intro ops
    induction ops with
    | nil =>
      intro e ss h
      refine ⟨ss, rfl, ?_⟩
      intro n
      cases ss with
      | nil => simp [EnvAgrees] at h
      | cons s rest => simp [StaticEnv.isDeclared, h.1]
    | cons op ops ih =>
      intro e ss h
      rcases envAgrees_step e ss h op with ⟨e', ss', h1, h2, h3⟩ | ⟨h1, h2⟩
      · simp only [envRun, h1, scopeRun, h2]; exact ih e' ss' h3
      · simp only [envRun, h1, scopeRun, h2, and_self]
  apply key
  exact ⟨by intro n; simp [StaticEnv.new, visible], trivial⟩

/-- Balanced histories (every extend has its unextend, in order). -/
inductive Balanced : List EnvOp → Prop
  | nil : Balanced []
  | declare (n ops) : Balanced ops → Balanced (.declare n :: ops)
  | static (a b) : Balanced a → Balanced b → Balanced (.extendStatic :: a ++ .unextend :: b)
  | dynamic (a b) : Balanced a → Balanced b → Balanced (.extendDynamic :: a ++ .unextend :: b)

theorem envRun_append (e : StaticEnv) (a b : List EnvOp) :
    envRun e (a ++ b) = match envRun e a with | .ok e' => envRun e' b | .error p => .error p := by
  induction a generalizing e with
  | nil => rfl
  | cons op a ih =>
    simp only [List.cons_append, envRun]
    cases envStep e op with
    | ok e' => exact ih e'
    | error p => rfl

/-- **C12** (restoration) a balanced history never panics and can only add names to the scope it started in: leaving a
scope restores exactly what was there, plus the names declared directly at this level. -/
theorem C12_balanced (ops : List EnvOp) (hb : Balanced ops) (e : StaticEnv) :
    ∃ e', envRun e ops = .ok e' ∧ e'.stack = e.stack ∧ (∃ new, e'.variables = new ++ e.variables) := by
  induction hb generalizing e with
  | nil => exact ⟨e, rfl, rfl, [], rfl⟩
  | declare n ops _ ih =>
    obtain ⟨e', h1, h2, new, h3⟩ := ih (e.declare n)
    exact ⟨e', by simpa [envRun, envStep] using h1, h2, new ++ [n], by rw [h3]; simp [StaticEnv.declare]⟩
  | static a b _ _ iha ihb =>
    obtain ⟨e1, h1, h2, _⟩ := iha e.extendStatic
    obtain ⟨e2, g1, g2, g3⟩ := ihb e
    refine ⟨e2, ?_, g2, g3⟩
    rw [envRun_append]
    have : envRun e (.extendStatic :: a) = .ok e1 := h1
    rw [this]
    simp only [envRun, envStep, StaticEnv.unextend, h2, StaticEnv.extendStatic]
    exact g1
  | dynamic a b _ _ iha ihb =>
    obtain ⟨e1, h1, h2, _⟩ := iha e.extendDynamic
    obtain ⟨e2, g1, g2, g3⟩ := ihb e
    refine ⟨e2, ?_, g2, g3⟩
    rw [envRun_append]
    have : envRun e (.extendDynamic :: a) = .ok e1 := h1
    rw [this]
    simp only [envRun, envStep, StaticEnv.unextend, h2, StaticEnv.extendDynamic]
    exact g1

/-- **C12** (exact restoration) if additionally nothing is declared at the outer level, the environment is unchanged. -/
theorem C12_enter_leave (a : List EnvOp) (hb : Balanced a) (e : StaticEnv) :
    envRun e (.extendStatic :: a ++ [.unextend]) = .ok e ∧ envRun e (.extendDynamic :: a ++ [.unextend]) = .ok e := by
  constructor
  · obtain ⟨e1, h1, h2, _⟩ := C12_balanced a hb e.extendStatic
    rw [envRun_append, show envRun e (.extendStatic :: a) = .ok e1 from h1]
    simp [envRun, envStep, StaticEnv.unextend, h2, StaticEnv.extendStatic]
  · obtain ⟨e1, h1, h2, _⟩ := C12_balanced a hb e.extendDynamic
    rw [envRun_append, show envRun e (.extendDynamic :: a) = .ok e1 from h1]
    simp [envRun, envStep, StaticEnv.unextend, h2, StaticEnv.extendDynamic]

example : (envRun .new [.declare (lit "a"), .extendDynamic, .declare (lit "b"), .extendStatic, .declare (lit "c")]).map
    (fun e => (e.isDeclared (lit "a"), e.isDeclared (lit "b"), e.isDeclared (lit "c"))) = .ok (false, false, true) := by decide
example : (envRun .new [.declare (lit "a"), .extendDynamic, .declare (lit "b")]).map
    (fun e => (e.isDeclared (lit "a"), e.isDeclared (lit "b"))) = .ok (true, true) := by decide

/-- **C13 is violated** at the API: declaring a variable called like the internal marker turns forwarding on, and
declaring forwarding makes such a variable visible. -/
theorem C13_violated :
    (StaticEnv.new.declare (lit "FORWARD_ARGS")).isForwardArgsDeclared = true ∧
    (StaticEnv.new.declare (lit "ANONYMOUS_BLOCKARG")).isAnonymousBlockargDeclared = true ∧
    StaticEnv.new.declareForwardArgs.isDeclared (lit "FORWARD_ARGS") = true := by decide

/-- **C13** holds for every other name (in particular for every name starting with a lower-case letter or underscore,
which is what an identifier token is). Missing: the two marker names themselves. -/
theorem C13_partial (e : StaticEnv) (name : Text)
    (h1 : name ≠ (lit "FORWARD_ARGS")) (h2 : name ≠ (lit "ANONYMOUS_BLOCKARG")) :
    (e.declare name).isForwardArgsDeclared = e.isForwardArgsDeclared ∧
    (e.declare name).isAnonymousBlockargDeclared = e.isAnonymousBlockargDeclared ∧
    e.declareForwardArgs.isDeclared name = e.isDeclared name ∧
    e.declareAnonymousBlockarg.isDeclared name = e.isDeclared name ∧
    e.declareForwardArgs.isForwardArgsDeclared = true ∧
    e.declareForwardArgs.isAnonymousBlockargDeclared = e.isAnonymousBlockargDeclared ∧
    e.declareAnonymousBlockarg.isAnonymousBlockargDeclared = true ∧
    e.declareAnonymousBlockarg.isForwardArgsDeclared = e.isForwardArgsDeclared := by
  have h3 : lit "FORWARD_ARGS" ≠ lit "ANONYMOUS_BLOCKARG" := by decide
  simp [StaticEnv.isForwardArgsDeclared, StaticEnv.isAnonymousBlockargDeclared, StaticEnv.declareForwardArgs,
    StaticEnv.declareAnonymousBlockarg, StaticEnv.isDeclared, StaticEnv.declare, StaticEnv.FORWARD_ARGS,
    StaticEnv.ANONYMOUS_BLOCKARG, h1, h2, Ne.symm h1, Ne.symm h2, h3, Ne.symm h3]
  exact ⟨rfl, rfl, rfl⟩

example : ((lit "foo") : Text) ≠ (lit "FORWARD_ARGS") ∧ ((lit "foo") : Text) ≠ (lit "ANONYMOUS_BLOCKARG") := by decide

/-! ### C14: context flags -/

/-- Position of a flag's bit. -/
def bitOf : CtxFlag → Nat
  | .inDefined => 0 | .inKwarg => 1 | .inArgdef => 2 | .inDef => 3 | .inClass => 4 | .inLambda => 5 | .inBlock => 6

theorem bitOf_lt (f : CtxFlag) : bitOf f < 64 := by cases f <;> decide
theorem bitOf_inj {f g : CtxFlag} (h : bitOf f = bitOf g) : f = g := by
  cases f <;> cases g <;> first | rfl | (exact absurd h (by decide))

theorem mask_bit (f : CtxFlag) (i : Nat) (hi : i < 64) : f.mask.getLsbD i = decide (i = bitOf f) := by
  revert i; cases f <;> decide

theorem get_eq (c : Context) (f : CtxFlag) : c.get f = c.value.getLsbD (bitOf f) := by
  unfold Context.get
  cases hb : c.value.getLsbD (bitOf f)
  · have : c.value &&& f.mask = 0 := by
      apply BitVec.eq_of_getLsbD_eq
      intro i hi
      rw [BitVec.getLsbD_and, mask_bit f i hi]
      by_cases h : i = bitOf f
      · subst h; simp [hb]
      · simp [h]
    simp [this]
  · have : c.value &&& f.mask ≠ 0 := by
      intro h
      have h2 := congrArg (fun w => w.getLsbD (bitOf f)) h
      simp only [BitVec.getLsbD_and, hb, mask_bit f _ (bitOf_lt f)] at h2
      simp at h2
    simpa using this

/-- **C14** a setter changes exactly its own flag. -/
theorem C14_set_get (c : Context) (f g : CtxFlag) (v : Bool) :
    (c.set f v).get g = if g = f then v else c.get g := by
  rw [get_eq, get_eq]
  cases v
  · simp only [Context.set, Bool.false_eq_true, if_false, BitVec.getLsbD_and, BitVec.getLsbD_not, bitOf_lt,
      mask_bit f _ (bitOf_lt g), decide_true, Bool.true_and]
    by_cases h : g = f
    · subst h; simp
    · have : bitOf g ≠ bitOf f := fun e => h (bitOf_inj e)
      simp [h, this]
  · simp only [Context.set, if_true, BitVec.getLsbD_or, mask_bit f _ (bitOf_lt g)]
    by_cases h : g = f
    · subst h; simp
    · have : bitOf g ≠ bitOf f := fun e => h (bitOf_inj e)
      simp [h, this]

/-- Contexts reachable from the empty one by setting flags. -/
def ctxRun (ops : List (CtxFlag × Bool)) : Context := ops.foldl (fun c op => c.set op.1 op.2) .empty

theorem ctx_high (ops : List (CtxFlag × Bool)) (i : Nat) (hi : 7 ≤ i) : (ctxRun ops).value.getLsbD i = false := by
  by_cases h64 : i < 64
  swap
  · exact BitVec.getLsbD_of_ge _ _ (by omega)
  unfold ctxRun
  have : ∀ c : Context, c.value.getLsbD i = false →
      (ops.foldl (fun c op => c.set op.1 op.2) c).value.getLsbD i = false := by
    induction ops with
    | nil => intro c h; exact h
    | cons op ops ih =>
      intro c h
      apply ih
      obtain ⟨f, v⟩ := op
      have hne : i ≠ bitOf f := by cases f <;> simp [bitOf] <;> omega
      cases v
      · simp [Context.set, h]
      · simp [Context.set, h, mask_bit f i h64, hne]
  exact this _ (by simp [Context.empty])

/-- **C14** for every history of updates, a flag has the value last given to it (off if never set), and the context is
empty exactly when all seven flags are off. -/
theorem C14_history (ops : List (CtxFlag × Bool)) :
    (∀ f, (ctxRun ops).get f = ((ops.reverse.find? (fun op => op.1 = f)).map (·.2)).getD false) ∧
    ((ctxRun ops).isEmpty = true ↔ ∀ f, (ctxRun ops).get f = false) := by
  constructor
  · intro f
    induction ops using List.reverseRecOn with
    | nil => rw [get_eq]; simp [ctxRun, Context.empty]
    | append_singleton ops op ih =>
      have : ctxRun (ops ++ [op]) = (ctxRun ops).set op.1 op.2 := by simp [ctxRun]
      rw [this, C14_set_get]
      simp only [List.reverse_append, List.reverse_cons, List.reverse_nil, List.nil_append, List.singleton_append,
        List.find?_cons]
      by_cases h : f = op.1
      · simp [h]
      · have h2 : ¬ op.1 = f := fun e => h e.symm
        simp [h, h2, ih]
  · simp only [Context.isEmpty, beq_iff_eq]
    constructor
    · intro h f; rw [get_eq, h]; simp
    · intro h
      apply BitVec.eq_of_getLsbD_eq
      intro i hi
      by_cases h7 : 7 ≤ i
      · rw [ctx_high ops i h7]; simp
      · have : ∃ f, bitOf f = i := by
          have : i = 0 ∨ i = 1 ∨ i = 2 ∨ i = 3 ∨ i = 4 ∨ i = 5 ∨ i = 6 := by omega
          rcases this with rfl | rfl | rfl | rfl | rfl | rfl | rfl
          exacts [⟨.inDefined, rfl⟩, ⟨.inKwarg, rfl⟩, ⟨.inArgdef, rfl⟩, ⟨.inDef, rfl⟩, ⟨.inClass, rfl⟩,
            ⟨.inLambda, rfl⟩, ⟨.inBlock, rfl⟩]
        obtain ⟨f, rfl⟩ := this
        rw [← get_eq, h f]; simp

/-- **C14** saving a context and later putting each flag back restores it, whatever happened in between. -/
theorem C14_save_restore (ops ops' : List (CtxFlag × Bool)) :
    let saved := ctxRun ops
    let later := ctxRun (ops ++ ops')
    ([CtxFlag.inDefined, .inKwarg, .inArgdef, .inDef, .inClass, .inLambda, .inBlock].foldl
      (fun c f => c.set f (saved.get f)) later) = saved := by
  intro saved later
  have e : ([CtxFlag.inDefined, .inKwarg, .inArgdef, .inDef, .inClass, .inLambda, .inBlock].foldl
      (fun c f => c.set f (saved.get f)) later)
      = ctxRun (ops ++ ops' ++ [CtxFlag.inDefined, .inKwarg, .inArgdef, .inDef, .inClass, .inLambda, .inBlock].map
        (fun f => (f, saved.get f))) := by
    simp only [ctxRun, List.foldl_append, List.map_cons, List.map_nil, List.foldl_cons, List.foldl_nil, later]
  have hv : ∀ c d : Context, (∀ i, i < 64 → c.value.getLsbD i = d.value.getLsbD i) → c = d := by
    intro c d h
    have := BitVec.eq_of_getLsbD_eq h
    cases c; cases d; simpa using this
  apply hv
  intro i hi
  by_cases h7 : 7 ≤ i
  · rw [e, ctx_high _ i h7, show saved = ctxRun ops from rfl, ctx_high _ i h7]
  · have : ∃ f, bitOf f = i := by
      have : i = 0 ∨ i = 1 ∨ i = 2 ∨ i = 3 ∨ i = 4 ∨ i = 5 ∨ i = 6 := by omega
      rcases this with rfl | rfl | rfl | rfl | rfl | rfl | rfl
      exacts [⟨.inDefined, rfl⟩, ⟨.inKwarg, rfl⟩, ⟨.inArgdef, rfl⟩, ⟨.inDef, rfl⟩, ⟨.inClass, rfl⟩,
        ⟨.inLambda, rfl⟩, ⟨.inBlock, rfl⟩]
    obtain ⟨f, rfl⟩ := this
    rw [← get_eq, ← get_eq]
    simp only [List.foldl_cons, List.foldl_nil, C14_set_get]
    cases f <;> simp

/-- **C14** the derived "inside a block or lambda" test. -/
theorem C14_dynamic_block (c : Context) :
    c.isInDynamicBlock = true ↔ c.get .inBlock = true ∨ c.get .inLambda = true := by
  simp [Context.isInDynamicBlock]

example : (ctxRun [(.inDef, true), (.inClass, true), (.inDef, false)]).get .inClass = true ∧
    (ctxRun [(.inDef, true), (.inClass, true), (.inDef, false)]).get .inDef = false := by decide

/-! ### C15: per-pattern sets -/

/-- Operations on a `VariablesStack`. -/
inductive VarOp where
  | push
  | pop
  | declare (name : Text)
deriving DecidableEq

/-- A history of the code. -/
def varRun (v : VarStack) : List VarOp → Res VarStack
  | [] => .ok v
  | .push :: ops => varRun v.push ops
  | .pop :: ops => varRun v.pop ops
  | .declare n :: ops => match v.declare n with
    | .ok v' => varRun v' ops
    | .error p => .error p

/-- Balanced histories. -/
inductive VarBalanced : List VarOp → Prop
  | nil : VarBalanced []
  | declare (n ops) : VarBalanced ops → VarBalanced (.declare n :: ops)
  | layer (a b) : VarBalanced a → VarBalanced b → VarBalanced (.push :: a ++ .pop :: b)

/-- Names declared directly at the outermost level of a history. -/
def topDeclares : List VarOp → Nat → List Text
  | [], _ => []
  | .push :: ops, d => topDeclares ops (d + 1)
  | .pop :: ops, d => topDeclares ops (d - 1)
  | .declare n :: ops, d => if d = 0 then n :: topDeclares ops d else topDeclares ops d

theorem varRun_append (v : VarStack) (a b : List VarOp) :
    varRun v (a ++ b) = match varRun v a with | .ok v' => varRun v' b | .error p => .error p := by
  induction a generalizing v with
  | nil => rfl
  | cons op a ih =>
    cases op with
    | push => exact ih _
    | pop => exact ih _
    | declare n =>
      simp only [List.cons_append, varRun]
      cases v.declare n with
      | ok v' => exact ih v'
      | error p => rfl

theorem topDeclares_append (a b : List VarOp) (hb : VarBalanced a) : ∀ d,
    topDeclares (a ++ b) d = topDeclares a d ++ topDeclares b d := by
  induction hb generalizing b with
  | nil => intro d; rfl
  | declare n ops _ ih =>
    intro d; simp only [List.cons_append, topDeclares, ih]; split <;> rfl
  | layer x y _ _ ihx ihy =>
    intro d
    have e1 : (VarOp.push :: x ++ .pop :: y) ++ b = VarOp.push :: (x ++ (.pop :: (y ++ b))) := by simp
    have e2 : (VarOp.push :: x ++ .pop :: y) = VarOp.push :: (x ++ (.pop :: y)) := by simp
    rw [e1, e2]
    simp only [topDeclares, ihx, ihy, Nat.add_sub_cancel, List.append_assoc]

/-- Inside an inner layer nothing is declared at the outermost level. -/
theorem topDeclares_pos (a : List VarOp) (hb : VarBalanced a) : ∀ d, 0 < d → topDeclares a d = [] := by
  induction hb with
  | nil => intro d _; rfl
  | declare n ops _ ih => intro d hd; simp [topDeclares, ih d hd]; omega
  | layer x y hx _ ihx ihy =>
    intro d hd
    have e2 : (VarOp.push :: x ++ .pop :: y) = VarOp.push :: (x ++ (.pop :: y)) := by simp
    rw [e2]
    simp only [topDeclares, topDeclares_append x _ hx, ihx (d + 1) (by omega), Nat.add_sub_cancel, ihy d hd,
      List.append_nil]

/-- **C15** after opening a layer, a balanced history never panics; a name is then reported declared iff the history
declared it at that very level, and popping gives back exactly the outer layers. -/
theorem C15_layers (v : VarStack) (ops : List VarOp) (hb : VarBalanced ops) :
    ∃ v', varRun v.push ops = .ok v' ∧
      (∀ n, ∃ b, v'.isDeclared n = .ok b ∧ (b = true ↔ n ∈ topDeclares ops 0)) ∧
      v'.pop = v := by
  have key : ∀ (ops : List VarOp), VarBalanced ops → ∀ (layer : List Text) (rest : List (List Text)),
      ∃ layer', varRun ⟨layer :: rest⟩ ops = .ok ⟨layer' :: rest⟩ ∧
        ∀ n, n ∈ layer' ↔ n ∈ layer ∨ n ∈ topDeclares ops 0 := by
    intro ops hb
    induction hb with
    | nil => intro layer rest; exact ⟨layer, rfl, by simp [topDeclares]⟩
    | declare m ops _ ih =>
      intro layer rest
      obtain ⟨l', h1, h2⟩ := ih (m :: layer) rest
      refine ⟨l', h1, ?_⟩
      intro n
      rw [h2]
      simp only [List.mem_cons, topDeclares, if_true]
      constructor
      · rintro ((h | h) | h)
        · exact Or.inr (Or.inl h)
        · exact Or.inl h
        · exact Or.inr (Or.inr h)
      · rintro (h | h | h)
        · exact Or.inl (Or.inr h)
        · exact Or.inl (Or.inl h)
        · exact Or.inr h
    | layer x y hx hy ihx ihy =>
      intro layer rest
      obtain ⟨lx, h1, _⟩ := ihx [] (layer :: rest)
      obtain ⟨ly, g1, g2⟩ := ihy layer rest
      refine ⟨ly, ?_, ?_⟩
      · have e2 : (VarOp.push :: x ++ .pop :: y) = VarOp.push :: (x ++ (.pop :: y)) := by simp
        rw [e2]
        simp only [varRun, VarStack.push, varRun_append, h1, VarStack.pop, List.tail_cons]
        exact g1
      · intro n
        have e2 : (VarOp.push :: x ++ .pop :: y) = VarOp.push :: (x ++ (.pop :: y)) := by simp
        rw [g2, e2]
        simp only [topDeclares, topDeclares_append x _ hx, topDeclares_pos x hx (0 + 1) (by omega),
          Nat.add_sub_cancel, List.nil_append]
  obtain ⟨l', h1, h2⟩ := key ops hb [] v.stack
  refine ⟨⟨l' :: v.stack⟩, h1, ?_, rfl⟩
  intro n
  exact ⟨_, rfl, by simp [h2]⟩

/-- Using the stack with no layer open panics (needed hypothesis of C15). -/
theorem C15_needs_layer (n : Text) :
    VarStack.new.declare n = .error .expect ∧ VarStack.new.isDeclared n = .error .expect := ⟨rfl, rfl⟩

example : VarBalanced [.declare (lit "a"), .push, .declare (lit "b"), .pop] ∧
    topDeclares [.declare (lit "a"), .push, .declare (lit "b"), .pop] 0 = [(lit "a")] :=
  ⟨.declare _ _ (.layer [.declare (lit "b")] [] (.declare _ _ .nil) .nil), by decide⟩

/-! ### C16: current argument -/

/-- Operations on the current-argument stack. -/
inductive ArgOp where
  | push (v : Option Text)
  | set (v : Option Text)
  | pop

/-- A history of the code. -/
def argRun (ops : List ArgOp) : CurArgStack :=
  ops.foldl (fun s op => match op with | .push v => s.push v | .set v => s.set v | .pop => s.pop) .new

/-- Specification: the values given by the pushes that are still open (newest first); `set` replaces the newest. -/
def argSpec (ops : List ArgOp) : List (Option Text) :=
  ops.foldl (fun l op => match op with | .push v => v :: l | .set v => v :: l.drop 1 | .pop => l.drop 1) []

/-- **C16** for every history, `top` is the innermost open value, `is_empty` says whether any is open. -/
theorem C16_current_arg (ops : List ArgOp) :
    (argRun ops).top = ((argSpec ops).head?).join ∧ (argRun ops).isEmpty = (argSpec ops).isEmpty := by
  have h : (argRun ops).stack = argSpec ops := by
    unfold argRun argSpec
    have : ∀ (s : CurArgStack) (l : List (Option Text)), s.stack = l →
        (ops.foldl (fun s op => match op with | .push v => s.push v | .set v => s.set v | .pop => s.pop) s).stack =
        ops.foldl (fun l op => match op with | .push v => v :: l | .set v => v :: l.drop 1 | .pop => l.drop 1) l := by
      induction ops with
      | nil => intro s l h; exact h
      | cons op ops ih =>
        intro s l h
        simp only [List.foldl_cons]
        apply ih
        subst h
        cases op <;> simp [CurArgStack.push, CurArgStack.set, CurArgStack.pop]
    exact this _ _ rfl
  constructor
  · unfold CurArgStack.top
    rw [h]
    rcases argSpec ops with _ | ⟨_ | _, _⟩ <;> rfl
  · unfold CurArgStack.isEmpty; rw [h]

/-- **C16** pop undoes push, for every state. -/
theorem C16_pop_push (s : CurArgStack) (v : Option Text) : (s.push v).pop = s := rfl

example : (argRun [.push (some (lit "a")), .push none, .set (some (lit "b")), .pop]).top = some (lit "a") := by decide

/-! ### C17: numbered parameters bookkeeping -/

/-- Events inside one scope. -/
inductive NumEv where
  | ordinary
  | register (n : Int)
deriving DecidableEq

/-- Operations. -/
inductive NumOp where
  | push (isStatic : Bool)
  | pop
  | ev (e : NumEv)
deriving DecidableEq

/-- A history of the code. -/
def numRun (s : NumStack) : List NumOp → Res NumStack
  | [] => .ok s
  | .push b :: ops => numRun (s.push b) ops
  | .pop :: ops => numRun s.pop ops
  | .ev .ordinary :: ops => match s.setHasOrdinaryParams with
    | .ok s' => numRun s' ops
    | .error p => .error p
  | .ev (.register n) :: ops => match s.register n with
    | .ok s' => numRun s' ops
    | .error p => .error p

/-- Specification: open scopes with their events, newest scope first, newest event first. -/
def numSpec (ss : List (Bool × List NumEv)) : List NumOp → Option (List (Bool × List NumEv))
  | [] => some ss
  | .push b :: ops => numSpec ((b, []) :: ss) ops
  | .pop :: ops => numSpec (ss.drop 1) ops
  | .ev e :: ops => match ss with
    | [] => none
    | (b, evs) :: rest => numSpec ((b, e :: evs) :: rest) ops

/-- Value of a scope: the registrations since the last ordinary-parameters event (newest first) decide. -/
def scopeValue : List NumEv → Int
  | [] => 0
  | .ordinary :: _ => -1
  | .register n :: evs => max (scopeValue evs) n

/-- **C17** for every history: the code panics exactly when an event happens with no scope open, and otherwise the top
is the value of the innermost scope, which has ordinary parameters iff that value is -1 and numbered ones iff it is
positive; scopes do not influence each other. -/
theorem C17_numparams (ops : List NumOp) :
    match numRun .new ops, numSpec [] ops with
    | .ok s, some ss => s.stack = ss.map (fun sc => ⟨scopeValue sc.2, sc.1⟩) ∧
        (∀ b evs rest, ss = (b, evs) :: rest → s.top = scopeValue evs ∧
          (s.hasOrdinaryParams = true ↔ scopeValue evs = -1) ∧ (s.hasNumparams = true ↔ 0 < scopeValue evs))
    | .error p, none => p = .underflow
    | _, _ => False := by
  have key : ∀ (ops : List NumOp) (s : NumStack) (ss : List (Bool × List NumEv)),
      s.stack = ss.map (fun sc => ⟨scopeValue sc.2, sc.1⟩) →
      match numRun s ops, numSpec ss ops with
      | .ok s, some ss => s.stack = ss.map (fun sc => ⟨scopeValue sc.2, sc.1⟩)
      | .error p, none => p = .underflow
      | _, _ => False := by
    intro ops
    induction ops with
    | nil => intro s ss h; exact h
    | cons op ops ih =>
      intro s ss h
      cases op with
      | push b => exact ih _ _ (by simp [NumStack.push, h, scopeValue])
      | pop => exact ih _ _ (by simp [NumStack.pop, h])
      | ev e =>
        cases ss with
        | nil =>
          simp at h
          cases e <;> simp [numRun, numSpec, NumStack.setHasOrdinaryParams, NumStack.register, NumStack.set, h]
        | cons sc rest =>
          obtain ⟨b, evs⟩ := sc
          simp only [List.map_cons] at h
          cases e with
          | ordinary =>
            simp only [numRun, numSpec, NumStack.setHasOrdinaryParams, NumStack.set, h]
            exact ih _ _ (by simp [scopeValue, NumStack.ORDINARY_PARAMS])
          | register n =>
            simp only [numRun, numSpec, NumStack.register, NumStack.set, NumStack.top, h]
            exact ih _ _ (by simp [scopeValue])
  have := key ops .new [] rfl
  revert this
  cases numRun .new ops <;> cases numSpec [] ops <;> simp only [imp_self]
  intro h
  refine ⟨h, ?_⟩
  rintro b evs rest rfl
  rw [List.map_cons] at h
  rename_i s
  have ht : s.top = scopeValue evs := by simp [NumStack.top, h]
  refine ⟨ht, ?_, ?_⟩
  · simp [NumStack.hasOrdinaryParams, ht, NumStack.ORDINARY_PARAMS]
  · simp [NumStack.hasNumparams, ht]

/-- **C17** for positive parameter numbers: the value of a scope without ordinary parameters is the largest number
registered (0 if none). -/
theorem C17_scope_value (ns : List Int) (h : ∀ n ∈ ns, 0 < n) :
    (∀ n ∈ ns, n ≤ scopeValue (ns.map .register)) ∧
    (scopeValue (ns.map .register) = 0 ∧ ns = [] ∨ scopeValue (ns.map .register) ∈ ns) := by
  induction ns with
  | nil => simp [scopeValue]
  | cons n ns ih =>
    obtain ⟨h1, h2⟩ := ih (fun m hm => h m (by simp [hm]))
    have hn := h n (by simp)
    simp only [List.map_cons, scopeValue, List.mem_cons]
    constructor
    · rintro m (rfl | hm)
      · omega
      · have := h1 m hm; omega
    · right
      rcases h2 with ⟨h3, rfl⟩ | h3
      · left; simp [scopeValue]; omega
      · by_cases hle : scopeValue (ns.map .register) ≤ n
        · left; omega
        · right; rw [show max (scopeValue (ns.map NumEv.register)) n = scopeValue (ns.map NumEv.register) by omega]; exact h3

/-- Registering a numbered parameter after ordinary ones forgets the ordinary marker (an observable quirk that the
specification above makes explicit). -/
example : scopeValue [.register 2, .ordinary] = 2 := by decide
example : (numRun .new [.push false, .ev (.register 2), .push true, .pop, .ev (.register 1)]).map (·.top) = .ok 2 := by
  decide

end Verif.Props
