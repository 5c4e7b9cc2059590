import Verif.Lemmas.GrammarSummary
import Verif.Props.Stacks
/-!
Every production agrees with the summaries of its symbols: a checker, run over the whole table.
-/
namespace Verif.Grammar

/-! ### Stacks -/

/-- One entry of one of the five stacks. -/
inductive Cell where
  | names (l : List Text)
  | arg (o : Option Text)
  | num (i : NumItem)
deriving DecidableEq, Repr

/-- The stacks, top first; the current variables are the top of `env`. -/
def stk (d : Dim) (s : St) : List Cell :=
  match d with
  | .env => (s.env.variables :: s.env.stack).map .names
  | .arg => s.arg.stack.map .arg
  | .num => s.num.stack.map .num
  | .pv => s.pv.stack.map .names
  | .pk => s.pk.stack.map .names

def D5.get (x : D5) : Dim → Nat
  | .env => x.env
  | .arg => x.arg
  | .num => x.num
  | .pv => x.pv
  | .pk => x.pk

/-- The top `n` entries are replaced by `p` entries, nothing below them changes. -/
def Track (n p : Nat) (a b : List Cell) : Prop :=
  n ≤ a.length ∧ ∃ pre : List Cell, pre.length = p ∧ b = pre ++ a.drop n

theorem Track.refl {n : Nat} {a : List Cell} (h : n ≤ a.length) : Track n n a a :=
  ⟨h, a.take n, by simp [h], by simp⟩

theorem Track.length {n p : Nat} {a b : List Cell} (h : Track n p a b) : p ≤ b.length := by
  obtain ⟨_, pre, rfl, rfl⟩ := h; simp

theorem Track.trans {n m k p : Nat} {a b c : List Cell} (h : Track n m a b) (hk : k ≤ m) (h2 : Track k p b c) :
    Track n (m - k + p) a c := by
  obtain ⟨ha, pre, rfl, rfl⟩ := h
  obtain ⟨_, pre2, rfl, rfl⟩ := h2
  refine ⟨ha, pre2 ++ pre.drop k, by simp; omega, ?_⟩
  rw [List.drop_append_of_le_length hk, List.append_assoc]

/-- Entries an operation needs (from the top), entries it removes, entries it puts there. -/
def opEff (d : Dim) : Op → Nat × Nat × Nat
  | .envStatic => if d = .env then (0, 0, 1) else (0, 0, 0)
  | .envDynamic => if d = .env then (0, 0, 1) else (0, 0, 0)
  | .envPop => if d = .env then (2, 1, 0) else (0, 0, 0)
  | .argPush => if d = .arg then (0, 0, 1) else (0, 0, 0)
  | .argPop => if d = .arg then (1, 1, 0) else (0, 0, 0)
  | .numPush _ => if d = .num then (0, 0, 1) else (0, 0, 0)
  | .numPop => if d = .num then (1, 1, 0) else (0, 0, 0)
  | .pvPush => if d = .pv then (0, 0, 1) else (0, 0, 0)
  | .pvPop => if d = .pv then (1, 1, 0) else (0, 0, 0)
  | .pkPush => if d = .pk then (0, 0, 1) else (0, 0, 0)
  | .pkPop => if d = .pk then (1, 1, 0) else (0, 0, 0)
  | .touch ds => if d ∈ ds then (1, 1, 1) else (0, 0, 0)
  | _ => (0, 0, 0)

def opsS (d : Dim) : List Op → Nat → Option Nat
  | [], m => some m
  | op :: ops, m =>
    let (r, n, p) := opEff d op
    if r ≤ m ∧ n ≤ m then opsS d ops (m - n + p) else none

/-- Check of a right-hand side for one stack. -/
def checkS (d : Dim) (goal : Nat) : List Item → Nat → Bool
  | [], m => m == goal
  | .t _ :: is, m => checkS d goal is m
  | .n x :: is, m =>
    decide ((stackOf x).1.get d ≤ m) && checkS d goal is (m - (stackOf x).1.get d + (stackOf x).2.get d)
  | .a act :: is, m =>
    act.fails || (match opsS d act.ops m with
      | some m' => checkS d goal is m'
      | none => false)
  | .err :: _, _ => true

/-! ### Context flags -/

/-- Flag and register through one operation. `vs` are the flags stored in the values so far. -/
def opF (f : CtxFlag) (vs : List (Option Bool)) (c : Bool) (reg : Option Bool) : Op → Option (Bool × Option Bool)
  | .flag g v => some (if g = f then v else c, reg)
  | .restore g n =>
    if g = f then (match (vs[n - 1]?).join with
      | some b => some (b, reg)
      | none => none)
    else some (c, reg)
  | .dump => some (c, some c)
  | .saveBool g => some (c, if f = g then some c else none)
  | .carry n => some (c, (vs[n - 1]?).join)
  | _ => some (c, reg)

def opsF (f : CtxFlag) (vs : List (Option Bool)) : List Op → Bool → Option Bool → Option (Bool × Option Bool)
  | [], c, reg => some (c, reg)
  | op :: ops, c, reg =>
    match opF f vs c reg op with
    | some (c, reg) => opsF f vs ops c reg
    | none => none

def stealF (vs : List (Option Bool)) : List (Cast × Nat) → List (Option Bool)
  | [] => vs
  | (c, n) :: rest => stealF (if c = .peekNode then vs else vs.set (n - 1) none) rest

def outF (vs : List (Option Bool)) (reg : Option Bool) : Option Out → Option Bool
  | none => none
  | some (.new _) => reg
  | some (.copy n) => (vs[n - 1]?).join

/-- The assignments that may happen. -/
def outChoices : List Out → List (Option Out)
  | [] => [none]
  | os => os.map some

/-- Check of a right-hand side for one flag: from value `c` and stored flags `vs` every way leads to an allowed end. -/
def checkF (f : CtxFlag) (b : Bool) (goal : List (Bool × Bool × Option Bool)) :
    List Item → Bool → List (Option Bool) → Bool
  | [], c, vs =>
    match vs.getLast? with
    | some v => goal.contains (b, c, v)
    | none => false
  | .t _ :: is, c, vs => checkF f b goal is c (vs ++ [none])
  | .n x :: is, c, vs => (rel f x).all fun r => r.1 != c || checkF f b goal is r.2.1 (vs ++ [r.2.2])
  | .a act :: is, c, vs =>
    act.fails || (match opsF f vs act.ops c none with
      | some (c', reg) =>
        (outChoices act.outs).all fun o => checkF f b goal is c' (stealF vs act.uses ++ [outF vs reg o])
      | none => false)
  | .err :: _, _, _ => true

/-! ### Kinds -/

def castK (K : List (List Kind)) : List (Cast × Nat) → Option (List (List Kind))
  | [] => some K
  | (c, n) :: rest =>
    match K[n - 1]? with
    | none => none
    | some ks => if ks.all c.accepts then castK (if c = .peekNode then K else K.set (n - 1) [.Stolen]) rest else none

def outK (K : List (List Kind)) : Option Out → List Kind
  | none => [.Uninitialized]
  | some (.new k) => [k]
  | some (.copy n) => (K[n - 1]?).getD [.Uninitialized]

/-- Check of a right-hand side for the kinds. -/
def checkK (goal : List Kind) : List Item → List (List Kind) → Bool
  | [], K =>
    match K.getLast? with
    | some ks => ks.all goal.contains
    | none => false
  | .t _ :: is, K => checkK goal is (K ++ [[.Token]])
  | .n x :: is, K => kindsOf x == [] || checkK goal is (K ++ [kindsOf x])
  | .a act :: is, K =>
    match castK K act.uses with
    | none => false
    | some K' => act.fails || checkK goal is (K' ++ [(outChoices act.outs).flatMap (outK K)])
  | .err :: _, _ => true

/-- All checks of one production. -/
def checkRule (ρ : Rule) : Bool :=
  ([Dim.env, .arg, .num, .pv, .pk].all fun d =>
    checkS d ((stackOf ρ.lhs).2.get d) ρ.rhs ((stackOf ρ.lhs).1.get d)) &&
  ([CtxFlag.inDefined, .inKwarg, .inArgdef, .inDef, .inClass, .inLambda, .inBlock].all fun f =>
    [true, false].all fun b => checkF f b (rel f ρ.lhs) ρ.rhs b []) &&
  checkK (kindsOf ρ.lhs) ρ.rhs []

theorem rules_checked : rules.all checkRule = true := by decide +kernel

end Verif.Grammar
