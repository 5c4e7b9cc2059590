import Lean.Elab.Tactic.Basic
import Verif.Spec.Shape
/-!
Sets of kinds, what a node of a given kind is, and what `Shaped` says of each kind of node. Generated from the table in
`Spec/Shape.lean`.
-/
namespace Verif
open Shape

theorem ks_bit (k : NKind) (l : List NKind) (i : NKind) : (ks (k :: l)).testBit i.ctorIdx = (i == k || (ks l).testBit i.ctorIdx) := by
  rw [ks, Nat.testBit_or]
  congr 1
  rw [Nat.one_shiftLeft, Nat.testBit_two_pow]
  by_cases h : i = k
  · subst h; simp
  · have : k.ctorIdx ≠ i.ctorIdx := fun e => h (by rw [← NKind.ofNat_ctorIdx i, ← e, NKind.ofNat_ctorIdx])
    simp [h, this]
theorem has_ks {n : Node} {k : NKind} {l : List NKind} : Has (ks (k :: l)) n ↔ n.kind = k ∨ Has (ks l) n := by
  unfold Has; rw [ks_bit]; simp
theorem has_nil {n : Node} : ¬ Has (ks []) n := by
  unfold Has ks; simp
theorem has_zero {n : Node} : ¬ Has 0 n := by
  unfold Has; simp
theorem has_or {n : Node} {a b : Kinds} : Has (a ||| b) n ↔ Has a n ∨ Has b n := by
  unfold Has; rw [Nat.testBit_or]; simp
theorem has_and {n : Node} {a b : Kinds} : Has (a &&& b) n ↔ Has a n ∧ Has b n := by
  unfold Has; rw [Nat.testBit_and]; simp
theorem has_without {n : Node} {a b : Kinds} : Has (without a b) n ↔ Has a n ∧ ¬ Has b n := by
  unfold Has without
  rw [Nat.testBit_xor, Nat.testBit_and]
  cases a.testBit n.kind.ctorIdx <;> cases b.testBit n.kind.ctorIdx <;> simp

/-- Inclusion of sets. -/
def sub (a b : Kinds) : Bool := a &&& b == a
theorem Has.mono {n : Node} {a b : Kinds} (h : Has a n) (hs : sub a b = true) : Has b n := by
  rw [sub, beq_iff_eq] at hs
  rw [← hs, has_and] at h
  exact h.2
theorem Ok.mono {n : Node} {a b : Kinds} (h : Ok a n) (hs : sub a b = true) : Ok b n := ⟨h.1.mono hs, h.2⟩

/-- The same for a node that may be absent. -/
def OkO (m : Kinds) (o : Option Node) : Prop := ∀ n, o = some n → Ok m n
/-- The same for a list. -/
def OkL (m : Kinds) (l : List Node) : Prop := ∀ n ∈ l, Ok m n

theorem OkO.mono {o : Option Node} {a b : Kinds} (h : OkO a o) (hs : sub a b = true) : OkO b o := fun n hn => (h n hn).mono hs
theorem OkL.mono {l : List Node} {a b : Kinds} (h : OkL a l) (hs : sub a b = true) : OkL b l := fun n hn => (h n hn).mono hs
theorem oko_none {m : Kinds} : OkO m none := nofun
theorem oko_some {m : Kinds} {n : Node} : OkO m (some n) ↔ Ok m n := ⟨fun h => h n rfl, fun h _ e => by cases e; exact h⟩
theorem okl_nil {m : Kinds} : OkL m [] := nofun
theorem okl_cons {m : Kinds} {n : Node} {l : List Node} : OkL m (n :: l) ↔ Ok m n ∧ OkL m l := by
  unfold OkL; simp
theorem okl_append {m : Kinds} {l k : List Node} : OkL m (l ++ k) ↔ OkL m l ∧ OkL m k := by
  unfold OkL; simp only [List.mem_append]
  exact ⟨fun h => ⟨fun n hn => h n (.inl hn), fun n hn => h n (.inr hn)⟩, fun h n hn => hn.elim (h.1 n) (h.2 n)⟩
theorem okl_one {m : Kinds} {n : Node} (h : Ok m n) : OkL m [n] := by
  rw [okl_cons]; exact ⟨h, okl_nil⟩
theorem okl_zero {l : List Node} (h : OkL 0 l) : l = [] := by
  cases l with
  | nil => rfl
  | cons n l => exact absurd (h n (List.mem_cons_self ..)).1 has_zero

theorem shaped_iff {n : Node} : Shaped n ↔ (∀ p ∈ n.fields, Ok p.1 p.2) ∧ n.sized = true :=
  ⟨fun h => by cases h with | mk _ h1 h2 h3 => exact ⟨fun p hp => ⟨h1 p hp, h2 p hp⟩, h3⟩,
    fun h => ⟨n, fun p hp => (h.1 p hp).1, fun p hp => (h.1 p hp).2, h.2⟩⟩

/-- What is said of the children. -/
def AllF (l : List (Kinds × Node)) : Prop := ∀ p ∈ l, Ok p.1 p.2
theorem allF_append {a b : List (Kinds × Node)} : AllF (a ++ b) ↔ AllF a ∧ AllF b := by
  unfold AllF; simp only [List.mem_append]
  exact ⟨fun h => ⟨fun n hn => h n (.inl hn), fun n hn => h n (.inr hn)⟩, fun h n hn => hn.elim (h.1 n) (h.2 n)⟩
theorem allF_one {m : Kinds} {n : Node} : AllF (one m n) ↔ Ok m n := by
  unfold AllF one; simp
theorem allF_opt {m : Kinds} {o : Option Node} : AllF (opt m o) ↔ OkO m o := by
  unfold AllF opt OkO; cases o <;> simp
theorem allF_each {m : Kinds} {l : List Node} : AllF (each m l) ↔ OkL m l := by
  unfold AllF each OkL; simp

/-! ### Nodes of a kind -/

/-- What a kind says of a node. -/
def NKind.Is (k : NKind) (n : Node) : Prop :=
  match k with
  | .Alias => ∃ x0 x1 x2 x3, n = .Alias x0 x1 x2 x3
  | .And => ∃ x0 x1 x2 x3, n = .And x0 x1 x2 x3
  | .AndAsgn => ∃ x0 x1 x2 x3, n = .AndAsgn x0 x1 x2 x3
  | .Arg => ∃ x0 x1, n = .Arg x0 x1
  | .Args => ∃ x0 x1 x2 x3, n = .Args x0 x1 x2 x3
  | .Array => ∃ x0 x1 x2 x3, n = .Array x0 x1 x2 x3
  | .ArrayPattern => ∃ x0 x1 x2 x3, n = .ArrayPattern x0 x1 x2 x3
  | .ArrayPatternWithTail => ∃ x0 x1 x2 x3, n = .ArrayPatternWithTail x0 x1 x2 x3
  | .BackRef => ∃ x0 x1, n = .BackRef x0 x1
  | .Begin => ∃ x0 x1 x2 x3, n = .Begin x0 x1 x2 x3
  | .Block => ∃ x0 x1 x2 x3 x4 x5, n = .Block x0 x1 x2 x3 x4 x5
  | .Blockarg => ∃ x0 x1 x2 x3, n = .Blockarg x0 x1 x2 x3
  | .BlockPass => ∃ x0 x1 x2, n = .BlockPass x0 x1 x2
  | .Break => ∃ x0 x1 x2, n = .Break x0 x1 x2 ∧ Node.headTakesBlock x0 = false
  | .Case => ∃ x0 x1 x2 x3 x4 x5 x6, n = .Case x0 x1 x2 x3 x4 x5 x6
  | .CaseMatch => ∃ x0 x1 x2 x3 x4 x5 x6, n = .CaseMatch x0 x1 x2 x3 x4 x5 x6
  | .Casgn => ∃ x0 x1 x2 x3 x4 x5 x6, n = .Casgn x0 x1 x2 x3 x4 x5 x6 ∧ x2.isSome = true
  | .Cbase => ∃ x0, n = .Cbase x0
  | .Class => ∃ x0 x1 x2 x3 x4 x5 x6, n = .Class x0 x1 x2 x3 x4 x5 x6
  | .Complex => ∃ x0 x1 x2, n = .Complex x0 x1 x2
  | .Const => ∃ x0 x1 x2 x3 x4, n = .Const x0 x1 x2 x3 x4
  | .ConstPattern => ∃ x0 x1 x2 x3 x4, n = .ConstPattern x0 x1 x2 x3 x4
  | .CSend => ∃ x0 x1 x2 x3 x4 x5 x6 x7 x8, n = .CSend x0 x1 x2 x3 x4 x5 x6 x7 x8 ∧ x2.isEmpty = false
  | .Cvar => ∃ x0 x1, n = .Cvar x0 x1
  | .Cvasgn => ∃ x0 x1 x2 x3 x4, n = .Cvasgn x0 x1 x2 x3 x4 ∧ x1.isSome = true
  | .Def => ∃ x0 x1 x2 x3 x4 x5 x6 x7, n = .Def x0 x1 x2 x3 x4 x5 x6 x7
  | .Defined => ∃ x0 x1 x2 x3 x4, n = .Defined x0 x1 x2 x3 x4
  | .Defs => ∃ x0 x1 x2 x3 x4 x5 x6 x7 x8 x9, n = .Defs x0 x1 x2 x3 x4 x5 x6 x7 x8 x9
  | .Dstr => ∃ x0 x1 x2 x3, n = .Dstr x0 x1 x2 x3
  | .Dsym => ∃ x0 x1 x2 x3, n = .Dsym x0 x1 x2 x3
  | .EFlipFlop => ∃ x0 x1 x2 x3, n = .EFlipFlop x0 x1 x2 x3
  | .EmptyElse => ∃ x0, n = .EmptyElse x0
  | .Encoding => ∃ x0, n = .Encoding x0
  | .Ensure => ∃ x0 x1 x2 x3, n = .Ensure x0 x1 x2 x3
  | .Erange => ∃ x0 x1 x2 x3, n = .Erange x0 x1 x2 x3
  | .False => ∃ x0, n = .False x0
  | .File => ∃ x0, n = .File x0
  | .FindPattern => ∃ x0 x1 x2 x3, n = .FindPattern x0 x1 x2 x3
  | .Float => ∃ x0 x1 x2, n = .Float x0 x1 x2
  | .For => ∃ x0 x1 x2 x3 x4 x5 x6 x7, n = .For x0 x1 x2 x3 x4 x5 x6 x7
  | .ForwardArg => ∃ x0, n = .ForwardArg x0
  | .ForwardedArgs => ∃ x0, n = .ForwardedArgs x0
  | .Gvar => ∃ x0 x1, n = .Gvar x0 x1
  | .Gvasgn => ∃ x0 x1 x2 x3 x4, n = .Gvasgn x0 x1 x2 x3 x4 ∧ x1.isSome = true
  | .Hash => ∃ x0 x1 x2 x3, n = .Hash x0 x1 x2 x3
  | .HashPattern => ∃ x0 x1 x2 x3, n = .HashPattern x0 x1 x2 x3
  | .Heredoc => ∃ x0 x1 x2 x3, n = .Heredoc x0 x1 x2 x3
  | .If => ∃ x0 x1 x2 x3 x4 x5 x6 x7, n = .If x0 x1 x2 x3 x4 x5 x6 x7
  | .IfGuard => ∃ x0 x1 x2, n = .IfGuard x0 x1 x2
  | .IfMod => ∃ x0 x1 x2 x3 x4, n = .IfMod x0 x1 x2 x3 x4
  | .IfTernary => ∃ x0 x1 x2 x3 x4 x5, n = .IfTernary x0 x1 x2 x3 x4 x5
  | .IFlipFlop => ∃ x0 x1 x2 x3, n = .IFlipFlop x0 x1 x2 x3
  | .Index => ∃ x0 x1 x2 x3 x4, n = .Index x0 x1 x2 x3 x4
  | .IndexAsgn => ∃ x0 x1 x2 x3 x4 x5 x6, n = .IndexAsgn x0 x1 x2 x3 x4 x5 x6 ∧ x2.isSome = true
  | .InPattern => ∃ x0 x1 x2 x3 x4 x5, n = .InPattern x0 x1 x2 x3 x4 x5
  | .Int => ∃ x0 x1 x2, n = .Int x0 x1 x2
  | .Irange => ∃ x0 x1 x2 x3, n = .Irange x0 x1 x2 x3
  | .Ivar => ∃ x0 x1, n = .Ivar x0 x1
  | .Ivasgn => ∃ x0 x1 x2 x3 x4, n = .Ivasgn x0 x1 x2 x3 x4 ∧ x1.isSome = true
  | .Kwarg => ∃ x0 x1 x2, n = .Kwarg x0 x1 x2
  | .Kwargs => ∃ x0 x1, n = .Kwargs x0 x1
  | .KwBegin => ∃ x0 x1 x2 x3, n = .KwBegin x0 x1 x2 x3
  | .Kwnilarg => ∃ x0 x1, n = .Kwnilarg x0 x1
  | .Kwoptarg => ∃ x0 x1 x2 x3, n = .Kwoptarg x0 x1 x2 x3
  | .Kwrestarg => ∃ x0 x1 x2 x3, n = .Kwrestarg x0 x1 x2 x3
  | .Kwsplat => ∃ x0 x1 x2, n = .Kwsplat x0 x1 x2
  | .Lambda => ∃ x0, n = .Lambda x0
  | .Line => ∃ x0, n = .Line x0
  | .Lvar => ∃ x0 x1, n = .Lvar x0 x1
  | .Lvasgn => ∃ x0 x1 x2 x3 x4, n = .Lvasgn x0 x1 x2 x3 x4 ∧ x1.isSome = true
  | .Masgn => ∃ x0 x1 x2 x3, n = .Masgn x0 x1 x2 x3
  | .MatchAlt => ∃ x0 x1 x2 x3, n = .MatchAlt x0 x1 x2 x3
  | .MatchAs => ∃ x0 x1 x2 x3, n = .MatchAs x0 x1 x2 x3
  | .MatchCurrentLine => ∃ x0 x1, n = .MatchCurrentLine x0 x1
  | .MatchNilPattern => ∃ x0 x1 x2, n = .MatchNilPattern x0 x1 x2
  | .MatchPattern => ∃ x0 x1 x2 x3, n = .MatchPattern x0 x1 x2 x3
  | .MatchPatternP => ∃ x0 x1 x2 x3, n = .MatchPatternP x0 x1 x2 x3
  | .MatchRest => ∃ x0 x1 x2, n = .MatchRest x0 x1 x2
  | .MatchVar => ∃ x0 x1 x2, n = .MatchVar x0 x1 x2
  | .MatchWithLvasgn => ∃ x0 x1 x2 x3, n = .MatchWithLvasgn x0 x1 x2 x3
  | .Mlhs => ∃ x0 x1 x2 x3, n = .Mlhs x0 x1 x2 x3 ∧ Node.allDestr x0 = false
  | .Module => ∃ x0 x1 x2 x3 x4, n = .Module x0 x1 x2 x3 x4
  | .Next => ∃ x0 x1 x2, n = .Next x0 x1 x2 ∧ Node.headTakesBlock x0 = false
  | .Nil => ∃ x0, n = .Nil x0
  | .NthRef => ∃ x0 x1, n = .NthRef x0 x1
  | .Numblock => ∃ x0 x1 x2 x3 x4 x5, n = .Numblock x0 x1 x2 x3 x4 x5
  | .OpAsgn => ∃ x0 x1 x2 x3 x4, n = .OpAsgn x0 x1 x2 x3 x4
  | .Optarg => ∃ x0 x1 x2 x3 x4, n = .Optarg x0 x1 x2 x3 x4
  | .Or => ∃ x0 x1 x2 x3, n = .Or x0 x1 x2 x3
  | .OrAsgn => ∃ x0 x1 x2 x3, n = .OrAsgn x0 x1 x2 x3
  | .Pair => ∃ x0 x1 x2 x3, n = .Pair x0 x1 x2 x3
  | .Pin => ∃ x0 x1 x2, n = .Pin x0 x1 x2
  | .Postexe => ∃ x0 x1 x2 x3 x4, n = .Postexe x0 x1 x2 x3 x4
  | .Preexe => ∃ x0 x1 x2 x3 x4, n = .Preexe x0 x1 x2 x3 x4
  | .Procarg0 => ∃ x0 x1 x2 x3, n = .Procarg0 x0 x1 x2 x3
  | .Rational => ∃ x0 x1 x2, n = .Rational x0 x1 x2
  | .Redo => ∃ x0, n = .Redo x0
  | .RegOpt => ∃ x0 x1, n = .RegOpt x0 x1
  | .Regexp => ∃ x0 x1 x2 x3 x4, n = .Regexp x0 x1 x2 x3 x4
  | .Rescue => ∃ x0 x1 x2 x3 x4, n = .Rescue x0 x1 x2 x3 x4
  | .RescueBody => ∃ x0 x1 x2 x3 x4 x5 x6, n = .RescueBody x0 x1 x2 x3 x4 x5 x6
  | .Restarg => ∃ x0 x1 x2 x3, n = .Restarg x0 x1 x2 x3
  | .Retry => ∃ x0, n = .Retry x0
  | .Return => ∃ x0 x1 x2, n = .Return x0 x1 x2 ∧ Node.headTakesBlock x0 = false
  | .SClass => ∃ x0 x1 x2 x3 x4 x5, n = .SClass x0 x1 x2 x3 x4 x5
  | .Self_ => ∃ x0, n = .Self_ x0
  | .Send => ∃ x0 x1 x2 x3 x4 x5 x6 x7 x8, n = .Send x0 x1 x2 x3 x4 x5 x6 x7 x8 ∧ x2.isEmpty = false
  | .Shadowarg => ∃ x0 x1, n = .Shadowarg x0 x1
  | .Splat => ∃ x0 x1 x2, n = .Splat x0 x1 x2
  | .Str => ∃ x0 x1 x2 x3, n = .Str x0 x1 x2 x3
  | .Super => ∃ x0 x1 x2 x3 x4, n = .Super x0 x1 x2 x3 x4
  | .Sym => ∃ x0 x1 x2 x3, n = .Sym x0 x1 x2 x3
  | .True => ∃ x0, n = .True x0
  | .Undef => ∃ x0 x1 x2, n = .Undef x0 x1 x2
  | .UnlessGuard => ∃ x0 x1 x2, n = .UnlessGuard x0 x1 x2
  | .Until => ∃ x0 x1 x2 x3 x4 x5, n = .Until x0 x1 x2 x3 x4 x5
  | .UntilPost => ∃ x0 x1 x2 x3, n = .UntilPost x0 x1 x2 x3
  | .When => ∃ x0 x1 x2 x3 x4, n = .When x0 x1 x2 x3 x4
  | .While => ∃ x0 x1 x2 x3 x4 x5, n = .While x0 x1 x2 x3 x4 x5
  | .WhilePost => ∃ x0 x1 x2 x3, n = .WhilePost x0 x1 x2 x3
  | .XHeredoc => ∃ x0 x1 x2 x3, n = .XHeredoc x0 x1 x2 x3
  | .Xstr => ∃ x0 x1 x2 x3, n = .Xstr x0 x1 x2 x3
  | .Yield => ∃ x0 x1 x2 x3 x4, n = .Yield x0 x1 x2 x3 x4
  | .ZSuper => ∃ x0, n = .ZSuper x0
  | .MlhsP => ∃ x0 x1 x2 x3, n = .Mlhs x0 x1 x2 x3 ∧ Node.allDestr x0 = true
  | .Send0 => ∃ x0 x1 x2 x3 x4 x5 x6 x7 x8, n = .Send x0 x1 x2 x3 x4 x5 x6 x7 x8 ∧ x2.isEmpty = true
  | .CSend0 => ∃ x0 x1 x2 x3 x4 x5 x6 x7 x8, n = .CSend x0 x1 x2 x3 x4 x5 x6 x7 x8 ∧ x2.isEmpty = true
  | .LvasgnT => ∃ x0 x1 x2 x3 x4, n = .Lvasgn x0 x1 x2 x3 x4 ∧ x1.isSome = false
  | .IvasgnT => ∃ x0 x1 x2 x3 x4, n = .Ivasgn x0 x1 x2 x3 x4 ∧ x1.isSome = false
  | .GvasgnT => ∃ x0 x1 x2 x3 x4, n = .Gvasgn x0 x1 x2 x3 x4 ∧ x1.isSome = false
  | .CvasgnT => ∃ x0 x1 x2 x3 x4, n = .Cvasgn x0 x1 x2 x3 x4 ∧ x1.isSome = false
  | .CasgnT => ∃ x0 x1 x2 x3 x4 x5 x6, n = .Casgn x0 x1 x2 x3 x4 x5 x6 ∧ x2.isSome = false
  | .IndexAsgnT => ∃ x0 x1 x2 x3 x4 x5 x6, n = .IndexAsgn x0 x1 x2 x3 x4 x5 x6 ∧ x2.isSome = false
  | .ReturnC => ∃ x0 x1 x2, n = .Return x0 x1 x2 ∧ Node.headTakesBlock x0 = true
  | .BreakC => ∃ x0 x1 x2, n = .Break x0 x1 x2 ∧ Node.headTakesBlock x0 = true
  | .NextC => ∃ x0 x1 x2, n = .Next x0 x1 x2 ∧ Node.headTakesBlock x0 = true
theorem is_ite {c : Bool} {a b : NKind} {n : Node} (h1 : c = true → a.Is n) (h2 : c = false → b.Is n) :
    (if c = true then a else b).Is n := by
  cases c
  · exact h2 rfl
  · exact h1 rfl
theorem is_kind (n : Node) : n.kind.Is n := by
  cases n
  case Alias => exact ⟨_, _, _, _, rfl⟩
  case And => exact ⟨_, _, _, _, rfl⟩
  case AndAsgn => exact ⟨_, _, _, _, rfl⟩
  case Arg => exact ⟨_, _, rfl⟩
  case Args => exact ⟨_, _, _, _, rfl⟩
  case Array => exact ⟨_, _, _, _, rfl⟩
  case ArrayPattern => exact ⟨_, _, _, _, rfl⟩
  case ArrayPatternWithTail => exact ⟨_, _, _, _, rfl⟩
  case BackRef => exact ⟨_, _, rfl⟩
  case Begin => exact ⟨_, _, _, _, rfl⟩
  case Block => exact ⟨_, _, _, _, _, _, rfl⟩
  case Blockarg => exact ⟨_, _, _, _, rfl⟩
  case BlockPass => exact ⟨_, _, _, rfl⟩
  case Break => exact is_ite (fun h => ⟨_, _, _, rfl, h⟩) (fun h => ⟨_, _, _, rfl, h⟩)
  case Case => exact ⟨_, _, _, _, _, _, _, rfl⟩
  case CaseMatch => exact ⟨_, _, _, _, _, _, _, rfl⟩
  case Casgn => exact is_ite (fun h => ⟨_, _, _, _, _, _, _, rfl, h⟩) (fun h => ⟨_, _, _, _, _, _, _, rfl, h⟩)
  case Cbase => exact ⟨_, rfl⟩
  case Class => exact ⟨_, _, _, _, _, _, _, rfl⟩
  case Complex => exact ⟨_, _, _, rfl⟩
  case Const => exact ⟨_, _, _, _, _, rfl⟩
  case ConstPattern => exact ⟨_, _, _, _, _, rfl⟩
  case CSend => exact is_ite (fun h => ⟨_, _, _, _, _, _, _, _, _, rfl, h⟩) (fun h => ⟨_, _, _, _, _, _, _, _, _, rfl, h⟩)
  case Cvar => exact ⟨_, _, rfl⟩
  case Cvasgn => exact is_ite (fun h => ⟨_, _, _, _, _, rfl, h⟩) (fun h => ⟨_, _, _, _, _, rfl, h⟩)
  case Def => exact ⟨_, _, _, _, _, _, _, _, rfl⟩
  case Defined => exact ⟨_, _, _, _, _, rfl⟩
  case Defs => exact ⟨_, _, _, _, _, _, _, _, _, _, rfl⟩
  case Dstr => exact ⟨_, _, _, _, rfl⟩
  case Dsym => exact ⟨_, _, _, _, rfl⟩
  case EFlipFlop => exact ⟨_, _, _, _, rfl⟩
  case EmptyElse => exact ⟨_, rfl⟩
  case Encoding => exact ⟨_, rfl⟩
  case Ensure => exact ⟨_, _, _, _, rfl⟩
  case Erange => exact ⟨_, _, _, _, rfl⟩
  case False => exact ⟨_, rfl⟩
  case File => exact ⟨_, rfl⟩
  case FindPattern => exact ⟨_, _, _, _, rfl⟩
  case Float => exact ⟨_, _, _, rfl⟩
  case For => exact ⟨_, _, _, _, _, _, _, _, rfl⟩
  case ForwardArg => exact ⟨_, rfl⟩
  case ForwardedArgs => exact ⟨_, rfl⟩
  case Gvar => exact ⟨_, _, rfl⟩
  case Gvasgn => exact is_ite (fun h => ⟨_, _, _, _, _, rfl, h⟩) (fun h => ⟨_, _, _, _, _, rfl, h⟩)
  case Hash => exact ⟨_, _, _, _, rfl⟩
  case HashPattern => exact ⟨_, _, _, _, rfl⟩
  case Heredoc => exact ⟨_, _, _, _, rfl⟩
  case If => exact ⟨_, _, _, _, _, _, _, _, rfl⟩
  case IfGuard => exact ⟨_, _, _, rfl⟩
  case IfMod => exact ⟨_, _, _, _, _, rfl⟩
  case IfTernary => exact ⟨_, _, _, _, _, _, rfl⟩
  case IFlipFlop => exact ⟨_, _, _, _, rfl⟩
  case Index => exact ⟨_, _, _, _, _, rfl⟩
  case IndexAsgn => exact is_ite (fun h => ⟨_, _, _, _, _, _, _, rfl, h⟩) (fun h => ⟨_, _, _, _, _, _, _, rfl, h⟩)
  case InPattern => exact ⟨_, _, _, _, _, _, rfl⟩
  case Int => exact ⟨_, _, _, rfl⟩
  case Irange => exact ⟨_, _, _, _, rfl⟩
  case Ivar => exact ⟨_, _, rfl⟩
  case Ivasgn => exact is_ite (fun h => ⟨_, _, _, _, _, rfl, h⟩) (fun h => ⟨_, _, _, _, _, rfl, h⟩)
  case Kwarg => exact ⟨_, _, _, rfl⟩
  case Kwargs => exact ⟨_, _, rfl⟩
  case KwBegin => exact ⟨_, _, _, _, rfl⟩
  case Kwnilarg => exact ⟨_, _, rfl⟩
  case Kwoptarg => exact ⟨_, _, _, _, rfl⟩
  case Kwrestarg => exact ⟨_, _, _, _, rfl⟩
  case Kwsplat => exact ⟨_, _, _, rfl⟩
  case Lambda => exact ⟨_, rfl⟩
  case Line => exact ⟨_, rfl⟩
  case Lvar => exact ⟨_, _, rfl⟩
  case Lvasgn => exact is_ite (fun h => ⟨_, _, _, _, _, rfl, h⟩) (fun h => ⟨_, _, _, _, _, rfl, h⟩)
  case Masgn => exact ⟨_, _, _, _, rfl⟩
  case MatchAlt => exact ⟨_, _, _, _, rfl⟩
  case MatchAs => exact ⟨_, _, _, _, rfl⟩
  case MatchCurrentLine => exact ⟨_, _, rfl⟩
  case MatchNilPattern => exact ⟨_, _, _, rfl⟩
  case MatchPattern => exact ⟨_, _, _, _, rfl⟩
  case MatchPatternP => exact ⟨_, _, _, _, rfl⟩
  case MatchRest => exact ⟨_, _, _, rfl⟩
  case MatchVar => exact ⟨_, _, _, rfl⟩
  case MatchWithLvasgn => exact ⟨_, _, _, _, rfl⟩
  case Mlhs => exact is_ite (fun h => ⟨_, _, _, _, rfl, h⟩) (fun h => ⟨_, _, _, _, rfl, h⟩)
  case Module => exact ⟨_, _, _, _, _, rfl⟩
  case Next => exact is_ite (fun h => ⟨_, _, _, rfl, h⟩) (fun h => ⟨_, _, _, rfl, h⟩)
  case Nil => exact ⟨_, rfl⟩
  case NthRef => exact ⟨_, _, rfl⟩
  case Numblock => exact ⟨_, _, _, _, _, _, rfl⟩
  case OpAsgn => exact ⟨_, _, _, _, _, rfl⟩
  case Optarg => exact ⟨_, _, _, _, _, rfl⟩
  case Or => exact ⟨_, _, _, _, rfl⟩
  case OrAsgn => exact ⟨_, _, _, _, rfl⟩
  case Pair => exact ⟨_, _, _, _, rfl⟩
  case Pin => exact ⟨_, _, _, rfl⟩
  case Postexe => exact ⟨_, _, _, _, _, rfl⟩
  case Preexe => exact ⟨_, _, _, _, _, rfl⟩
  case Procarg0 => exact ⟨_, _, _, _, rfl⟩
  case Rational => exact ⟨_, _, _, rfl⟩
  case Redo => exact ⟨_, rfl⟩
  case RegOpt => exact ⟨_, _, rfl⟩
  case Regexp => exact ⟨_, _, _, _, _, rfl⟩
  case Rescue => exact ⟨_, _, _, _, _, rfl⟩
  case RescueBody => exact ⟨_, _, _, _, _, _, _, rfl⟩
  case Restarg => exact ⟨_, _, _, _, rfl⟩
  case Retry => exact ⟨_, rfl⟩
  case Return => exact is_ite (fun h => ⟨_, _, _, rfl, h⟩) (fun h => ⟨_, _, _, rfl, h⟩)
  case SClass => exact ⟨_, _, _, _, _, _, rfl⟩
  case Self_ => exact ⟨_, rfl⟩
  case Send => exact is_ite (fun h => ⟨_, _, _, _, _, _, _, _, _, rfl, h⟩) (fun h => ⟨_, _, _, _, _, _, _, _, _, rfl, h⟩)
  case Shadowarg => exact ⟨_, _, rfl⟩
  case Splat => exact ⟨_, _, _, rfl⟩
  case Str => exact ⟨_, _, _, _, rfl⟩
  case Super => exact ⟨_, _, _, _, _, rfl⟩
  case Sym => exact ⟨_, _, _, _, rfl⟩
  case True => exact ⟨_, rfl⟩
  case Undef => exact ⟨_, _, _, rfl⟩
  case UnlessGuard => exact ⟨_, _, _, rfl⟩
  case Until => exact ⟨_, _, _, _, _, _, rfl⟩
  case UntilPost => exact ⟨_, _, _, _, rfl⟩
  case When => exact ⟨_, _, _, _, _, rfl⟩
  case While => exact ⟨_, _, _, _, _, _, rfl⟩
  case WhilePost => exact ⟨_, _, _, _, rfl⟩
  case XHeredoc => exact ⟨_, _, _, _, rfl⟩
  case Xstr => exact ⟨_, _, _, _, rfl⟩
  case Yield => exact ⟨_, _, _, _, _, rfl⟩
  case ZSuper => exact ⟨_, rfl⟩
theorem kind_Alias {n : Node} (h : n.kind = .Alias) : ∃ x0 x1 x2 x3, n = .Alias x0 x1 x2 x3 := by
  have := is_kind n; rw [h] at this; exact this
theorem kind_And {n : Node} (h : n.kind = .And) : ∃ x0 x1 x2 x3, n = .And x0 x1 x2 x3 := by
  have := is_kind n; rw [h] at this; exact this
theorem kind_AndAsgn {n : Node} (h : n.kind = .AndAsgn) : ∃ x0 x1 x2 x3, n = .AndAsgn x0 x1 x2 x3 := by
  have := is_kind n; rw [h] at this; exact this
theorem kind_Arg {n : Node} (h : n.kind = .Arg) : ∃ x0 x1, n = .Arg x0 x1 := by
  have := is_kind n; rw [h] at this; exact this
theorem kind_Args {n : Node} (h : n.kind = .Args) : ∃ x0 x1 x2 x3, n = .Args x0 x1 x2 x3 := by
  have := is_kind n; rw [h] at this; exact this
theorem kind_Array {n : Node} (h : n.kind = .Array) : ∃ x0 x1 x2 x3, n = .Array x0 x1 x2 x3 := by
  have := is_kind n; rw [h] at this; exact this
theorem kind_ArrayPattern {n : Node} (h : n.kind = .ArrayPattern) : ∃ x0 x1 x2 x3, n = .ArrayPattern x0 x1 x2 x3 := by
  have := is_kind n; rw [h] at this; exact this
theorem kind_ArrayPatternWithTail {n : Node} (h : n.kind = .ArrayPatternWithTail) : ∃ x0 x1 x2 x3, n = .ArrayPatternWithTail x0 x1 x2 x3 := by
  have := is_kind n; rw [h] at this; exact this
theorem kind_BackRef {n : Node} (h : n.kind = .BackRef) : ∃ x0 x1, n = .BackRef x0 x1 := by
  have := is_kind n; rw [h] at this; exact this
theorem kind_Begin {n : Node} (h : n.kind = .Begin) : ∃ x0 x1 x2 x3, n = .Begin x0 x1 x2 x3 := by
  have := is_kind n; rw [h] at this; exact this
theorem kind_Block {n : Node} (h : n.kind = .Block) : ∃ x0 x1 x2 x3 x4 x5, n = .Block x0 x1 x2 x3 x4 x5 := by
  have := is_kind n; rw [h] at this; exact this
theorem kind_Blockarg {n : Node} (h : n.kind = .Blockarg) : ∃ x0 x1 x2 x3, n = .Blockarg x0 x1 x2 x3 := by
  have := is_kind n; rw [h] at this; exact this
theorem kind_BlockPass {n : Node} (h : n.kind = .BlockPass) : ∃ x0 x1 x2, n = .BlockPass x0 x1 x2 := by
  have := is_kind n; rw [h] at this; exact this
theorem kind_Break {n : Node} (h : n.kind = .Break) : ∃ x0 x1 x2, n = .Break x0 x1 x2 ∧ Node.headTakesBlock x0 = false := by
  have := is_kind n; rw [h] at this; exact this
theorem kind_Case {n : Node} (h : n.kind = .Case) : ∃ x0 x1 x2 x3 x4 x5 x6, n = .Case x0 x1 x2 x3 x4 x5 x6 := by
  have := is_kind n; rw [h] at this; exact this
theorem kind_CaseMatch {n : Node} (h : n.kind = .CaseMatch) : ∃ x0 x1 x2 x3 x4 x5 x6, n = .CaseMatch x0 x1 x2 x3 x4 x5 x6 := by
  have := is_kind n; rw [h] at this; exact this
theorem kind_Casgn {n : Node} (h : n.kind = .Casgn) : ∃ x0 x1 x2 x3 x4 x5 x6, n = .Casgn x0 x1 x2 x3 x4 x5 x6 ∧ x2.isSome = true := by
  have := is_kind n; rw [h] at this; exact this
theorem kind_Cbase {n : Node} (h : n.kind = .Cbase) : ∃ x0, n = .Cbase x0 := by
  have := is_kind n; rw [h] at this; exact this
theorem kind_Class {n : Node} (h : n.kind = .Class) : ∃ x0 x1 x2 x3 x4 x5 x6, n = .Class x0 x1 x2 x3 x4 x5 x6 := by
  have := is_kind n; rw [h] at this; exact this
theorem kind_Complex {n : Node} (h : n.kind = .Complex) : ∃ x0 x1 x2, n = .Complex x0 x1 x2 := by
  have := is_kind n; rw [h] at this; exact this
theorem kind_Const {n : Node} (h : n.kind = .Const) : ∃ x0 x1 x2 x3 x4, n = .Const x0 x1 x2 x3 x4 := by
  have := is_kind n; rw [h] at this; exact this
theorem kind_ConstPattern {n : Node} (h : n.kind = .ConstPattern) : ∃ x0 x1 x2 x3 x4, n = .ConstPattern x0 x1 x2 x3 x4 := by
  have := is_kind n; rw [h] at this; exact this
theorem kind_CSend {n : Node} (h : n.kind = .CSend) : ∃ x0 x1 x2 x3 x4 x5 x6 x7 x8, n = .CSend x0 x1 x2 x3 x4 x5 x6 x7 x8 ∧ x2.isEmpty = false := by
  have := is_kind n; rw [h] at this; exact this
theorem kind_Cvar {n : Node} (h : n.kind = .Cvar) : ∃ x0 x1, n = .Cvar x0 x1 := by
  have := is_kind n; rw [h] at this; exact this
theorem kind_Cvasgn {n : Node} (h : n.kind = .Cvasgn) : ∃ x0 x1 x2 x3 x4, n = .Cvasgn x0 x1 x2 x3 x4 ∧ x1.isSome = true := by
  have := is_kind n; rw [h] at this; exact this
theorem kind_Def {n : Node} (h : n.kind = .Def) : ∃ x0 x1 x2 x3 x4 x5 x6 x7, n = .Def x0 x1 x2 x3 x4 x5 x6 x7 := by
  have := is_kind n; rw [h] at this; exact this
theorem kind_Defined {n : Node} (h : n.kind = .Defined) : ∃ x0 x1 x2 x3 x4, n = .Defined x0 x1 x2 x3 x4 := by
  have := is_kind n; rw [h] at this; exact this
theorem kind_Defs {n : Node} (h : n.kind = .Defs) : ∃ x0 x1 x2 x3 x4 x5 x6 x7 x8 x9, n = .Defs x0 x1 x2 x3 x4 x5 x6 x7 x8 x9 := by
  have := is_kind n; rw [h] at this; exact this
theorem kind_Dstr {n : Node} (h : n.kind = .Dstr) : ∃ x0 x1 x2 x3, n = .Dstr x0 x1 x2 x3 := by
  have := is_kind n; rw [h] at this; exact this
theorem kind_Dsym {n : Node} (h : n.kind = .Dsym) : ∃ x0 x1 x2 x3, n = .Dsym x0 x1 x2 x3 := by
  have := is_kind n; rw [h] at this; exact this
theorem kind_EFlipFlop {n : Node} (h : n.kind = .EFlipFlop) : ∃ x0 x1 x2 x3, n = .EFlipFlop x0 x1 x2 x3 := by
  have := is_kind n; rw [h] at this; exact this
theorem kind_EmptyElse {n : Node} (h : n.kind = .EmptyElse) : ∃ x0, n = .EmptyElse x0 := by
  have := is_kind n; rw [h] at this; exact this
theorem kind_Encoding {n : Node} (h : n.kind = .Encoding) : ∃ x0, n = .Encoding x0 := by
  have := is_kind n; rw [h] at this; exact this
theorem kind_Ensure {n : Node} (h : n.kind = .Ensure) : ∃ x0 x1 x2 x3, n = .Ensure x0 x1 x2 x3 := by
  have := is_kind n; rw [h] at this; exact this
theorem kind_Erange {n : Node} (h : n.kind = .Erange) : ∃ x0 x1 x2 x3, n = .Erange x0 x1 x2 x3 := by
  have := is_kind n; rw [h] at this; exact this
theorem kind_False {n : Node} (h : n.kind = .False) : ∃ x0, n = .False x0 := by
  have := is_kind n; rw [h] at this; exact this
theorem kind_File {n : Node} (h : n.kind = .File) : ∃ x0, n = .File x0 := by
  have := is_kind n; rw [h] at this; exact this
theorem kind_FindPattern {n : Node} (h : n.kind = .FindPattern) : ∃ x0 x1 x2 x3, n = .FindPattern x0 x1 x2 x3 := by
  have := is_kind n; rw [h] at this; exact this
theorem kind_Float {n : Node} (h : n.kind = .Float) : ∃ x0 x1 x2, n = .Float x0 x1 x2 := by
  have := is_kind n; rw [h] at this; exact this
theorem kind_For {n : Node} (h : n.kind = .For) : ∃ x0 x1 x2 x3 x4 x5 x6 x7, n = .For x0 x1 x2 x3 x4 x5 x6 x7 := by
  have := is_kind n; rw [h] at this; exact this
theorem kind_ForwardArg {n : Node} (h : n.kind = .ForwardArg) : ∃ x0, n = .ForwardArg x0 := by
  have := is_kind n; rw [h] at this; exact this
theorem kind_ForwardedArgs {n : Node} (h : n.kind = .ForwardedArgs) : ∃ x0, n = .ForwardedArgs x0 := by
  have := is_kind n; rw [h] at this; exact this
theorem kind_Gvar {n : Node} (h : n.kind = .Gvar) : ∃ x0 x1, n = .Gvar x0 x1 := by
  have := is_kind n; rw [h] at this; exact this
theorem kind_Gvasgn {n : Node} (h : n.kind = .Gvasgn) : ∃ x0 x1 x2 x3 x4, n = .Gvasgn x0 x1 x2 x3 x4 ∧ x1.isSome = true := by
  have := is_kind n; rw [h] at this; exact this
theorem kind_Hash {n : Node} (h : n.kind = .Hash) : ∃ x0 x1 x2 x3, n = .Hash x0 x1 x2 x3 := by
  have := is_kind n; rw [h] at this; exact this
theorem kind_HashPattern {n : Node} (h : n.kind = .HashPattern) : ∃ x0 x1 x2 x3, n = .HashPattern x0 x1 x2 x3 := by
  have := is_kind n; rw [h] at this; exact this
theorem kind_Heredoc {n : Node} (h : n.kind = .Heredoc) : ∃ x0 x1 x2 x3, n = .Heredoc x0 x1 x2 x3 := by
  have := is_kind n; rw [h] at this; exact this
theorem kind_If {n : Node} (h : n.kind = .If) : ∃ x0 x1 x2 x3 x4 x5 x6 x7, n = .If x0 x1 x2 x3 x4 x5 x6 x7 := by
  have := is_kind n; rw [h] at this; exact this
theorem kind_IfGuard {n : Node} (h : n.kind = .IfGuard) : ∃ x0 x1 x2, n = .IfGuard x0 x1 x2 := by
  have := is_kind n; rw [h] at this; exact this
theorem kind_IfMod {n : Node} (h : n.kind = .IfMod) : ∃ x0 x1 x2 x3 x4, n = .IfMod x0 x1 x2 x3 x4 := by
  have := is_kind n; rw [h] at this; exact this
theorem kind_IfTernary {n : Node} (h : n.kind = .IfTernary) : ∃ x0 x1 x2 x3 x4 x5, n = .IfTernary x0 x1 x2 x3 x4 x5 := by
  have := is_kind n; rw [h] at this; exact this
theorem kind_IFlipFlop {n : Node} (h : n.kind = .IFlipFlop) : ∃ x0 x1 x2 x3, n = .IFlipFlop x0 x1 x2 x3 := by
  have := is_kind n; rw [h] at this; exact this
theorem kind_Index {n : Node} (h : n.kind = .Index) : ∃ x0 x1 x2 x3 x4, n = .Index x0 x1 x2 x3 x4 := by
  have := is_kind n; rw [h] at this; exact this
theorem kind_IndexAsgn {n : Node} (h : n.kind = .IndexAsgn) : ∃ x0 x1 x2 x3 x4 x5 x6, n = .IndexAsgn x0 x1 x2 x3 x4 x5 x6 ∧ x2.isSome = true := by
  have := is_kind n; rw [h] at this; exact this
theorem kind_InPattern {n : Node} (h : n.kind = .InPattern) : ∃ x0 x1 x2 x3 x4 x5, n = .InPattern x0 x1 x2 x3 x4 x5 := by
  have := is_kind n; rw [h] at this; exact this
theorem kind_Int {n : Node} (h : n.kind = .Int) : ∃ x0 x1 x2, n = .Int x0 x1 x2 := by
  have := is_kind n; rw [h] at this; exact this
theorem kind_Irange {n : Node} (h : n.kind = .Irange) : ∃ x0 x1 x2 x3, n = .Irange x0 x1 x2 x3 := by
  have := is_kind n; rw [h] at this; exact this
theorem kind_Ivar {n : Node} (h : n.kind = .Ivar) : ∃ x0 x1, n = .Ivar x0 x1 := by
  have := is_kind n; rw [h] at this; exact this
theorem kind_Ivasgn {n : Node} (h : n.kind = .Ivasgn) : ∃ x0 x1 x2 x3 x4, n = .Ivasgn x0 x1 x2 x3 x4 ∧ x1.isSome = true := by
  have := is_kind n; rw [h] at this; exact this
theorem kind_Kwarg {n : Node} (h : n.kind = .Kwarg) : ∃ x0 x1 x2, n = .Kwarg x0 x1 x2 := by
  have := is_kind n; rw [h] at this; exact this
theorem kind_Kwargs {n : Node} (h : n.kind = .Kwargs) : ∃ x0 x1, n = .Kwargs x0 x1 := by
  have := is_kind n; rw [h] at this; exact this
theorem kind_KwBegin {n : Node} (h : n.kind = .KwBegin) : ∃ x0 x1 x2 x3, n = .KwBegin x0 x1 x2 x3 := by
  have := is_kind n; rw [h] at this; exact this
theorem kind_Kwnilarg {n : Node} (h : n.kind = .Kwnilarg) : ∃ x0 x1, n = .Kwnilarg x0 x1 := by
  have := is_kind n; rw [h] at this; exact this
theorem kind_Kwoptarg {n : Node} (h : n.kind = .Kwoptarg) : ∃ x0 x1 x2 x3, n = .Kwoptarg x0 x1 x2 x3 := by
  have := is_kind n; rw [h] at this; exact this
theorem kind_Kwrestarg {n : Node} (h : n.kind = .Kwrestarg) : ∃ x0 x1 x2 x3, n = .Kwrestarg x0 x1 x2 x3 := by
  have := is_kind n; rw [h] at this; exact this
theorem kind_Kwsplat {n : Node} (h : n.kind = .Kwsplat) : ∃ x0 x1 x2, n = .Kwsplat x0 x1 x2 := by
  have := is_kind n; rw [h] at this; exact this
theorem kind_Lambda {n : Node} (h : n.kind = .Lambda) : ∃ x0, n = .Lambda x0 := by
  have := is_kind n; rw [h] at this; exact this
theorem kind_Line {n : Node} (h : n.kind = .Line) : ∃ x0, n = .Line x0 := by
  have := is_kind n; rw [h] at this; exact this
theorem kind_Lvar {n : Node} (h : n.kind = .Lvar) : ∃ x0 x1, n = .Lvar x0 x1 := by
  have := is_kind n; rw [h] at this; exact this
theorem kind_Lvasgn {n : Node} (h : n.kind = .Lvasgn) : ∃ x0 x1 x2 x3 x4, n = .Lvasgn x0 x1 x2 x3 x4 ∧ x1.isSome = true := by
  have := is_kind n; rw [h] at this; exact this
theorem kind_Masgn {n : Node} (h : n.kind = .Masgn) : ∃ x0 x1 x2 x3, n = .Masgn x0 x1 x2 x3 := by
  have := is_kind n; rw [h] at this; exact this
theorem kind_MatchAlt {n : Node} (h : n.kind = .MatchAlt) : ∃ x0 x1 x2 x3, n = .MatchAlt x0 x1 x2 x3 := by
  have := is_kind n; rw [h] at this; exact this
theorem kind_MatchAs {n : Node} (h : n.kind = .MatchAs) : ∃ x0 x1 x2 x3, n = .MatchAs x0 x1 x2 x3 := by
  have := is_kind n; rw [h] at this; exact this
theorem kind_MatchCurrentLine {n : Node} (h : n.kind = .MatchCurrentLine) : ∃ x0 x1, n = .MatchCurrentLine x0 x1 := by
  have := is_kind n; rw [h] at this; exact this
theorem kind_MatchNilPattern {n : Node} (h : n.kind = .MatchNilPattern) : ∃ x0 x1 x2, n = .MatchNilPattern x0 x1 x2 := by
  have := is_kind n; rw [h] at this; exact this
theorem kind_MatchPattern {n : Node} (h : n.kind = .MatchPattern) : ∃ x0 x1 x2 x3, n = .MatchPattern x0 x1 x2 x3 := by
  have := is_kind n; rw [h] at this; exact this
theorem kind_MatchPatternP {n : Node} (h : n.kind = .MatchPatternP) : ∃ x0 x1 x2 x3, n = .MatchPatternP x0 x1 x2 x3 := by
  have := is_kind n; rw [h] at this; exact this
theorem kind_MatchRest {n : Node} (h : n.kind = .MatchRest) : ∃ x0 x1 x2, n = .MatchRest x0 x1 x2 := by
  have := is_kind n; rw [h] at this; exact this
theorem kind_MatchVar {n : Node} (h : n.kind = .MatchVar) : ∃ x0 x1 x2, n = .MatchVar x0 x1 x2 := by
  have := is_kind n; rw [h] at this; exact this
theorem kind_MatchWithLvasgn {n : Node} (h : n.kind = .MatchWithLvasgn) : ∃ x0 x1 x2 x3, n = .MatchWithLvasgn x0 x1 x2 x3 := by
  have := is_kind n; rw [h] at this; exact this
theorem kind_Mlhs {n : Node} (h : n.kind = .Mlhs) : ∃ x0 x1 x2 x3, n = .Mlhs x0 x1 x2 x3 ∧ Node.allDestr x0 = false := by
  have := is_kind n; rw [h] at this; exact this
theorem kind_Module {n : Node} (h : n.kind = .Module) : ∃ x0 x1 x2 x3 x4, n = .Module x0 x1 x2 x3 x4 := by
  have := is_kind n; rw [h] at this; exact this
theorem kind_Next {n : Node} (h : n.kind = .Next) : ∃ x0 x1 x2, n = .Next x0 x1 x2 ∧ Node.headTakesBlock x0 = false := by
  have := is_kind n; rw [h] at this; exact this
theorem kind_Nil {n : Node} (h : n.kind = .Nil) : ∃ x0, n = .Nil x0 := by
  have := is_kind n; rw [h] at this; exact this
theorem kind_NthRef {n : Node} (h : n.kind = .NthRef) : ∃ x0 x1, n = .NthRef x0 x1 := by
  have := is_kind n; rw [h] at this; exact this
theorem kind_Numblock {n : Node} (h : n.kind = .Numblock) : ∃ x0 x1 x2 x3 x4 x5, n = .Numblock x0 x1 x2 x3 x4 x5 := by
  have := is_kind n; rw [h] at this; exact this
theorem kind_OpAsgn {n : Node} (h : n.kind = .OpAsgn) : ∃ x0 x1 x2 x3 x4, n = .OpAsgn x0 x1 x2 x3 x4 := by
  have := is_kind n; rw [h] at this; exact this
theorem kind_Optarg {n : Node} (h : n.kind = .Optarg) : ∃ x0 x1 x2 x3 x4, n = .Optarg x0 x1 x2 x3 x4 := by
  have := is_kind n; rw [h] at this; exact this
theorem kind_Or {n : Node} (h : n.kind = .Or) : ∃ x0 x1 x2 x3, n = .Or x0 x1 x2 x3 := by
  have := is_kind n; rw [h] at this; exact this
theorem kind_OrAsgn {n : Node} (h : n.kind = .OrAsgn) : ∃ x0 x1 x2 x3, n = .OrAsgn x0 x1 x2 x3 := by
  have := is_kind n; rw [h] at this; exact this
theorem kind_Pair {n : Node} (h : n.kind = .Pair) : ∃ x0 x1 x2 x3, n = .Pair x0 x1 x2 x3 := by
  have := is_kind n; rw [h] at this; exact this
theorem kind_Pin {n : Node} (h : n.kind = .Pin) : ∃ x0 x1 x2, n = .Pin x0 x1 x2 := by
  have := is_kind n; rw [h] at this; exact this
theorem kind_Postexe {n : Node} (h : n.kind = .Postexe) : ∃ x0 x1 x2 x3 x4, n = .Postexe x0 x1 x2 x3 x4 := by
  have := is_kind n; rw [h] at this; exact this
theorem kind_Preexe {n : Node} (h : n.kind = .Preexe) : ∃ x0 x1 x2 x3 x4, n = .Preexe x0 x1 x2 x3 x4 := by
  have := is_kind n; rw [h] at this; exact this
theorem kind_Procarg0 {n : Node} (h : n.kind = .Procarg0) : ∃ x0 x1 x2 x3, n = .Procarg0 x0 x1 x2 x3 := by
  have := is_kind n; rw [h] at this; exact this
theorem kind_Rational {n : Node} (h : n.kind = .Rational) : ∃ x0 x1 x2, n = .Rational x0 x1 x2 := by
  have := is_kind n; rw [h] at this; exact this
theorem kind_Redo {n : Node} (h : n.kind = .Redo) : ∃ x0, n = .Redo x0 := by
  have := is_kind n; rw [h] at this; exact this
theorem kind_RegOpt {n : Node} (h : n.kind = .RegOpt) : ∃ x0 x1, n = .RegOpt x0 x1 := by
  have := is_kind n; rw [h] at this; exact this
theorem kind_Regexp {n : Node} (h : n.kind = .Regexp) : ∃ x0 x1 x2 x3 x4, n = .Regexp x0 x1 x2 x3 x4 := by
  have := is_kind n; rw [h] at this; exact this
theorem kind_Rescue {n : Node} (h : n.kind = .Rescue) : ∃ x0 x1 x2 x3 x4, n = .Rescue x0 x1 x2 x3 x4 := by
  have := is_kind n; rw [h] at this; exact this
theorem kind_RescueBody {n : Node} (h : n.kind = .RescueBody) : ∃ x0 x1 x2 x3 x4 x5 x6, n = .RescueBody x0 x1 x2 x3 x4 x5 x6 := by
  have := is_kind n; rw [h] at this; exact this
theorem kind_Restarg {n : Node} (h : n.kind = .Restarg) : ∃ x0 x1 x2 x3, n = .Restarg x0 x1 x2 x3 := by
  have := is_kind n; rw [h] at this; exact this
theorem kind_Retry {n : Node} (h : n.kind = .Retry) : ∃ x0, n = .Retry x0 := by
  have := is_kind n; rw [h] at this; exact this
theorem kind_Return {n : Node} (h : n.kind = .Return) : ∃ x0 x1 x2, n = .Return x0 x1 x2 ∧ Node.headTakesBlock x0 = false := by
  have := is_kind n; rw [h] at this; exact this
theorem kind_SClass {n : Node} (h : n.kind = .SClass) : ∃ x0 x1 x2 x3 x4 x5, n = .SClass x0 x1 x2 x3 x4 x5 := by
  have := is_kind n; rw [h] at this; exact this
theorem kind_Self_ {n : Node} (h : n.kind = .Self_) : ∃ x0, n = .Self_ x0 := by
  have := is_kind n; rw [h] at this; exact this
theorem kind_Send {n : Node} (h : n.kind = .Send) : ∃ x0 x1 x2 x3 x4 x5 x6 x7 x8, n = .Send x0 x1 x2 x3 x4 x5 x6 x7 x8 ∧ x2.isEmpty = false := by
  have := is_kind n; rw [h] at this; exact this
theorem kind_Shadowarg {n : Node} (h : n.kind = .Shadowarg) : ∃ x0 x1, n = .Shadowarg x0 x1 := by
  have := is_kind n; rw [h] at this; exact this
theorem kind_Splat {n : Node} (h : n.kind = .Splat) : ∃ x0 x1 x2, n = .Splat x0 x1 x2 := by
  have := is_kind n; rw [h] at this; exact this
theorem kind_Str {n : Node} (h : n.kind = .Str) : ∃ x0 x1 x2 x3, n = .Str x0 x1 x2 x3 := by
  have := is_kind n; rw [h] at this; exact this
theorem kind_Super {n : Node} (h : n.kind = .Super) : ∃ x0 x1 x2 x3 x4, n = .Super x0 x1 x2 x3 x4 := by
  have := is_kind n; rw [h] at this; exact this
theorem kind_Sym {n : Node} (h : n.kind = .Sym) : ∃ x0 x1 x2 x3, n = .Sym x0 x1 x2 x3 := by
  have := is_kind n; rw [h] at this; exact this
theorem kind_True {n : Node} (h : n.kind = .True) : ∃ x0, n = .True x0 := by
  have := is_kind n; rw [h] at this; exact this
theorem kind_Undef {n : Node} (h : n.kind = .Undef) : ∃ x0 x1 x2, n = .Undef x0 x1 x2 := by
  have := is_kind n; rw [h] at this; exact this
theorem kind_UnlessGuard {n : Node} (h : n.kind = .UnlessGuard) : ∃ x0 x1 x2, n = .UnlessGuard x0 x1 x2 := by
  have := is_kind n; rw [h] at this; exact this
theorem kind_Until {n : Node} (h : n.kind = .Until) : ∃ x0 x1 x2 x3 x4 x5, n = .Until x0 x1 x2 x3 x4 x5 := by
  have := is_kind n; rw [h] at this; exact this
theorem kind_UntilPost {n : Node} (h : n.kind = .UntilPost) : ∃ x0 x1 x2 x3, n = .UntilPost x0 x1 x2 x3 := by
  have := is_kind n; rw [h] at this; exact this
theorem kind_When {n : Node} (h : n.kind = .When) : ∃ x0 x1 x2 x3 x4, n = .When x0 x1 x2 x3 x4 := by
  have := is_kind n; rw [h] at this; exact this
theorem kind_While {n : Node} (h : n.kind = .While) : ∃ x0 x1 x2 x3 x4 x5, n = .While x0 x1 x2 x3 x4 x5 := by
  have := is_kind n; rw [h] at this; exact this
theorem kind_WhilePost {n : Node} (h : n.kind = .WhilePost) : ∃ x0 x1 x2 x3, n = .WhilePost x0 x1 x2 x3 := by
  have := is_kind n; rw [h] at this; exact this
theorem kind_XHeredoc {n : Node} (h : n.kind = .XHeredoc) : ∃ x0 x1 x2 x3, n = .XHeredoc x0 x1 x2 x3 := by
  have := is_kind n; rw [h] at this; exact this
theorem kind_Xstr {n : Node} (h : n.kind = .Xstr) : ∃ x0 x1 x2 x3, n = .Xstr x0 x1 x2 x3 := by
  have := is_kind n; rw [h] at this; exact this
theorem kind_Yield {n : Node} (h : n.kind = .Yield) : ∃ x0 x1 x2 x3 x4, n = .Yield x0 x1 x2 x3 x4 := by
  have := is_kind n; rw [h] at this; exact this
theorem kind_ZSuper {n : Node} (h : n.kind = .ZSuper) : ∃ x0, n = .ZSuper x0 := by
  have := is_kind n; rw [h] at this; exact this
theorem kind_MlhsP {n : Node} (h : n.kind = .MlhsP) : ∃ x0 x1 x2 x3, n = .Mlhs x0 x1 x2 x3 ∧ Node.allDestr x0 = true := by
  have := is_kind n; rw [h] at this; exact this
theorem kind_Send0 {n : Node} (h : n.kind = .Send0) : ∃ x0 x1 x2 x3 x4 x5 x6 x7 x8, n = .Send x0 x1 x2 x3 x4 x5 x6 x7 x8 ∧ x2.isEmpty = true := by
  have := is_kind n; rw [h] at this; exact this
theorem kind_CSend0 {n : Node} (h : n.kind = .CSend0) : ∃ x0 x1 x2 x3 x4 x5 x6 x7 x8, n = .CSend x0 x1 x2 x3 x4 x5 x6 x7 x8 ∧ x2.isEmpty = true := by
  have := is_kind n; rw [h] at this; exact this
theorem kind_LvasgnT {n : Node} (h : n.kind = .LvasgnT) : ∃ x0 x1 x2 x3 x4, n = .Lvasgn x0 x1 x2 x3 x4 ∧ x1.isSome = false := by
  have := is_kind n; rw [h] at this; exact this
theorem kind_IvasgnT {n : Node} (h : n.kind = .IvasgnT) : ∃ x0 x1 x2 x3 x4, n = .Ivasgn x0 x1 x2 x3 x4 ∧ x1.isSome = false := by
  have := is_kind n; rw [h] at this; exact this
theorem kind_GvasgnT {n : Node} (h : n.kind = .GvasgnT) : ∃ x0 x1 x2 x3 x4, n = .Gvasgn x0 x1 x2 x3 x4 ∧ x1.isSome = false := by
  have := is_kind n; rw [h] at this; exact this
theorem kind_CvasgnT {n : Node} (h : n.kind = .CvasgnT) : ∃ x0 x1 x2 x3 x4, n = .Cvasgn x0 x1 x2 x3 x4 ∧ x1.isSome = false := by
  have := is_kind n; rw [h] at this; exact this
theorem kind_CasgnT {n : Node} (h : n.kind = .CasgnT) : ∃ x0 x1 x2 x3 x4 x5 x6, n = .Casgn x0 x1 x2 x3 x4 x5 x6 ∧ x2.isSome = false := by
  have := is_kind n; rw [h] at this; exact this
theorem kind_IndexAsgnT {n : Node} (h : n.kind = .IndexAsgnT) : ∃ x0 x1 x2 x3 x4 x5 x6, n = .IndexAsgn x0 x1 x2 x3 x4 x5 x6 ∧ x2.isSome = false := by
  have := is_kind n; rw [h] at this; exact this
theorem kind_ReturnC {n : Node} (h : n.kind = .ReturnC) : ∃ x0 x1 x2, n = .Return x0 x1 x2 ∧ Node.headTakesBlock x0 = true := by
  have := is_kind n; rw [h] at this; exact this
theorem kind_BreakC {n : Node} (h : n.kind = .BreakC) : ∃ x0 x1 x2, n = .Break x0 x1 x2 ∧ Node.headTakesBlock x0 = true := by
  have := is_kind n; rw [h] at this; exact this
theorem kind_NextC {n : Node} (h : n.kind = .NextC) : ∃ x0 x1 x2, n = .Next x0 x1 x2 ∧ Node.headTakesBlock x0 = true := by
  have := is_kind n; rw [h] at this; exact this

theorem has_of {n : Node} {m : Kinds} {k : NKind} (h : n.kind = k) (hm : m.testBit k.ctorIdx = true) : Has m n := by
  unfold Has; rw [h]; exact hm

open Lean Elab Tactic Meta in
/-- Closes `Has m n` when the kind of `n` and the set `m` are known. -/
elab "has" : tactic => withMainContext do
  let g ← getMainGoal
  let t ← instantiateMVars (← g.getType)
  unless t.isAppOfArity ``Has 2 do throwError "not a goal Has"
  let k ← whnf (mkApp (mkConst ``Node.kind) t.appArg!)
  let hk ← mkEqRefl k
  let h2 := mkApp2 (mkConst ``Nat.testBit) t.appFn!.appArg! (mkApp (mkConst ``NKind.ctorIdx) k)
  let h2 ← mkEq h2 (mkConst ``true)
  unless (← whnf (← mkDecide h2)).isConstOf ``true do throwError "not of these kinds"
  let m ← mkDecideProof h2
  g.assign (mkApp5 (mkConst ``has_of) t.appArg! t.appFn!.appArg! k hk m)


/-! ### What `Shaped` says -/

/-- Unfolding `Shaped` of a constructor. -/
macro "shapes" : tactic => `(tactic|
  (rw [shaped_iff]
   refine (and_congr_left fun _ => (show (∀ p ∈ Node.fields _, Ok p.1 p.2) ↔ AllF _ from Iff.rfl)).trans ?_
   simp only [Node.fields, Node.sized, allF_append, allF_one, allF_opt, allF_each, and_true, and_assoc, true_and]))

theorem shaped_Alias {x0 : Node} {x1 : Node} {x2 : Loc} {x3 : Loc} :
    Shaped (.Alias x0 x1 x2 x3) ↔ Ok (ks [.Sym, .Dsym, .Gvar]) x0 ∧ Ok (ks [.Sym, .Dsym, .Gvar, .BackRef]) x1 := by shapes
theorem shaped_And {x0 : Node} {x1 : Node} {x2 : Loc} {x3 : Loc} :
    Shaped (.And x0 x1 x2 x3) ↔ Ok operandK x0 ∧ Ok operandOrVoidK x1 := by shapes
theorem shaped_AndAsgn {x0 : Node} {x1 : Node} {x2 : Loc} {x3 : Loc} :
    Shaped (.AndAsgn x0 x1 x2 x3) ↔ Ok targetK x0 ∧ Ok rhsK x1 := by shapes
theorem shaped_Arg {x0 : Text} {x1 : Loc} : Shaped (.Arg x0 x1) := shaped_iff.2 ⟨nofun, rfl⟩
theorem shaped_Args {x0 : List Node} {x1 : Option Loc} {x2 : Option Loc} {x3 : Loc} :
    Shaped (.Args x0 x1 x2 x3) ↔ OkL paramK x0 ∧ (Node.held x1 x0) = true := by shapes
theorem shaped_Array {x0 : List Node} {x1 : Option Loc} {x2 : Option Loc} {x3 : Loc} :
    Shaped (.Array x0 x1 x2 x3) ↔ OkL valueSplatK x0 ∧ (Node.held x1 x0) = true := by shapes
theorem shaped_ArrayPattern {x0 : List Node} {x1 : Option Loc} {x2 : Option Loc} {x3 : Loc} :
    Shaped (.ArrayPattern x0 x1 x2 x3) ↔ OkL patternItemK x0 ∧ (Node.held x1 x0) = true := by shapes
theorem shaped_ArrayPatternWithTail {x0 : List Node} {x1 : Option Loc} {x2 : Option Loc} {x3 : Loc} :
    Shaped (.ArrayPatternWithTail x0 x1 x2 x3) ↔ OkL patternItemK x0 ∧ (!x0.isEmpty) = true := by shapes
theorem shaped_BackRef {x0 : Text} {x1 : Loc} : Shaped (.BackRef x0 x1) := shaped_iff.2 ⟨nofun, rfl⟩
theorem shaped_Begin {x0 : List Node} {x1 : Option Loc} {x2 : Option Loc} {x3 : Loc} :
    Shaped (.Begin x0 x1 x2 x3) ↔ OkL beginsK x0 ∧ (x1.isSome || 2 ≤ x0.length) = true := by shapes
theorem shaped_Block {x0 : Node} {x1 : Option Node} {x2 : Option Node} {x3 : Loc} {x4 : Loc} {x5 : Loc} :
    Shaped (.Block x0 x1 x2 x3 x4 x5) ↔ Ok (ks [.Send, .Send0, .CSend, .CSend0, .Index, .Super, .ZSuper, .Lambda, .Yield]) x0 ∧ OkO (ks [.Args]) x1 ∧ OkO bodyK x2 := by shapes
theorem shaped_Blockarg {x0 : Option Text} {x1 : Loc} {x2 : Option Loc} {x3 : Loc} : Shaped (.Blockarg x0 x1 x2 x3) := shaped_iff.2 ⟨nofun, rfl⟩
theorem shaped_BlockPass {x0 : Option Node} {x1 : Loc} {x2 : Loc} :
    Shaped (.BlockPass x0 x1 x2) ↔ OkO valueK x0 := by shapes
theorem shaped_Break {x0 : List Node} {x1 : Loc} {x2 : Loc} :
    Shaped (.Break x0 x1 x2) ↔ OkL jumpArgK x0 := by shapes
theorem shaped_Case {x0 : Option Node} {x1 : List Node} {x2 : Option Node} {x3 : Loc} {x4 : Option Loc} {x5 : Loc} {x6 : Loc} :
    Shaped (.Case x0 x1 x2 x3 x4 x5 x6) ↔ OkO exprK x0 ∧ OkL (ks [.When]) x1 ∧ OkO stmtK x2 ∧ (!x1.isEmpty) = true := by shapes
theorem shaped_CaseMatch {x0 : Node} {x1 : List Node} {x2 : Option Node} {x3 : Loc} {x4 : Option Loc} {x5 : Loc} {x6 : Loc} :
    Shaped (.CaseMatch x0 x1 x2 x3 x4 x5 x6) ↔ Ok exprK x0 ∧ OkL (ks [.InPattern]) x1 ∧ OkO caseElseK x2 ∧ (!x1.isEmpty) = true := by shapes
theorem shaped_Casgn {x0 : Option Node} {x1 : Text} {x2 : Option Node} {x3 : Option Loc} {x4 : Loc} {x5 : Option Loc} {x6 : Loc} :
    Shaped (.Casgn x0 x1 x2 x3 x4 x5 x6) ↔ OkO scopeK x0 ∧ OkO rhsK x2 := by shapes
theorem shaped_Cbase {x0 : Loc} : Shaped (.Cbase x0) := shaped_iff.2 ⟨nofun, rfl⟩
theorem shaped_Class {x0 : Node} {x1 : Option Node} {x2 : Option Node} {x3 : Loc} {x4 : Option Loc} {x5 : Loc} {x6 : Loc} :
    Shaped (.Class x0 x1 x2 x3 x4 x5 x6) ↔ Ok (ks [.Const]) x0 ∧ OkO exprK x1 ∧ OkO bodyK x2 := by shapes
theorem shaped_Complex {x0 : Text} {x1 : Option Loc} {x2 : Loc} : Shaped (.Complex x0 x1 x2) := shaped_iff.2 ⟨nofun, rfl⟩
theorem shaped_Const {x0 : Option Node} {x1 : Text} {x2 : Option Loc} {x3 : Loc} {x4 : Loc} :
    Shaped (.Const x0 x1 x2 x3 x4) ↔ OkO scopeK x0 := by shapes
theorem shaped_ConstPattern {x0 : Node} {x1 : Node} {x2 : Loc} {x3 : Loc} {x4 : Loc} :
    Shaped (.ConstPattern x0 x1 x2 x3 x4) ↔ Ok (ks [.Const]) x0 ∧ Ok (ks [.ArrayPattern, .FindPattern, .HashPattern, .ArrayPatternWithTail]) x1 := by shapes
theorem shaped_CSend {x0 : Node} {x1 : Text} {x2 : List Node} {x3 : Loc} {x4 : Option Loc} {x5 : Option Loc} {x6 : Option Loc} {x7 : Option Loc} {x8 : Loc} :
    Shaped (.CSend x0 x1 x2 x3 x4 x5 x6 x7 x8) ↔ Ok receiverK x0 ∧ OkL callArgK x2 := by shapes
theorem shaped_Cvar {x0 : Text} {x1 : Loc} : Shaped (.Cvar x0 x1) := shaped_iff.2 ⟨nofun, rfl⟩
theorem shaped_Cvasgn {x0 : Text} {x1 : Option Node} {x2 : Loc} {x3 : Option Loc} {x4 : Loc} :
    Shaped (.Cvasgn x0 x1 x2 x3 x4) ↔ OkO rhsK x1 := by shapes
theorem shaped_Def {x0 : Text} {x1 : Option Node} {x2 : Option Node} {x3 : Loc} {x4 : Loc} {x5 : Option Loc} {x6 : Option Loc} {x7 : Loc} :
    Shaped (.Def x0 x1 x2 x3 x4 x5 x6 x7) ↔ OkO (ks [.Args]) x1 ∧ OkO bodyK x2 := by shapes
theorem shaped_Defined {x0 : Node} {x1 : Loc} {x2 : Option Loc} {x3 : Option Loc} {x4 : Loc} :
    Shaped (.Defined x0 x1 x2 x3 x4) ↔ Ok exprOrVoidK x0 := by shapes
theorem shaped_Defs {x0 : Node} {x1 : Text} {x2 : Option Node} {x3 : Option Node} {x4 : Loc} {x5 : Loc} {x6 : Loc} {x7 : Option Loc} {x8 : Option Loc} {x9 : Loc} :
    Shaped (.Defs x0 x1 x2 x3 x4 x5 x6 x7 x8 x9) ↔ Ok defineeK x0 ∧ OkO (ks [.Args]) x2 ∧ OkO bodyK x3 := by shapes
theorem shaped_Dstr {x0 : List Node} {x1 : Option Loc} {x2 : Option Loc} {x3 : Loc} :
    Shaped (.Dstr x0 x1 x2 x3) ↔ OkL dstrPartK x0 := by shapes
theorem shaped_Dsym {x0 : List Node} {x1 : Option Loc} {x2 : Option Loc} {x3 : Loc} :
    Shaped (.Dsym x0 x1 x2 x3) ↔ OkL dstrPartK x0 := by shapes
theorem shaped_EFlipFlop {x0 : Option Node} {x1 : Option Node} {x2 : Loc} {x3 : Loc} :
    Shaped (.EFlipFlop x0 x1 x2 x3) ↔ OkO condK x0 ∧ OkO condK x1 := by shapes
theorem shaped_EmptyElse {x0 : Loc} : Shaped (.EmptyElse x0) := shaped_iff.2 ⟨nofun, rfl⟩
theorem shaped_Encoding {x0 : Loc} : Shaped (.Encoding x0) := shaped_iff.2 ⟨nofun, rfl⟩
theorem shaped_Ensure {x0 : Option Node} {x1 : Option Node} {x2 : Loc} {x3 : Loc} :
    Shaped (.Ensure x0 x1 x2 x3) ↔ OkO stmtK x0 ∧ OkO stmtK x1 := by shapes
theorem shaped_Erange {x0 : Option Node} {x1 : Option Node} {x2 : Loc} {x3 : Loc} :
    Shaped (.Erange x0 x1 x2 x3) ↔ OkO valueK x0 ∧ OkO valueK x1 := by shapes
theorem shaped_False {x0 : Loc} : Shaped (.False x0) := shaped_iff.2 ⟨nofun, rfl⟩
theorem shaped_File {x0 : Loc} : Shaped (.File x0) := shaped_iff.2 ⟨nofun, rfl⟩
theorem shaped_FindPattern {x0 : List Node} {x1 : Option Loc} {x2 : Option Loc} {x3 : Loc} :
    Shaped (.FindPattern x0 x1 x2 x3) ↔ OkL patternItemK x0 ∧ (!x0.isEmpty) = true := by shapes
theorem shaped_Float {x0 : Text} {x1 : Option Loc} {x2 : Loc} : Shaped (.Float x0 x1 x2) := shaped_iff.2 ⟨nofun, rfl⟩
theorem shaped_For {x0 : Node} {x1 : Node} {x2 : Option Node} {x3 : Loc} {x4 : Loc} {x5 : Loc} {x6 : Loc} {x7 : Loc} :
    Shaped (.For x0 x1 x2 x3 x4 x5 x6 x7) ↔ Ok (targetK ||| ks [.Mlhs]) x0 ∧ Ok exprK x1 ∧ OkO stmtK x2 := by shapes
theorem shaped_ForwardArg {x0 : Loc} : Shaped (.ForwardArg x0) := shaped_iff.2 ⟨nofun, rfl⟩
theorem shaped_ForwardedArgs {x0 : Loc} : Shaped (.ForwardedArgs x0) := shaped_iff.2 ⟨nofun, rfl⟩
theorem shaped_Gvar {x0 : Text} {x1 : Loc} : Shaped (.Gvar x0 x1) := shaped_iff.2 ⟨nofun, rfl⟩
theorem shaped_Gvasgn {x0 : Text} {x1 : Option Node} {x2 : Loc} {x3 : Option Loc} {x4 : Loc} :
    Shaped (.Gvasgn x0 x1 x2 x3 x4) ↔ OkO rhsK x1 := by shapes
theorem shaped_Hash {x0 : List Node} {x1 : Option Loc} {x2 : Option Loc} {x3 : Loc} :
    Shaped (.Hash x0 x1 x2 x3) ↔ OkL pairsK x0 ∧ (Node.held x1 x0) = true := by shapes
theorem shaped_HashPattern {x0 : List Node} {x1 : Option Loc} {x2 : Option Loc} {x3 : Loc} :
    Shaped (.HashPattern x0 x1 x2 x3) ↔ OkL (ks [.Pair, .MatchVar, .MatchRest, .MatchNilPattern]) x0 ∧ (Node.held x1 x0) = true := by shapes
theorem shaped_Heredoc {x0 : List Node} {x1 : Loc} {x2 : Loc} {x3 : Loc} :
    Shaped (.Heredoc x0 x1 x2 x3) ↔ OkL strPartK x0 := by shapes
theorem shaped_If {x0 : Node} {x1 : Option Node} {x2 : Option Node} {x3 : Loc} {x4 : Loc} {x5 : Option Loc} {x6 : Option Loc} {x7 : Loc} :
    Shaped (.If x0 x1 x2 x3 x4 x5 x6 x7) ↔ Ok condK x0 ∧ OkO stmtK x1 ∧ OkO stmtK x2 := by shapes
theorem shaped_IfGuard {x0 : Node} {x1 : Loc} {x2 : Loc} :
    Shaped (.IfGuard x0 x1 x2) ↔ Ok exprK x0 := by shapes
theorem shaped_IfMod {x0 : Node} {x1 : Option Node} {x2 : Option Node} {x3 : Loc} {x4 : Loc} :
    Shaped (.IfMod x0 x1 x2 x3 x4) ↔ Ok condK x0 ∧ OkO stmtK x1 ∧ OkO stmtK x2 := by shapes
theorem shaped_IfTernary {x0 : Node} {x1 : Node} {x2 : Node} {x3 : Loc} {x4 : Loc} {x5 : Loc} :
    Shaped (.IfTernary x0 x1 x2 x3 x4 x5) ↔ Ok valueK x0 ∧ Ok valueOrVoidK x1 ∧ Ok valueOrVoidK x2 := by shapes
theorem shaped_IFlipFlop {x0 : Option Node} {x1 : Option Node} {x2 : Loc} {x3 : Loc} :
    Shaped (.IFlipFlop x0 x1 x2 x3) ↔ OkO condK x0 ∧ OkO condK x1 := by shapes
theorem shaped_Index {x0 : Node} {x1 : List Node} {x2 : Loc} {x3 : Loc} {x4 : Loc} :
    Shaped (.Index x0 x1 x2 x3 x4) ↔ Ok primaryK x0 ∧ OkL callArgK x1 := by shapes
theorem shaped_IndexAsgn {x0 : Node} {x1 : List Node} {x2 : Option Node} {x3 : Loc} {x4 : Loc} {x5 : Option Loc} {x6 : Loc} :
    Shaped (.IndexAsgn x0 x1 x2 x3 x4 x5 x6) ↔ Ok primaryK x0 ∧ OkL callArgK x1 ∧ OkO rhsK x2 := by shapes
theorem shaped_InPattern {x0 : Node} {x1 : Option Node} {x2 : Option Node} {x3 : Loc} {x4 : Loc} {x5 : Loc} :
    Shaped (.InPattern x0 x1 x2 x3 x4 x5) ↔ Ok patternK x0 ∧ OkO (ks [.IfGuard, .UnlessGuard]) x1 ∧ OkO stmtK x2 := by shapes
theorem shaped_Int {x0 : Text} {x1 : Option Loc} {x2 : Loc} : Shaped (.Int x0 x1 x2) := shaped_iff.2 ⟨nofun, rfl⟩
theorem shaped_Irange {x0 : Option Node} {x1 : Option Node} {x2 : Loc} {x3 : Loc} :
    Shaped (.Irange x0 x1 x2 x3) ↔ OkO valueK x0 ∧ OkO valueK x1 := by shapes
theorem shaped_Ivar {x0 : Text} {x1 : Loc} : Shaped (.Ivar x0 x1) := shaped_iff.2 ⟨nofun, rfl⟩
theorem shaped_Ivasgn {x0 : Text} {x1 : Option Node} {x2 : Loc} {x3 : Option Loc} {x4 : Loc} :
    Shaped (.Ivasgn x0 x1 x2 x3 x4) ↔ OkO rhsK x1 := by shapes
theorem shaped_Kwarg {x0 : Text} {x1 : Loc} {x2 : Loc} : Shaped (.Kwarg x0 x1 x2) := shaped_iff.2 ⟨nofun, rfl⟩
theorem shaped_Kwargs {x0 : List Node} {x1 : Loc} :
    Shaped (.Kwargs x0 x1) ↔ OkL pairsK x0 ∧ (!x0.isEmpty) = true := by shapes
theorem shaped_KwBegin {x0 : List Node} {x1 : Option Loc} {x2 : Option Loc} {x3 : Loc} :
    Shaped (.KwBegin x0 x1 x2 x3) ↔ OkL kwBeginsK x0 := by shapes
theorem shaped_Kwnilarg {x0 : Loc} {x1 : Loc} : Shaped (.Kwnilarg x0 x1) := shaped_iff.2 ⟨nofun, rfl⟩
theorem shaped_Kwoptarg {x0 : Text} {x1 : Node} {x2 : Loc} {x3 : Loc} :
    Shaped (.Kwoptarg x0 x1 x2 x3) ↔ Ok valueK x1 := by shapes
theorem shaped_Kwrestarg {x0 : Option Text} {x1 : Loc} {x2 : Option Loc} {x3 : Loc} : Shaped (.Kwrestarg x0 x1 x2 x3) := shaped_iff.2 ⟨nofun, rfl⟩
theorem shaped_Kwsplat {x0 : Node} {x1 : Loc} {x2 : Loc} :
    Shaped (.Kwsplat x0 x1 x2) ↔ Ok valueK x0 := by shapes
theorem shaped_Lambda {x0 : Loc} : Shaped (.Lambda x0) := shaped_iff.2 ⟨nofun, rfl⟩
theorem shaped_Line {x0 : Loc} : Shaped (.Line x0) := shaped_iff.2 ⟨nofun, rfl⟩
theorem shaped_Lvar {x0 : Text} {x1 : Loc} : Shaped (.Lvar x0 x1) := shaped_iff.2 ⟨nofun, rfl⟩
theorem shaped_Lvasgn {x0 : Text} {x1 : Option Node} {x2 : Loc} {x3 : Option Loc} {x4 : Loc} :
    Shaped (.Lvasgn x0 x1 x2 x3 x4) ↔ OkO rhsK x1 := by shapes
theorem shaped_Masgn {x0 : Node} {x1 : Node} {x2 : Loc} {x3 : Loc} :
    Shaped (.Masgn x0 x1 x2 x3) ↔ Ok (ks [.Mlhs]) x0 ∧ Ok rhsK x1 := by shapes
theorem shaped_MatchAlt {x0 : Node} {x1 : Node} {x2 : Loc} {x3 : Loc} :
    Shaped (.MatchAlt x0 x1 x2 x3) ↔ Ok patternK x0 ∧ Ok patternK x1 := by shapes
theorem shaped_MatchAs {x0 : Node} {x1 : Node} {x2 : Loc} {x3 : Loc} :
    Shaped (.MatchAs x0 x1 x2 x3) ↔ Ok patternK x0 ∧ Ok (ks [.MatchVar]) x1 := by shapes
theorem shaped_MatchCurrentLine {x0 : Node} {x1 : Loc} :
    Shaped (.MatchCurrentLine x0 x1) ↔ Ok (ks [.Regexp]) x0 := by shapes
theorem shaped_MatchNilPattern {x0 : Loc} {x1 : Loc} {x2 : Loc} : Shaped (.MatchNilPattern x0 x1 x2) := shaped_iff.2 ⟨nofun, rfl⟩
theorem shaped_MatchPattern {x0 : Node} {x1 : Node} {x2 : Loc} {x3 : Loc} :
    Shaped (.MatchPattern x0 x1 x2 x3) ↔ Ok valueOrVoidK x0 ∧ Ok patternK x1 := by shapes
theorem shaped_MatchPatternP {x0 : Node} {x1 : Node} {x2 : Loc} {x3 : Loc} :
    Shaped (.MatchPatternP x0 x1 x2 x3) ↔ Ok valueOrVoidK x0 ∧ Ok patternK x1 := by shapes
theorem shaped_MatchRest {x0 : Option Node} {x1 : Loc} {x2 : Loc} :
    Shaped (.MatchRest x0 x1 x2) ↔ OkO (ks [.MatchVar]) x0 := by shapes
theorem shaped_MatchVar {x0 : Text} {x1 : Loc} {x2 : Loc} : Shaped (.MatchVar x0 x1 x2) := shaped_iff.2 ⟨nofun, rfl⟩
theorem shaped_MatchWithLvasgn {x0 : Node} {x1 : Node} {x2 : Loc} {x3 : Loc} :
    Shaped (.MatchWithLvasgn x0 x1 x2 x3) ↔ Ok (ks [.Regexp]) x0 ∧ Ok valueK x1 := by shapes
theorem shaped_Mlhs {x0 : List Node} {x1 : Option Loc} {x2 : Option Loc} {x3 : Loc} :
    Shaped (.Mlhs x0 x1 x2 x3) ↔ OkL (if Node.allDestr x0 then destrK else mlhsItemK) x0 ∧ (!x0.isEmpty) = true := by shapes
theorem shaped_Module {x0 : Node} {x1 : Option Node} {x2 : Loc} {x3 : Loc} {x4 : Loc} :
    Shaped (.Module x0 x1 x2 x3 x4) ↔ Ok (ks [.Const]) x0 ∧ OkO bodyK x1 := by shapes
theorem shaped_Next {x0 : List Node} {x1 : Loc} {x2 : Loc} :
    Shaped (.Next x0 x1 x2) ↔ OkL jumpArgK x0 := by shapes
theorem shaped_Nil {x0 : Loc} : Shaped (.Nil x0) := shaped_iff.2 ⟨nofun, rfl⟩
theorem shaped_NthRef {x0 : Text} {x1 : Loc} : Shaped (.NthRef x0 x1) := shaped_iff.2 ⟨nofun, rfl⟩
theorem shaped_Numblock {x0 : Node} {x1 : Nat} {x2 : Node} {x3 : Loc} {x4 : Loc} {x5 : Loc} :
    Shaped (.Numblock x0 x1 x2 x3 x4 x5) ↔ Ok (ks [.Send, .Send0, .CSend, .CSend0, .Index, .Super, .ZSuper, .Lambda, .Yield]) x0 ∧ Ok bodyK x2 := by shapes
theorem shaped_OpAsgn {x0 : Node} {x1 : Text} {x2 : Node} {x3 : Loc} {x4 : Loc} :
    Shaped (.OpAsgn x0 x1 x2 x3 x4) ↔ Ok targetK x0 ∧ Ok rhsK x2 := by shapes
theorem shaped_Optarg {x0 : Text} {x1 : Node} {x2 : Loc} {x3 : Loc} {x4 : Loc} :
    Shaped (.Optarg x0 x1 x2 x3 x4) ↔ Ok valueK x1 := by shapes
theorem shaped_Or {x0 : Node} {x1 : Node} {x2 : Loc} {x3 : Loc} :
    Shaped (.Or x0 x1 x2 x3) ↔ Ok operandK x0 ∧ Ok operandOrVoidK x1 := by shapes
theorem shaped_OrAsgn {x0 : Node} {x1 : Node} {x2 : Loc} {x3 : Loc} :
    Shaped (.OrAsgn x0 x1 x2 x3) ↔ Ok targetK x0 ∧ Ok rhsK x1 := by shapes
theorem shaped_Pair {x0 : Node} {x1 : Node} {x2 : Loc} {x3 : Loc} :
    Shaped (.Pair x0 x1 x2 x3) ↔ Ok valueK x0 ∧ Ok pairValueK x1 := by shapes
theorem shaped_Pin {x0 : Node} {x1 : Loc} {x2 : Loc} :
    Shaped (.Pin x0 x1 x2) ↔ Ok pinnedK x0 := by shapes
theorem shaped_Postexe {x0 : Option Node} {x1 : Loc} {x2 : Loc} {x3 : Loc} {x4 : Loc} :
    Shaped (.Postexe x0 x1 x2 x3 x4) ↔ OkO stmtK x0 := by shapes
theorem shaped_Preexe {x0 : Option Node} {x1 : Loc} {x2 : Loc} {x3 : Loc} {x4 : Loc} :
    Shaped (.Preexe x0 x1 x2 x3 x4) ↔ OkO topK x0 := by shapes
theorem shaped_Procarg0 {x0 : List Node} {x1 : Option Loc} {x2 : Option Loc} {x3 : Loc} :
    Shaped (.Procarg0 x0 x1 x2 x3) ↔ OkL destrK x0 ∧ (!x0.isEmpty) = true := by shapes
theorem shaped_Rational {x0 : Text} {x1 : Option Loc} {x2 : Loc} : Shaped (.Rational x0 x1 x2) := shaped_iff.2 ⟨nofun, rfl⟩
theorem shaped_Redo {x0 : Loc} : Shaped (.Redo x0) := shaped_iff.2 ⟨nofun, rfl⟩
theorem shaped_RegOpt {x0 : Option Text} {x1 : Loc} : Shaped (.RegOpt x0 x1) := shaped_iff.2 ⟨nofun, rfl⟩
theorem shaped_Regexp {x0 : List Node} {x1 : Option Node} {x2 : Loc} {x3 : Loc} {x4 : Loc} :
    Shaped (.Regexp x0 x1 x2 x3 x4) ↔ OkL strPartK x0 ∧ OkO (ks [.RegOpt]) x1 := by shapes
theorem shaped_Rescue {x0 : Option Node} {x1 : List Node} {x2 : Option Node} {x3 : Option Loc} {x4 : Loc} :
    Shaped (.Rescue x0 x1 x2 x3 x4) ↔ OkO stmtK x0 ∧ OkL (ks [.RescueBody]) x1 ∧ OkO stmtK x2 ∧ (!x1.isEmpty) = true := by shapes
theorem shaped_RescueBody {x0 : Option Node} {x1 : Option Node} {x2 : Option Node} {x3 : Loc} {x4 : Option Loc} {x5 : Option Loc} {x6 : Loc} :
    Shaped (.RescueBody x0 x1 x2 x3 x4 x5 x6) ↔ OkO (ks [.Array]) x0 ∧ OkO targetK x1 ∧ OkO stmtK x2 := by shapes
theorem shaped_Restarg {x0 : Option Text} {x1 : Loc} {x2 : Option Loc} {x3 : Loc} : Shaped (.Restarg x0 x1 x2 x3) := shaped_iff.2 ⟨nofun, rfl⟩
theorem shaped_Retry {x0 : Loc} : Shaped (.Retry x0) := shaped_iff.2 ⟨nofun, rfl⟩
theorem shaped_Return {x0 : List Node} {x1 : Loc} {x2 : Loc} :
    Shaped (.Return x0 x1 x2) ↔ OkL jumpArgK x0 := by shapes
theorem shaped_SClass {x0 : Node} {x1 : Option Node} {x2 : Loc} {x3 : Loc} {x4 : Loc} {x5 : Loc} :
    Shaped (.SClass x0 x1 x2 x3 x4 x5) ↔ Ok exprOrVoidK x0 ∧ OkO bodyK x1 := by shapes
theorem shaped_Self_ {x0 : Loc} : Shaped (.Self_ x0) := shaped_iff.2 ⟨nofun, rfl⟩
theorem shaped_Send {x0 : Option Node} {x1 : Text} {x2 : List Node} {x3 : Option Loc} {x4 : Option Loc} {x5 : Option Loc} {x6 : Option Loc} {x7 : Option Loc} {x8 : Loc} :
    Shaped (.Send x0 x1 x2 x3 x4 x5 x6 x7 x8) ↔ OkO receiverK x0 ∧ OkL callArgK x2 := by shapes
theorem shaped_Shadowarg {x0 : Text} {x1 : Loc} : Shaped (.Shadowarg x0 x1) := shaped_iff.2 ⟨nofun, rfl⟩
theorem shaped_Splat {x0 : Option Node} {x1 : Loc} {x2 : Loc} :
    Shaped (.Splat x0 x1 x2) ↔ OkO splattedK x0 := by shapes
theorem shaped_Str {x0 : Bytes} {x1 : Option Loc} {x2 : Option Loc} {x3 : Loc} : Shaped (.Str x0 x1 x2 x3) := shaped_iff.2 ⟨nofun, rfl⟩
theorem shaped_Super {x0 : List Node} {x1 : Loc} {x2 : Option Loc} {x3 : Option Loc} {x4 : Loc} :
    Shaped (.Super x0 x1 x2 x3 x4) ↔ OkL callArgK x0 := by shapes
theorem shaped_Sym {x0 : Bytes} {x1 : Option Loc} {x2 : Option Loc} {x3 : Loc} : Shaped (.Sym x0 x1 x2 x3) := shaped_iff.2 ⟨nofun, rfl⟩
theorem shaped_True {x0 : Loc} : Shaped (.True x0) := shaped_iff.2 ⟨nofun, rfl⟩
theorem shaped_Undef {x0 : List Node} {x1 : Loc} {x2 : Loc} :
    Shaped (.Undef x0 x1 x2) ↔ OkL symK x0 ∧ (!x0.isEmpty) = true := by shapes
theorem shaped_UnlessGuard {x0 : Node} {x1 : Loc} {x2 : Loc} :
    Shaped (.UnlessGuard x0 x1 x2) ↔ Ok exprK x0 := by shapes
theorem shaped_Until {x0 : Node} {x1 : Option Node} {x2 : Loc} {x3 : Option Loc} {x4 : Option Loc} {x5 : Loc} :
    Shaped (.Until x0 x1 x2 x3 x4 x5) ↔ Ok condK x0 ∧ OkO stmtK x1 := by shapes
theorem shaped_UntilPost {x0 : Node} {x1 : Node} {x2 : Loc} {x3 : Loc} :
    Shaped (.UntilPost x0 x1 x2 x3) ↔ Ok condK x0 ∧ Ok (ks [.KwBegin]) x1 := by shapes
theorem shaped_When {x0 : List Node} {x1 : Option Node} {x2 : Loc} {x3 : Loc} {x4 : Loc} :
    Shaped (.When x0 x1 x2 x3 x4) ↔ OkL valueSplatK x0 ∧ OkO stmtK x1 ∧ (!x0.isEmpty) = true := by shapes
theorem shaped_While {x0 : Node} {x1 : Option Node} {x2 : Loc} {x3 : Option Loc} {x4 : Option Loc} {x5 : Loc} :
    Shaped (.While x0 x1 x2 x3 x4 x5) ↔ Ok condK x0 ∧ OkO stmtK x1 := by shapes
theorem shaped_WhilePost {x0 : Node} {x1 : Node} {x2 : Loc} {x3 : Loc} :
    Shaped (.WhilePost x0 x1 x2 x3) ↔ Ok condK x0 ∧ Ok (ks [.KwBegin]) x1 := by shapes
theorem shaped_XHeredoc {x0 : List Node} {x1 : Loc} {x2 : Loc} {x3 : Loc} :
    Shaped (.XHeredoc x0 x1 x2 x3) ↔ OkL strPartK x0 := by shapes
theorem shaped_Xstr {x0 : List Node} {x1 : Loc} {x2 : Loc} {x3 : Loc} :
    Shaped (.Xstr x0 x1 x2 x3) ↔ OkL strPartK x0 := by shapes
theorem shaped_Yield {x0 : List Node} {x1 : Loc} {x2 : Option Loc} {x3 : Option Loc} {x4 : Loc} :
    Shaped (.Yield x0 x1 x2 x3 x4) ↔ OkL callArgK x0 := by shapes
theorem shaped_ZSuper {x0 : Loc} : Shaped (.ZSuper x0) := shaped_iff.2 ⟨nofun, rfl⟩

end Verif
