import Verif.Spec.Scope
import Verif.Lemmas.ShapeSafe
import Verif.Spec.Placed
/-!
Binding and mentioning are sums over the parts of a node, for all but a few kinds of nodes.
-/
namespace Verif
open Builder Grammar ScopeSpec

/-- The kinds of nodes that are neither bindings nor mentions nor scopes, nor assignments of constants (`asgnNode`). -/
def plainNode : Node → Bool
  | .Lvar .. | .Lvasgn .. | .Arg .. | .Optarg .. | .Kwarg .. | .Kwoptarg .. | .Shadowarg .. | .Restarg .. | .Kwrestarg ..
  | .Blockarg .. | .MatchVar .. | .MatchWithLvasgn .. | .Def .. | .Defs .. | .Class .. | .Module .. | .SClass .. | .Block ..
  | .Numblock .. | .Casgn .. | .OpAsgn .. | .AndAsgn .. | .OrAsgn .. => false
  | _ => true
/-- Assignments of constants, and what may assign to one and look at it. -/
def asgnNode : Node → Bool
  | .Casgn .. | .OpAsgn .. | .AndAsgn .. | .OrAsgn .. => true
  | _ => false

/-- Some node of the list. -/
def Some_ (Q : Node → Prop) (l : List Node) : Prop := ∃ n ∈ l, Q n

@[simp] theorem some_nil {Q : Node → Prop} : Some_ Q [] ↔ False := by simp [Some_]
@[simp] theorem some_cons {Q : Node → Prop} {n : Node} {l : List Node} : Some_ Q (n :: l) ↔ Q n ∨ Some_ Q l := by simp [Some_]
@[simp] theorem some_append {Q : Node → Prop} {l m : List Node} : Some_ Q (l ++ m) ↔ Some_ Q l ∨ Some_ Q m := by
  simp [Some_, or_and_right, exists_or]
@[simp] theorem some_reverse {Q : Node → Prop} {l : List Node} : Some_ Q l.reverse ↔ Some_ Q l := by simp [Some_]

/-- A predicate that holds of a plain node when it holds of one of its parts. -/
def Additive (Q : Node → Prop) : Prop := ∀ n, plainNode n = true → (Q n ↔ Some_ Q n.children)

/-- The same for assignments too. -/
structure Wide (Q : Node → Prop) : Prop where
  add : Additive Q
  asgn : ∀ n, asgnNode n = true → (Q n ↔ Some_ Q n.children)

theorem plain_parts {ext : BldExt} {n : Node} (h : plainNode n = true ∨ asgnNode n = true) :
    ownNames ext n = [] ∧ walled n = [] ∧ nested n = [] ∧ open_ n = n.children := by
  cases n <;> first | exact ⟨rfl, rfl, rfl, rfl⟩ | (rcases h with h | h <;> cases h)

section
variable {ext : BldExt} {x : Text}

theorem binds_iff {n : Node} : Binds ext x n ↔ x ∈ ownNames ext n ∨ Some_ (Binds ext x) (open_ n) := by
  constructor
  · rintro (h | ⟨h, h'⟩)
    · exact .inl h
    · exact .inr ⟨_, h, h'⟩
  · rintro (h | ⟨c, h, h'⟩)
    · exact .own h
    · exact .part h h'
theorem uses_iff {n : Node} : Uses ext x n ↔ (∃ l, n = .Lvar x l) ∨ Some_ (Uses ext x) (open_ n) ∨
    (Some_ (Uses ext x) (nested n) ∧ ¬ Some_ (Binds ext x) (nested n)) := by
  constructor
  · rintro (_ | ⟨h, h'⟩ | ⟨h, h', h2⟩)
    · exact .inl ⟨_, rfl⟩
    · exact .inr (.inl ⟨_, h, h'⟩)
    · exact .inr (.inr ⟨⟨_, h, h'⟩, fun ⟨d, hd, hb⟩ => h2 d hd hb⟩)
  · rintro (⟨l, rfl⟩ | ⟨c, h, h'⟩ | ⟨⟨c, h, h'⟩, h2⟩)
    · exact .var
    · exact .part h h'
    · exact .nested h h' fun d hd hb => h2 ⟨d, hd, hb⟩
theorem loose_iff {n : Node} : Loose ext x n ↔ (Some_ (Uses ext x) (walled n) ∧ ¬ Some_ (Binds ext x) (walled n)) ∨
    Some_ (Loose ext x) n.children := by
  constructor
  · rintro (⟨h, h', h2⟩ | ⟨h, h'⟩)
    · exact .inl ⟨⟨_, h, h'⟩, fun ⟨d, hd, hb⟩ => h2 d hd hb⟩
    · exact .inr ⟨_, h, h'⟩
  · rintro (⟨⟨c, h, h'⟩, h2⟩ | ⟨c, h, h'⟩)
    · exact .walled h h' fun d hd hb => h2 ⟨d, hd, hb⟩
    · exact .part h h'

theorem binds_at {n : Node} (h : plainNode n = true ∨ asgnNode n = true) : Binds ext x n ↔ Some_ (Binds ext x) n.children := by
  obtain ⟨h1, -, -, h2⟩ := plain_parts (ext := ext) h
  rw [binds_iff, h1, h2]; simp
theorem uses_at {n : Node} (h : plainNode n = true ∨ asgnNode n = true) : Uses ext x n ↔ Some_ (Uses ext x) n.children := by
  obtain ⟨-, -, h1, h2⟩ := plain_parts (ext := ext) h
  rw [uses_iff, h1, h2]
  have : ¬ ∃ l, n = .Lvar x l := by rintro ⟨l, rfl⟩; rcases h with h | h <;> cases h
  simp [this]
theorem loose_at {n : Node} (h : plainNode n = true ∨ asgnNode n = true) : Loose ext x n ↔ Some_ (Loose ext x) n.children := by
  obtain ⟨-, h1, -, -⟩ := plain_parts (ext := ext) h
  rw [loose_iff, h1]; simp
theorem binds_additive : Additive (Binds ext x) := fun _ h => binds_at (.inl h)
theorem uses_additive : Additive (Uses ext x) := fun _ h => uses_at (.inl h)
theorem loose_additive : Additive (Loose ext x) := fun _ h => loose_at (.inl h)
theorem binds_wide : Wide (Binds ext x) := ⟨binds_additive, fun _ h => binds_at (.inr h)⟩
theorem uses_wide : Wide (Uses ext x) := ⟨uses_additive, fun _ h => uses_at (.inr h)⟩
theorem loose_wide : Wide (Loose ext x) := ⟨loose_additive, fun _ h => loose_at (.inr h)⟩
end

/-! ### Functions that rearrange -/

/-- Partial correctness: what a result satisfies. -/
abbrev Res.Yields (r : Res α) (P : α → Prop) : Prop := Res.Safe False r P
/-- The same over the tables. -/
abbrev BldM.Yields (m : BldM α) (P : α → Prop) : Prop := BldM.Safe False m P
/-- The same for `Result<_, ()>`. -/
abbrev BldR.Yields (m : BldR α) (P : α → Prop) : Prop := BldR.Safe False m P

theorem Res.yields_error {e : Panic} {P : α → Prop} : Res.Yields (.error e) P := fun h => h.elim
theorem Res.yields_any {r : Res α} : Res.Yields r Any := by
  cases r with
  | error => exact fun h => h.elim
  | ok => trivial
theorem BldM.yields_any {r : BldM α} : BldM.Yields r Any := fun s => by
  rcases h : r s with e | p
  · exact fun h => h.elim
  · exact trivial
theorem BldR.yields_any {r : BldR α} : BldR.Yields r Any := fun s => by
  rcases h : r.run s with e | p
  · exact fun h => h.elim
  · exact fun _ _ => trivial
theorem BldM.yields_panic {e : Panic} {P : α → Prop} : BldM.Yields (panic e) P := fun _ h => h.elim
theorem BldR.yields_iff {m : BldR α} {P : α → Prop} : BldR.Yields m P ↔ ∀ s a s', m.run s = .ok (.ok a, s') → P a := by
  constructor
  · intro h s a s' e
    have := h s
    rw [e] at this
    exact this a rfl
  · intro h s
    rcases e : m.run s with p | ⟨r, s'⟩
    · exact fun h => h.elim
    · rintro a rfl
      exact h s a s' e

/-- One step whose result does not matter, or an end without a result. -/
macro "skip1" : tactic => `(tactic| first
  | exact Res.yields_error
  | exact BldM.yields_panic
  | exact BldR.safe_err
  | exact BldR.safe_lift BldM.yields_panic
  | (refine Res.safe_bind (P := Any) Res.yields_any fun _ _ => ?_)
  | (refine BldM.safe_bind (P := Any) BldM.yields_any fun _ _ => ?_)
  | (refine BldR.safe_bind (P := Any) BldR.yields_any fun _ _ => ?_))
/-- Steps, with case distinctions. -/
macro "skips" : tactic => `(tactic| repeat' first | skip1 | split)

variable {Q : Node → Prop}

/-- A plain node in terms of its parts. -/
theorem Additive.at (h : Additive Q) {n : Node} (hn : plainNode n = true) {P : Prop} (hp : Some_ Q n.children ↔ P) : Q n ↔ P :=
  (h n hn).trans hp

end Verif
