import Verif.Spec.Inside
import Verif.Lemmas.ScopeFn
import Verif.Lemmas.ScopeGrow
/-!
What a node has in it, in terms of its parts, and what the functions of the builder make of it.
-/
set_option linter.unusedSimpArgs false
namespace Verif
open Builder Grammar MethodSpec

theorem holds_iff {n : Node} : Holds n ↔ forbidden n = true ∨ Some_ Holds (parts n) := by
  constructor
  · rintro (h | ⟨h, h'⟩)
    · exact .inl h
    · exact .inr ⟨_, h, h'⟩
  · rintro (h | ⟨c, h, h'⟩)
    · exact .here h
    · exact .part h h'
theorem breaks_iff {n : Node} : Breaks n ↔ Some_ Holds (method n) ∨ Some_ Breaks n.children := by
  constructor
  · rintro (⟨h, h'⟩ | ⟨h, h'⟩)
    · exact .inl ⟨_, h, h'⟩
    · exact .inr ⟨_, h, h'⟩
  · rintro (⟨c, h, h'⟩ | ⟨c, h, h'⟩)
    · exact .method h h'
    · exact .part h h'

/-- The kinds of nodes that are neither definitions nor assignments of constants. -/
def broadNode : Node → Bool
  | .Def .. | .Defs .. | .Class .. | .Module .. | .SClass .. | .Casgn .. | .OpAsgn .. | .AndAsgn .. | .OrAsgn .. => false
  | _ => true

/-- A predicate that is about the parts of a node, for all but a few kinds of nodes. -/
structure Mono (Q : Node → Prop) : Prop where
  broad : ∀ n, broadNode n = true → (Q n ↔ Some_ Q n.children)
  casgn : ∀ {a b v c d e x w e' x'}, Q (.Casgn a b (some w) c d e' x') → Q (.Casgn a b v c d e x) ∨ Q w
  opAsgn : ∀ {r o v l x}, Q (.OpAsgn r o v l x) → Q r ∨ Q v
  andAsgn : ∀ {r v l x}, Q (.AndAsgn r v l x) → Q r ∨ Q v
  orAsgn : ∀ {r v l x}, Q (.OrAsgn r v l x) → Q r ∨ Q v

theorem holds_target {n : Node} (h : Holds (target n)) : Holds n := by
  unfold target at h
  split at h
  · exact .here rfl
  · exact h
theorem holds_mono : Mono Holds where
  broad n h := by
    rw [holds_iff]
    cases n <;> first | (cases h; done) | simp [forbidden, parts]
  casgn _ := .inl (.here rfl)
  opAsgn h := by
    rw [holds_iff] at h
    simp only [forbidden, parts, some_cons, some_nil, or_false, Bool.false_eq_true, false_or] at h
    exact h.imp_left holds_target
  andAsgn h := by
    rw [holds_iff] at h
    simp only [forbidden, parts, some_cons, some_nil, or_false, Bool.false_eq_true, false_or] at h
    exact h.imp_left holds_target
  orAsgn h := by
    rw [holds_iff] at h
    simp only [forbidden, parts, some_cons, some_nil, or_false, Bool.false_eq_true, false_or] at h
    exact h.imp_left holds_target
theorem breaks_mono : Mono Breaks where
  broad n h := by
    rw [breaks_iff]
    cases n <;> first | (cases h; done) | simp [MethodSpec.method]
  casgn h := by
    rw [breaks_iff] at h
    rw [breaks_iff]
    simp only [MethodSpec.method, Node.children, some_append, some_nil, Option.toList_some, some_cons, or_false, false_or] at h ⊢
    tauto
  opAsgn h := by
    rw [breaks_iff] at h
    simpa [MethodSpec.method, Node.children] using h
  andAsgn h := by
    rw [breaks_iff] at h
    simpa [MethodSpec.method, Node.children] using h
  orAsgn h := by
    rw [breaks_iff] at h
    simpa [MethodSpec.method, Node.children] using h

section
variable {Q : Node → Prop}

theorem Mono.add (h : Mono Q) : Additive Q := fun n hn => h.broad n (by cases n <;> first | rfl | cases hn)

/-- Rewriting with the kinds of nodes that are not plain. -/
macro "monos" h:term : tactic => `(tactic| simp only [Mono.broad $h (.Lvar _ _) rfl, Mono.broad $h (.Lvasgn _ _ _ _ _) rfl, Mono.broad $h (.Arg _ _) rfl,
  Mono.broad $h (.Optarg _ _ _ _ _) rfl, Mono.broad $h (.Kwarg _ _ _) rfl, Mono.broad $h (.Kwoptarg _ _ _ _) rfl, Mono.broad $h (.Shadowarg _ _) rfl,
  Mono.broad $h (.Restarg _ _ _ _) rfl, Mono.broad $h (.Kwrestarg _ _ _ _) rfl, Mono.broad $h (.Blockarg _ _ _ _) rfl, Mono.broad $h (.MatchVar _ _ _) rfl,
  Mono.broad $h (.MatchWithLvasgn _ _ _ _) rfl, Mono.broad $h (.Block _ _ _ _ _ _) rfl, Mono.broad $h (.Numblock _ _ _ _ _ _) rfl,
  Node.children, Atom.trees, List.flatMap_cons, List.flatMap_nil, List.append_nil, List.nil_append, List.cons_append, some_cons,
  some_nil, some_append, Option.toList_some, Option.toList_none, or_false, false_or])

/-- The functions that are not covered below. -/
def criticalFn : BFn → Bool
  | .assignable | .constOpAssignable | .defClass | .defSclass | .defModule | .defMethod | .defSingleton | .defEndless | .defEndlessSingleton => true
  | _ => false
end
end Verif
