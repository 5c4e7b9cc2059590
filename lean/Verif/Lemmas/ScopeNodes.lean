import Verif.Lemmas.ScopeFn
/-!
The kinds of nodes that bind, mention or delimit. Written by tools/scope/gen_special.py.
-/
set_option linter.unusedSimpArgs false
namespace Verif
open Builder Grammar ScopeSpec
variable {ext : BldExt} {x : Text}

theorem binds_Lvar : Binds ext x (.Lvar n l) ↔ False := by
  rw [binds_iff]; simp [ownNames, open_, Node.children, or_assoc]
theorem uses_Lvar : Uses ext x (.Lvar n l) ↔ n = x := by
  rw [uses_iff]; simp [ownNames, open_, nested, Node.children, or_assoc]
theorem loose_Lvar : Loose ext x (.Lvar n l) ↔ False := by
  rw [loose_iff]; simp [walled, Node.children, or_assoc]
theorem binds_Lvasgn : Binds ext x (.Lvasgn n v a b c) ↔ x = n ∨ Some_ (Binds ext x) v.toList := by
  rw [binds_iff]; simp [ownNames, open_, Node.children, or_assoc]
theorem uses_Lvasgn : Uses ext x (.Lvasgn n v a b c) ↔ Some_ (Uses ext x) v.toList := by
  rw [uses_iff]; simp [ownNames, open_, nested, Node.children, or_assoc]
theorem loose_Lvasgn : Loose ext x (.Lvasgn n v a b c) ↔ Some_ (Loose ext x) v.toList := by
  rw [loose_iff]; simp [walled, Node.children, or_assoc]
theorem binds_Arg : Binds ext x (.Arg n l) ↔ x = n := by
  rw [binds_iff]; simp [ownNames, open_, Node.children, or_assoc]
theorem uses_Arg : Uses ext x (.Arg n l) ↔ False := by
  rw [uses_iff]; simp [ownNames, open_, nested, Node.children, or_assoc]
theorem loose_Arg : Loose ext x (.Arg n l) ↔ False := by
  rw [loose_iff]; simp [walled, Node.children, or_assoc]
theorem binds_Optarg : Binds ext x (.Optarg n v a b c) ↔ x = n ∨ Binds ext x v := by
  rw [binds_iff]; simp [ownNames, open_, Node.children, or_assoc]
theorem uses_Optarg : Uses ext x (.Optarg n v a b c) ↔ Uses ext x v := by
  rw [uses_iff]; simp [ownNames, open_, nested, Node.children, or_assoc]
theorem loose_Optarg : Loose ext x (.Optarg n v a b c) ↔ Loose ext x v := by
  rw [loose_iff]; simp [walled, Node.children, or_assoc]
theorem binds_Kwarg : Binds ext x (.Kwarg n a b) ↔ x = n := by
  rw [binds_iff]; simp [ownNames, open_, Node.children, or_assoc]
theorem uses_Kwarg : Uses ext x (.Kwarg n a b) ↔ False := by
  rw [uses_iff]; simp [ownNames, open_, nested, Node.children, or_assoc]
theorem loose_Kwarg : Loose ext x (.Kwarg n a b) ↔ False := by
  rw [loose_iff]; simp [walled, Node.children, or_assoc]
theorem binds_Kwoptarg : Binds ext x (.Kwoptarg n v a b) ↔ x = n ∨ Binds ext x v := by
  rw [binds_iff]; simp [ownNames, open_, Node.children, or_assoc]
theorem uses_Kwoptarg : Uses ext x (.Kwoptarg n v a b) ↔ Uses ext x v := by
  rw [uses_iff]; simp [ownNames, open_, nested, Node.children, or_assoc]
theorem loose_Kwoptarg : Loose ext x (.Kwoptarg n v a b) ↔ Loose ext x v := by
  rw [loose_iff]; simp [walled, Node.children, or_assoc]
theorem binds_Shadowarg : Binds ext x (.Shadowarg n l) ↔ x = n := by
  rw [binds_iff]; simp [ownNames, open_, Node.children, or_assoc]
theorem uses_Shadowarg : Uses ext x (.Shadowarg n l) ↔ False := by
  rw [uses_iff]; simp [ownNames, open_, nested, Node.children, or_assoc]
theorem loose_Shadowarg : Loose ext x (.Shadowarg n l) ↔ False := by
  rw [loose_iff]; simp [walled, Node.children, or_assoc]
theorem binds_Restarg : Binds ext x (.Restarg n a b c) ↔ x ∈ n := by
  rw [binds_iff]; simp [ownNames, open_, Node.children, or_assoc]
theorem uses_Restarg : Uses ext x (.Restarg n a b c) ↔ False := by
  rw [uses_iff]; simp [ownNames, open_, nested, Node.children, or_assoc]
theorem loose_Restarg : Loose ext x (.Restarg n a b c) ↔ False := by
  rw [loose_iff]; simp [walled, Node.children, or_assoc]
theorem binds_Kwrestarg : Binds ext x (.Kwrestarg n a b c) ↔ x ∈ n := by
  rw [binds_iff]; simp [ownNames, open_, Node.children, or_assoc]
theorem uses_Kwrestarg : Uses ext x (.Kwrestarg n a b c) ↔ False := by
  rw [uses_iff]; simp [ownNames, open_, nested, Node.children, or_assoc]
theorem loose_Kwrestarg : Loose ext x (.Kwrestarg n a b c) ↔ False := by
  rw [loose_iff]; simp [walled, Node.children, or_assoc]
theorem binds_Blockarg : Binds ext x (.Blockarg n a b c) ↔ x ∈ n := by
  rw [binds_iff]; simp [ownNames, open_, Node.children, or_assoc]
theorem uses_Blockarg : Uses ext x (.Blockarg n a b c) ↔ False := by
  rw [uses_iff]; simp [ownNames, open_, nested, Node.children, or_assoc]
theorem loose_Blockarg : Loose ext x (.Blockarg n a b c) ↔ False := by
  rw [loose_iff]; simp [walled, Node.children, or_assoc]
theorem binds_MatchVar : Binds ext x (.MatchVar n a b) ↔ x = n := by
  rw [binds_iff]; simp [ownNames, open_, Node.children, or_assoc]
theorem uses_MatchVar : Uses ext x (.MatchVar n a b) ↔ False := by
  rw [uses_iff]; simp [ownNames, open_, nested, Node.children, or_assoc]
theorem loose_MatchVar : Loose ext x (.MatchVar n a b) ↔ False := by
  rw [loose_iff]; simp [walled, Node.children, or_assoc]
theorem binds_MatchWithLvasgn : Binds ext x (.MatchWithLvasgn v w a b) ↔ x ∈ groupNames ext v ∨ Binds ext x v ∨ Binds ext x w := by
  rw [binds_iff]; simp [ownNames, open_, Node.children, or_assoc]
theorem uses_MatchWithLvasgn : Uses ext x (.MatchWithLvasgn v w a b) ↔ Uses ext x v ∨ Uses ext x w := by
  rw [uses_iff]; simp [ownNames, open_, nested, Node.children, or_assoc]
theorem loose_MatchWithLvasgn : Loose ext x (.MatchWithLvasgn v w a b) ↔ Loose ext x v ∨ Loose ext x w := by
  rw [loose_iff]; simp [walled, Node.children, or_assoc]
theorem binds_Def : Binds ext x (.Def n v w a b c d e) ↔ False := by
  rw [binds_iff]; simp [ownNames, open_, Node.children, or_assoc]
theorem uses_Def : Uses ext x (.Def n v w a b c d e) ↔ False := by
  rw [uses_iff]; simp [ownNames, open_, nested, Node.children, or_assoc]
theorem loose_Def : Loose ext x (.Def n v w a b c d e) ↔ ((Some_ (Uses ext x) v.toList ∨ Some_ (Uses ext x) w.toList) ∧ ¬ (Some_ (Binds ext x) v.toList ∨ Some_ (Binds ext x) w.toList)) ∨ Some_ (Loose ext x) v.toList ∨ Some_ (Loose ext x) w.toList := by
  rw [loose_iff]; simp [walled, Node.children, or_assoc]
theorem binds_Defs : Binds ext x (.Defs u n v w a b c d e f) ↔ Binds ext x u := by
  rw [binds_iff]; simp [ownNames, open_, Node.children, or_assoc]
theorem uses_Defs : Uses ext x (.Defs u n v w a b c d e f) ↔ Uses ext x u := by
  rw [uses_iff]; simp [ownNames, open_, nested, Node.children, or_assoc]
theorem loose_Defs : Loose ext x (.Defs u n v w a b c d e f) ↔ ((Some_ (Uses ext x) v.toList ∨ Some_ (Uses ext x) w.toList) ∧ ¬ (Some_ (Binds ext x) v.toList ∨ Some_ (Binds ext x) w.toList)) ∨ Loose ext x u ∨ Some_ (Loose ext x) v.toList ∨ Some_ (Loose ext x) w.toList := by
  rw [loose_iff]; simp [walled, Node.children, or_assoc]
theorem binds_Class : Binds ext x (.Class u v w a b c d) ↔ Binds ext x u ∨ Some_ (Binds ext x) v.toList := by
  rw [binds_iff]; simp [ownNames, open_, Node.children, or_assoc]
theorem uses_Class : Uses ext x (.Class u v w a b c d) ↔ Uses ext x u ∨ Some_ (Uses ext x) v.toList := by
  rw [uses_iff]; simp [ownNames, open_, nested, Node.children, or_assoc]
theorem loose_Class : Loose ext x (.Class u v w a b c d) ↔ ((Some_ (Uses ext x) w.toList) ∧ ¬ (Some_ (Binds ext x) w.toList)) ∨ Loose ext x u ∨ Some_ (Loose ext x) v.toList ∨ Some_ (Loose ext x) w.toList := by
  rw [loose_iff]; simp [walled, Node.children, or_assoc]
theorem binds_Module : Binds ext x (.Module u w a b c) ↔ Binds ext x u := by
  rw [binds_iff]; simp [ownNames, open_, Node.children, or_assoc]
theorem uses_Module : Uses ext x (.Module u w a b c) ↔ Uses ext x u := by
  rw [uses_iff]; simp [ownNames, open_, nested, Node.children, or_assoc]
theorem loose_Module : Loose ext x (.Module u w a b c) ↔ ((Some_ (Uses ext x) w.toList) ∧ ¬ (Some_ (Binds ext x) w.toList)) ∨ Loose ext x u ∨ Some_ (Loose ext x) w.toList := by
  rw [loose_iff]; simp [walled, Node.children, or_assoc]
theorem binds_SClass : Binds ext x (.SClass u w a b c d) ↔ Binds ext x u := by
  rw [binds_iff]; simp [ownNames, open_, Node.children, or_assoc]
theorem uses_SClass : Uses ext x (.SClass u w a b c d) ↔ Uses ext x u := by
  rw [uses_iff]; simp [ownNames, open_, nested, Node.children, or_assoc]
theorem loose_SClass : Loose ext x (.SClass u w a b c d) ↔ ((Some_ (Uses ext x) w.toList) ∧ ¬ (Some_ (Binds ext x) w.toList)) ∨ Loose ext x u ∨ Some_ (Loose ext x) w.toList := by
  rw [loose_iff]; simp [walled, Node.children, or_assoc]
theorem binds_Block : Binds ext x (.Block u v w a b c) ↔ Binds ext x u := by
  rw [binds_iff]; simp [ownNames, open_, Node.children, or_assoc]
theorem uses_Block : Uses ext x (.Block u v w a b c) ↔ Uses ext x u ∨ ((Some_ (Uses ext x) v.toList ∨ Some_ (Uses ext x) w.toList) ∧ ¬ (Some_ (Binds ext x) v.toList ∨ Some_ (Binds ext x) w.toList)) := by
  rw [uses_iff]; simp [ownNames, open_, nested, Node.children, or_assoc]
theorem loose_Block : Loose ext x (.Block u v w a b c) ↔ Loose ext x u ∨ Some_ (Loose ext x) v.toList ∨ Some_ (Loose ext x) w.toList := by
  rw [loose_iff]; simp [walled, Node.children, or_assoc]
theorem binds_Numblock : Binds ext x (.Numblock u n w a b c) ↔ Binds ext x u := by
  rw [binds_iff]; simp [ownNames, open_, Node.children, or_assoc]
theorem uses_Numblock : Uses ext x (.Numblock u n w a b c) ↔ Uses ext x u ∨ ((Uses ext x w) ∧ ¬ (Binds ext x w)) := by
  rw [uses_iff]; simp [ownNames, open_, nested, Node.children, or_assoc]
theorem loose_Numblock : Loose ext x (.Numblock u n w a b c) ↔ Loose ext x u ∨ Loose ext x w := by
  rw [loose_iff]; simp [walled, Node.children, or_assoc]

/-- Rewriting with all of these. -/
macro "nonplain" : tactic => `(tactic| simp only [
  binds_Lvar, uses_Lvar, loose_Lvar, binds_Lvasgn, uses_Lvasgn, loose_Lvasgn, binds_Arg, uses_Arg, loose_Arg,
  binds_Optarg, uses_Optarg, loose_Optarg, binds_Kwarg, uses_Kwarg, loose_Kwarg, binds_Kwoptarg, uses_Kwoptarg,
  loose_Kwoptarg, binds_Shadowarg, uses_Shadowarg, loose_Shadowarg, binds_Restarg, uses_Restarg, loose_Restarg,
  binds_Kwrestarg, uses_Kwrestarg, loose_Kwrestarg, binds_Blockarg, uses_Blockarg, loose_Blockarg, binds_MatchVar,
  uses_MatchVar, loose_MatchVar, binds_MatchWithLvasgn, uses_MatchWithLvasgn, loose_MatchWithLvasgn, binds_Def,
  uses_Def, loose_Def, binds_Defs, uses_Defs, loose_Defs, binds_Class, uses_Class, loose_Class, binds_Module,
  uses_Module, loose_Module, binds_SClass, uses_SClass, loose_SClass, binds_Block, uses_Block, loose_Block,
  binds_Numblock, uses_Numblock, loose_Numblock])

end Verif
