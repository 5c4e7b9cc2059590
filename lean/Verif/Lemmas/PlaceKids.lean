import Verif.Lemmas.Place
import Mathlib.Tactic.Tauto
/-!
`Nested` on each constructor of `Node`, field by field (generated from the declaration of `Node`).
-/
namespace Verif

/-- A sub-node inside the expression `x`. -/
def Kid (n : Node) (x : Loc) : Prop := Nested n ∧ Loc.Within n.expression x
/-- An optional sub-node. -/
def OKid (o : Option Node) (x : Loc) : Prop := ∀ c ∈ o.toList, Kid c x
/-- A list of sub-nodes. -/
def Kids (ns : List Node) (x : Loc) : Prop := ∀ c ∈ ns, Kid c x
/-- An optional location. -/
def OLoc.In (o : Option Loc) (x : Loc) : Prop := ∀ l ∈ o.toList, Loc.Within l x

/-- The opening delimiter ends before the closing one begins. -/
def Apart : Option Loc → Option Loc → Prop
  | some b, some e => b.stop ≤ e.begin
  | _, _ => True
/-- The body of a block with numbered parameters. -/
def NumBody (n : Node) (x : Loc) : Prop := Nested n ∧ (n.isAbsent = true ∨ Loc.Within n.expression x)

macro "kids" : tactic => `(tactic| (
  simp only [OKid, Kids, OLoc.In, Kid, List.forall_mem_append, List.forall_mem_singleton, forall_and, List.not_mem_nil,
    false_implies, implies_true, true_and, and_true, forall_const]
  try tauto))

theorem nested_Alias {f0 : Node} {f1 : Node} {f2 : Loc} {x : Loc} : Nested (.Alias f0 f1 f2 x) ↔ x.begin ≤ x.stop ∧ Kid f0 x ∧ Kid f1 x ∧ Loc.Within f2 x := by
  rw [nested_iff]
  change (x.begin ≤ x.stop ∧ (∀ l ∈ ([f2] : List Loc), Loc.Within l x) ∧ (∀ c ∈ ([f0] ++ [f1] : List Node), Loc.Within c.expression x) ∧
    ∀ c ∈ ([f0] ++ [f1] : List Node), Nested c) ↔ _
  kids
theorem nested_And {f0 : Node} {f1 : Node} {f2 : Loc} {x : Loc} : Nested (.And f0 f1 f2 x) ↔ x.begin ≤ x.stop ∧ Kid f0 x ∧ Kid f1 x ∧ Loc.Within f2 x := by
  rw [nested_iff]
  change (x.begin ≤ x.stop ∧ (∀ l ∈ ([f2] : List Loc), Loc.Within l x) ∧ (∀ c ∈ ([f0] ++ [f1] : List Node), Loc.Within c.expression x) ∧
    ∀ c ∈ ([f0] ++ [f1] : List Node), Nested c) ↔ _
  kids
theorem nested_AndAsgn {f0 : Node} {f1 : Node} {f2 : Loc} {x : Loc} : Nested (.AndAsgn f0 f1 f2 x) ↔ x.begin ≤ x.stop ∧ Kid f0 x ∧ Kid f1 x ∧ Loc.Within f2 x := by
  rw [nested_iff]
  change (x.begin ≤ x.stop ∧ (∀ l ∈ ([f2] : List Loc), Loc.Within l x) ∧ (∀ c ∈ ([f0] ++ [f1] : List Node), Loc.Within c.expression x) ∧
    ∀ c ∈ ([f0] ++ [f1] : List Node), Nested c) ↔ _
  kids
theorem nested_Arg {f0 : Text} {x : Loc} : Nested (.Arg f0 x) ↔ x.begin ≤ x.stop := by
  rw [nested_iff]
  change (x.begin ≤ x.stop ∧ (∀ l ∈ ([] : List Loc), Loc.Within l x) ∧ (∀ c ∈ ([] : List Node), Loc.Within c.expression x) ∧
    ∀ c ∈ ([] : List Node), Nested c) ↔ _
  kids
theorem nested_Args {f0 : List Node} {f1 : Option Loc} {f2 : Option Loc} {x : Loc} : Nested (.Args f0 f1 f2 x) ↔ x.begin ≤ x.stop ∧ Kids f0 x ∧ OLoc.In f1 x ∧ OLoc.In f2 x := by
  rw [nested_iff]
  change (x.begin ≤ x.stop ∧ (∀ l ∈ (f1.toList ++ f2.toList : List Loc), Loc.Within l x) ∧ (∀ c ∈ (f0 : List Node), Loc.Within c.expression x) ∧
    ∀ c ∈ (f0 : List Node), Nested c) ↔ _
  kids
theorem nested_Array {f0 : List Node} {f1 : Option Loc} {f2 : Option Loc} {x : Loc} : Nested (.Array f0 f1 f2 x) ↔ x.begin ≤ x.stop ∧ Kids f0 x ∧ OLoc.In f1 x ∧ OLoc.In f2 x := by
  rw [nested_iff]
  change (x.begin ≤ x.stop ∧ (∀ l ∈ (f1.toList ++ f2.toList : List Loc), Loc.Within l x) ∧ (∀ c ∈ (f0 : List Node), Loc.Within c.expression x) ∧
    ∀ c ∈ (f0 : List Node), Nested c) ↔ _
  kids
theorem nested_ArrayPattern {f0 : List Node} {f1 : Option Loc} {f2 : Option Loc} {x : Loc} : Nested (.ArrayPattern f0 f1 f2 x) ↔ x.begin ≤ x.stop ∧ Kids f0 x ∧ OLoc.In f1 x ∧ OLoc.In f2 x := by
  rw [nested_iff]
  change (x.begin ≤ x.stop ∧ (∀ l ∈ (f1.toList ++ f2.toList : List Loc), Loc.Within l x) ∧ (∀ c ∈ (f0 : List Node), Loc.Within c.expression x) ∧
    ∀ c ∈ (f0 : List Node), Nested c) ↔ _
  kids
theorem nested_ArrayPatternWithTail {f0 : List Node} {f1 : Option Loc} {f2 : Option Loc} {x : Loc} : Nested (.ArrayPatternWithTail f0 f1 f2 x) ↔ x.begin ≤ x.stop ∧ Kids f0 x ∧ OLoc.In f1 x ∧ OLoc.In f2 x := by
  rw [nested_iff]
  change (x.begin ≤ x.stop ∧ (∀ l ∈ (f1.toList ++ f2.toList : List Loc), Loc.Within l x) ∧ (∀ c ∈ (f0 : List Node), Loc.Within c.expression x) ∧
    ∀ c ∈ (f0 : List Node), Nested c) ↔ _
  kids
theorem nested_BackRef {f0 : Text} {x : Loc} : Nested (.BackRef f0 x) ↔ x.begin ≤ x.stop := by
  rw [nested_iff]
  change (x.begin ≤ x.stop ∧ (∀ l ∈ ([] : List Loc), Loc.Within l x) ∧ (∀ c ∈ ([] : List Node), Loc.Within c.expression x) ∧
    ∀ c ∈ ([] : List Node), Nested c) ↔ _
  kids
theorem nested_Begin {f0 : List Node} {f1 : Option Loc} {f2 : Option Loc} {x : Loc} : Nested (.Begin f0 f1 f2 x) ↔ x.begin ≤ x.stop ∧ Kids f0 x ∧ OLoc.In f1 x ∧ OLoc.In f2 x := by
  rw [nested_iff]
  change (x.begin ≤ x.stop ∧ (∀ l ∈ (f1.toList ++ f2.toList : List Loc), Loc.Within l x) ∧ (∀ c ∈ (f0 : List Node), Loc.Within c.expression x) ∧
    ∀ c ∈ (f0 : List Node), Nested c) ↔ _
  kids
theorem nested_Block {f0 : Node} {f1 : Option Node} {f2 : Option Node} {f3 : Loc} {f4 : Loc} {x : Loc} : Nested (.Block f0 f1 f2 f3 f4 x) ↔ x.begin ≤ x.stop ∧ Kid f0 x ∧ OKid f1 x ∧ OKid f2 x ∧ Loc.Within f3 x ∧ Loc.Within f4 x := by
  rw [nested_iff]
  change (x.begin ≤ x.stop ∧ (∀ l ∈ ([f3] ++ [f4] : List Loc), Loc.Within l x) ∧ (∀ c ∈ ([f0] ++ f1.toList ++ f2.toList : List Node), Loc.Within c.expression x) ∧
    ∀ c ∈ ([f0] ++ f1.toList ++ f2.toList : List Node), Nested c) ↔ _
  kids
theorem nested_Blockarg {f0 : Option Text} {f1 : Loc} {f2 : Option Loc} {x : Loc} : Nested (.Blockarg f0 f1 f2 x) ↔ x.begin ≤ x.stop ∧ Loc.Within f1 x ∧ OLoc.In f2 x := by
  rw [nested_iff]
  change (x.begin ≤ x.stop ∧ (∀ l ∈ ([f1] ++ f2.toList : List Loc), Loc.Within l x) ∧ (∀ c ∈ ([] : List Node), Loc.Within c.expression x) ∧
    ∀ c ∈ ([] : List Node), Nested c) ↔ _
  kids
theorem nested_BlockPass {f0 : Option Node} {f1 : Loc} {x : Loc} : Nested (.BlockPass f0 f1 x) ↔ x.begin ≤ x.stop ∧ OKid f0 x ∧ Loc.Within f1 x := by
  rw [nested_iff]
  change (x.begin ≤ x.stop ∧ (∀ l ∈ ([f1] : List Loc), Loc.Within l x) ∧ (∀ c ∈ (f0.toList : List Node), Loc.Within c.expression x) ∧
    ∀ c ∈ (f0.toList : List Node), Nested c) ↔ _
  kids
theorem nested_Break {f0 : List Node} {f1 : Loc} {x : Loc} : Nested (.Break f0 f1 x) ↔ x.begin ≤ x.stop ∧ Kids f0 x ∧ Loc.Within f1 x := by
  rw [nested_iff]
  change (x.begin ≤ x.stop ∧ (∀ l ∈ ([f1] : List Loc), Loc.Within l x) ∧ (∀ c ∈ (f0 : List Node), Loc.Within c.expression x) ∧
    ∀ c ∈ (f0 : List Node), Nested c) ↔ _
  kids
theorem nested_Case {f0 : Option Node} {f1 : List Node} {f2 : Option Node} {f3 : Loc} {f4 : Option Loc} {f5 : Loc} {x : Loc} : Nested (.Case f0 f1 f2 f3 f4 f5 x) ↔ x.begin ≤ x.stop ∧ OKid f0 x ∧ Kids f1 x ∧ OKid f2 x ∧ Loc.Within f3 x ∧ OLoc.In f4 x ∧ Loc.Within f5 x := by
  rw [nested_iff]
  change (x.begin ≤ x.stop ∧ (∀ l ∈ ([f3] ++ f4.toList ++ [f5] : List Loc), Loc.Within l x) ∧ (∀ c ∈ (f0.toList ++ f1 ++ f2.toList : List Node), Loc.Within c.expression x) ∧
    ∀ c ∈ (f0.toList ++ f1 ++ f2.toList : List Node), Nested c) ↔ _
  kids
theorem nested_CaseMatch {f0 : Node} {f1 : List Node} {f2 : Option Node} {f3 : Loc} {f4 : Option Loc} {f5 : Loc} {x : Loc} : Nested (.CaseMatch f0 f1 f2 f3 f4 f5 x) ↔ x.begin ≤ x.stop ∧ Kid f0 x ∧ Kids f1 x ∧ OKid f2 x ∧ Loc.Within f3 x ∧ OLoc.In f4 x ∧ Loc.Within f5 x := by
  rw [nested_iff]
  change (x.begin ≤ x.stop ∧ (∀ l ∈ ([f3] ++ f4.toList ++ [f5] : List Loc), Loc.Within l x) ∧ (∀ c ∈ ([f0] ++ f1 ++ f2.toList : List Node), Loc.Within c.expression x) ∧
    ∀ c ∈ ([f0] ++ f1 ++ f2.toList : List Node), Nested c) ↔ _
  kids
theorem nested_Casgn {f0 : Option Node} {f1 : Text} {f2 : Option Node} {f3 : Option Loc} {f4 : Loc} {f5 : Option Loc} {x : Loc} : Nested (.Casgn f0 f1 f2 f3 f4 f5 x) ↔ x.begin ≤ x.stop ∧ OKid f0 x ∧ OKid f2 x ∧ OLoc.In f3 x ∧ Loc.Within f4 x ∧ OLoc.In f5 x := by
  rw [nested_iff]
  change (x.begin ≤ x.stop ∧ (∀ l ∈ (f3.toList ++ [f4] ++ f5.toList : List Loc), Loc.Within l x) ∧ (∀ c ∈ (f0.toList ++ f2.toList : List Node), Loc.Within c.expression x) ∧
    ∀ c ∈ (f0.toList ++ f2.toList : List Node), Nested c) ↔ _
  kids
theorem nested_Cbase {x : Loc} : Nested (.Cbase x) ↔ x.begin ≤ x.stop := by
  rw [nested_iff]
  change (x.begin ≤ x.stop ∧ (∀ l ∈ ([] : List Loc), Loc.Within l x) ∧ (∀ c ∈ ([] : List Node), Loc.Within c.expression x) ∧
    ∀ c ∈ ([] : List Node), Nested c) ↔ _
  kids
theorem nested_Class {f0 : Node} {f1 : Option Node} {f2 : Option Node} {f3 : Loc} {f4 : Option Loc} {f5 : Loc} {x : Loc} : Nested (.Class f0 f1 f2 f3 f4 f5 x) ↔ x.begin ≤ x.stop ∧ Kid f0 x ∧ OKid f1 x ∧ OKid f2 x ∧ Loc.Within f3 x ∧ OLoc.In f4 x ∧ Loc.Within f5 x := by
  rw [nested_iff]
  change (x.begin ≤ x.stop ∧ (∀ l ∈ ([f3] ++ f4.toList ++ [f5] : List Loc), Loc.Within l x) ∧ (∀ c ∈ ([f0] ++ f1.toList ++ f2.toList : List Node), Loc.Within c.expression x) ∧
    ∀ c ∈ ([f0] ++ f1.toList ++ f2.toList : List Node), Nested c) ↔ _
  kids
theorem nested_Complex {f0 : Text} {f1 : Option Loc} {x : Loc} : Nested (.Complex f0 f1 x) ↔ x.begin ≤ x.stop ∧ OLoc.In f1 x := by
  rw [nested_iff]
  change (x.begin ≤ x.stop ∧ (∀ l ∈ (f1.toList : List Loc), Loc.Within l x) ∧ (∀ c ∈ ([] : List Node), Loc.Within c.expression x) ∧
    ∀ c ∈ ([] : List Node), Nested c) ↔ _
  kids
theorem nested_Const {f0 : Option Node} {f1 : Text} {f2 : Option Loc} {f3 : Loc} {x : Loc} : Nested (.Const f0 f1 f2 f3 x) ↔ x.begin ≤ x.stop ∧ OKid f0 x ∧ OLoc.In f2 x ∧ Loc.Within f3 x := by
  rw [nested_iff]
  change (x.begin ≤ x.stop ∧ (∀ l ∈ (f2.toList ++ [f3] : List Loc), Loc.Within l x) ∧ (∀ c ∈ (f0.toList : List Node), Loc.Within c.expression x) ∧
    ∀ c ∈ (f0.toList : List Node), Nested c) ↔ _
  kids
theorem nested_ConstPattern {f0 : Node} {f1 : Node} {f2 : Loc} {f3 : Loc} {x : Loc} : Nested (.ConstPattern f0 f1 f2 f3 x) ↔ x.begin ≤ x.stop ∧ Kid f0 x ∧ Kid f1 x ∧ Loc.Within f2 x ∧ Loc.Within f3 x := by
  rw [nested_iff]
  change (x.begin ≤ x.stop ∧ (∀ l ∈ ([f2] ++ [f3] : List Loc), Loc.Within l x) ∧ (∀ c ∈ ([f0] ++ [f1] : List Node), Loc.Within c.expression x) ∧
    ∀ c ∈ ([f0] ++ [f1] : List Node), Nested c) ↔ _
  kids
theorem nested_CSend {f0 : Node} {f1 : Text} {f2 : List Node} {f3 : Loc} {f4 : Option Loc} {f5 : Option Loc} {f6 : Option Loc} {f7 : Option Loc} {x : Loc} : Nested (.CSend f0 f1 f2 f3 f4 f5 f6 f7 x) ↔ x.begin ≤ x.stop ∧ Kid f0 x ∧ Kids f2 x ∧ Loc.Within f3 x ∧ OLoc.In f4 x ∧ OLoc.In f5 x ∧ OLoc.In f6 x ∧ OLoc.In f7 x := by
  rw [nested_iff]
  change (x.begin ≤ x.stop ∧ (∀ l ∈ ([f3] ++ f4.toList ++ f5.toList ++ f6.toList ++ f7.toList : List Loc), Loc.Within l x) ∧ (∀ c ∈ ([f0] ++ f2 : List Node), Loc.Within c.expression x) ∧
    ∀ c ∈ ([f0] ++ f2 : List Node), Nested c) ↔ _
  kids
theorem nested_Cvar {f0 : Text} {x : Loc} : Nested (.Cvar f0 x) ↔ x.begin ≤ x.stop := by
  rw [nested_iff]
  change (x.begin ≤ x.stop ∧ (∀ l ∈ ([] : List Loc), Loc.Within l x) ∧ (∀ c ∈ ([] : List Node), Loc.Within c.expression x) ∧
    ∀ c ∈ ([] : List Node), Nested c) ↔ _
  kids
theorem nested_Cvasgn {f0 : Text} {f1 : Option Node} {f2 : Loc} {f3 : Option Loc} {x : Loc} : Nested (.Cvasgn f0 f1 f2 f3 x) ↔ x.begin ≤ x.stop ∧ OKid f1 x ∧ Loc.Within f2 x ∧ OLoc.In f3 x := by
  rw [nested_iff]
  change (x.begin ≤ x.stop ∧ (∀ l ∈ ([f2] ++ f3.toList : List Loc), Loc.Within l x) ∧ (∀ c ∈ (f1.toList : List Node), Loc.Within c.expression x) ∧
    ∀ c ∈ (f1.toList : List Node), Nested c) ↔ _
  kids
theorem nested_Def {f0 : Text} {f1 : Option Node} {f2 : Option Node} {f3 : Loc} {f4 : Loc} {f5 : Option Loc} {f6 : Option Loc} {x : Loc} : Nested (.Def f0 f1 f2 f3 f4 f5 f6 x) ↔ x.begin ≤ x.stop ∧ OKid f1 x ∧ OKid f2 x ∧ Loc.Within f3 x ∧ Loc.Within f4 x ∧ OLoc.In f5 x ∧ OLoc.In f6 x := by
  rw [nested_iff]
  change (x.begin ≤ x.stop ∧ (∀ l ∈ ([f3] ++ [f4] ++ f5.toList ++ f6.toList : List Loc), Loc.Within l x) ∧ (∀ c ∈ (f1.toList ++ f2.toList : List Node), Loc.Within c.expression x) ∧
    ∀ c ∈ (f1.toList ++ f2.toList : List Node), Nested c) ↔ _
  kids
theorem nested_Defined {f0 : Node} {f1 : Loc} {f2 : Option Loc} {f3 : Option Loc} {x : Loc} : Nested (.Defined f0 f1 f2 f3 x) ↔ x.begin ≤ x.stop ∧ Kid f0 x ∧ Loc.Within f1 x ∧ OLoc.In f2 x ∧ OLoc.In f3 x := by
  rw [nested_iff]
  change (x.begin ≤ x.stop ∧ (∀ l ∈ ([f1] ++ f2.toList ++ f3.toList : List Loc), Loc.Within l x) ∧ (∀ c ∈ ([f0] : List Node), Loc.Within c.expression x) ∧
    ∀ c ∈ ([f0] : List Node), Nested c) ↔ _
  kids
theorem nested_Defs {f0 : Node} {f1 : Text} {f2 : Option Node} {f3 : Option Node} {f4 : Loc} {f5 : Loc} {f6 : Loc} {f7 : Option Loc} {f8 : Option Loc} {x : Loc} : Nested (.Defs f0 f1 f2 f3 f4 f5 f6 f7 f8 x) ↔ x.begin ≤ x.stop ∧ Kid f0 x ∧ OKid f2 x ∧ OKid f3 x ∧ Loc.Within f4 x ∧ Loc.Within f5 x ∧ Loc.Within f6 x ∧ OLoc.In f7 x ∧ OLoc.In f8 x := by
  rw [nested_iff]
  change (x.begin ≤ x.stop ∧ (∀ l ∈ ([f4] ++ [f5] ++ [f6] ++ f7.toList ++ f8.toList : List Loc), Loc.Within l x) ∧ (∀ c ∈ ([f0] ++ f2.toList ++ f3.toList : List Node), Loc.Within c.expression x) ∧
    ∀ c ∈ ([f0] ++ f2.toList ++ f3.toList : List Node), Nested c) ↔ _
  kids
theorem nested_Dstr {f0 : List Node} {f1 : Option Loc} {f2 : Option Loc} {x : Loc} : Nested (.Dstr f0 f1 f2 x) ↔ x.begin ≤ x.stop ∧ Kids f0 x ∧ OLoc.In f1 x ∧ OLoc.In f2 x := by
  rw [nested_iff]
  change (x.begin ≤ x.stop ∧ (∀ l ∈ (f1.toList ++ f2.toList : List Loc), Loc.Within l x) ∧ (∀ c ∈ (f0 : List Node), Loc.Within c.expression x) ∧
    ∀ c ∈ (f0 : List Node), Nested c) ↔ _
  kids
theorem nested_Dsym {f0 : List Node} {f1 : Option Loc} {f2 : Option Loc} {x : Loc} : Nested (.Dsym f0 f1 f2 x) ↔ x.begin ≤ x.stop ∧ Kids f0 x ∧ OLoc.In f1 x ∧ OLoc.In f2 x := by
  rw [nested_iff]
  change (x.begin ≤ x.stop ∧ (∀ l ∈ (f1.toList ++ f2.toList : List Loc), Loc.Within l x) ∧ (∀ c ∈ (f0 : List Node), Loc.Within c.expression x) ∧
    ∀ c ∈ (f0 : List Node), Nested c) ↔ _
  kids
theorem nested_EFlipFlop {f0 : Option Node} {f1 : Option Node} {f2 : Loc} {x : Loc} : Nested (.EFlipFlop f0 f1 f2 x) ↔ x.begin ≤ x.stop ∧ OKid f0 x ∧ OKid f1 x ∧ Loc.Within f2 x := by
  rw [nested_iff]
  change (x.begin ≤ x.stop ∧ (∀ l ∈ ([f2] : List Loc), Loc.Within l x) ∧ (∀ c ∈ (f0.toList ++ f1.toList : List Node), Loc.Within c.expression x) ∧
    ∀ c ∈ (f0.toList ++ f1.toList : List Node), Nested c) ↔ _
  kids
theorem nested_EmptyElse {x : Loc} : Nested (.EmptyElse x) ↔ x.begin ≤ x.stop := by
  rw [nested_iff]
  change (x.begin ≤ x.stop ∧ (∀ l ∈ ([] : List Loc), Loc.Within l x) ∧ (∀ c ∈ ([] : List Node), Loc.Within c.expression x) ∧
    ∀ c ∈ ([] : List Node), Nested c) ↔ _
  kids
theorem nested_Encoding {x : Loc} : Nested (.Encoding x) ↔ x.begin ≤ x.stop := by
  rw [nested_iff]
  change (x.begin ≤ x.stop ∧ (∀ l ∈ ([] : List Loc), Loc.Within l x) ∧ (∀ c ∈ ([] : List Node), Loc.Within c.expression x) ∧
    ∀ c ∈ ([] : List Node), Nested c) ↔ _
  kids
theorem nested_Ensure {f0 : Option Node} {f1 : Option Node} {f2 : Loc} {x : Loc} : Nested (.Ensure f0 f1 f2 x) ↔ x.begin ≤ x.stop ∧ OKid f0 x ∧ OKid f1 x ∧ Loc.Within f2 x := by
  rw [nested_iff]
  change (x.begin ≤ x.stop ∧ (∀ l ∈ ([f2] : List Loc), Loc.Within l x) ∧ (∀ c ∈ (f0.toList ++ f1.toList : List Node), Loc.Within c.expression x) ∧
    ∀ c ∈ (f0.toList ++ f1.toList : List Node), Nested c) ↔ _
  kids
theorem nested_Erange {f0 : Option Node} {f1 : Option Node} {f2 : Loc} {x : Loc} : Nested (.Erange f0 f1 f2 x) ↔ x.begin ≤ x.stop ∧ OKid f0 x ∧ OKid f1 x ∧ Loc.Within f2 x := by
  rw [nested_iff]
  change (x.begin ≤ x.stop ∧ (∀ l ∈ ([f2] : List Loc), Loc.Within l x) ∧ (∀ c ∈ (f0.toList ++ f1.toList : List Node), Loc.Within c.expression x) ∧
    ∀ c ∈ (f0.toList ++ f1.toList : List Node), Nested c) ↔ _
  kids
theorem nested_False {x : Loc} : Nested (.False x) ↔ x.begin ≤ x.stop := by
  rw [nested_iff]
  change (x.begin ≤ x.stop ∧ (∀ l ∈ ([] : List Loc), Loc.Within l x) ∧ (∀ c ∈ ([] : List Node), Loc.Within c.expression x) ∧
    ∀ c ∈ ([] : List Node), Nested c) ↔ _
  kids
theorem nested_File {x : Loc} : Nested (.File x) ↔ x.begin ≤ x.stop := by
  rw [nested_iff]
  change (x.begin ≤ x.stop ∧ (∀ l ∈ ([] : List Loc), Loc.Within l x) ∧ (∀ c ∈ ([] : List Node), Loc.Within c.expression x) ∧
    ∀ c ∈ ([] : List Node), Nested c) ↔ _
  kids
theorem nested_FindPattern {f0 : List Node} {f1 : Option Loc} {f2 : Option Loc} {x : Loc} : Nested (.FindPattern f0 f1 f2 x) ↔ x.begin ≤ x.stop ∧ Kids f0 x ∧ OLoc.In f1 x ∧ OLoc.In f2 x := by
  rw [nested_iff]
  change (x.begin ≤ x.stop ∧ (∀ l ∈ (f1.toList ++ f2.toList : List Loc), Loc.Within l x) ∧ (∀ c ∈ (f0 : List Node), Loc.Within c.expression x) ∧
    ∀ c ∈ (f0 : List Node), Nested c) ↔ _
  kids
theorem nested_Float {f0 : Text} {f1 : Option Loc} {x : Loc} : Nested (.Float f0 f1 x) ↔ x.begin ≤ x.stop ∧ OLoc.In f1 x := by
  rw [nested_iff]
  change (x.begin ≤ x.stop ∧ (∀ l ∈ (f1.toList : List Loc), Loc.Within l x) ∧ (∀ c ∈ ([] : List Node), Loc.Within c.expression x) ∧
    ∀ c ∈ ([] : List Node), Nested c) ↔ _
  kids
theorem nested_For {f0 : Node} {f1 : Node} {f2 : Option Node} {f3 : Loc} {f4 : Loc} {f5 : Loc} {f6 : Loc} {x : Loc} : Nested (.For f0 f1 f2 f3 f4 f5 f6 x) ↔ x.begin ≤ x.stop ∧ Kid f0 x ∧ Kid f1 x ∧ OKid f2 x ∧ Loc.Within f3 x ∧ Loc.Within f4 x ∧ Loc.Within f5 x ∧ Loc.Within f6 x := by
  rw [nested_iff]
  change (x.begin ≤ x.stop ∧ (∀ l ∈ ([f3] ++ [f4] ++ [f5] ++ [f6] : List Loc), Loc.Within l x) ∧ (∀ c ∈ ([f0] ++ [f1] ++ f2.toList : List Node), Loc.Within c.expression x) ∧
    ∀ c ∈ ([f0] ++ [f1] ++ f2.toList : List Node), Nested c) ↔ _
  kids
theorem nested_ForwardArg {x : Loc} : Nested (.ForwardArg x) ↔ x.begin ≤ x.stop := by
  rw [nested_iff]
  change (x.begin ≤ x.stop ∧ (∀ l ∈ ([] : List Loc), Loc.Within l x) ∧ (∀ c ∈ ([] : List Node), Loc.Within c.expression x) ∧
    ∀ c ∈ ([] : List Node), Nested c) ↔ _
  kids
theorem nested_ForwardedArgs {x : Loc} : Nested (.ForwardedArgs x) ↔ x.begin ≤ x.stop := by
  rw [nested_iff]
  change (x.begin ≤ x.stop ∧ (∀ l ∈ ([] : List Loc), Loc.Within l x) ∧ (∀ c ∈ ([] : List Node), Loc.Within c.expression x) ∧
    ∀ c ∈ ([] : List Node), Nested c) ↔ _
  kids
theorem nested_Gvar {f0 : Text} {x : Loc} : Nested (.Gvar f0 x) ↔ x.begin ≤ x.stop := by
  rw [nested_iff]
  change (x.begin ≤ x.stop ∧ (∀ l ∈ ([] : List Loc), Loc.Within l x) ∧ (∀ c ∈ ([] : List Node), Loc.Within c.expression x) ∧
    ∀ c ∈ ([] : List Node), Nested c) ↔ _
  kids
theorem nested_Gvasgn {f0 : Text} {f1 : Option Node} {f2 : Loc} {f3 : Option Loc} {x : Loc} : Nested (.Gvasgn f0 f1 f2 f3 x) ↔ x.begin ≤ x.stop ∧ OKid f1 x ∧ Loc.Within f2 x ∧ OLoc.In f3 x := by
  rw [nested_iff]
  change (x.begin ≤ x.stop ∧ (∀ l ∈ ([f2] ++ f3.toList : List Loc), Loc.Within l x) ∧ (∀ c ∈ (f1.toList : List Node), Loc.Within c.expression x) ∧
    ∀ c ∈ (f1.toList : List Node), Nested c) ↔ _
  kids
theorem nested_Hash {f0 : List Node} {f1 : Option Loc} {f2 : Option Loc} {x : Loc} : Nested (.Hash f0 f1 f2 x) ↔ x.begin ≤ x.stop ∧ Kids f0 x ∧ OLoc.In f1 x ∧ OLoc.In f2 x := by
  rw [nested_iff]
  change (x.begin ≤ x.stop ∧ (∀ l ∈ (f1.toList ++ f2.toList : List Loc), Loc.Within l x) ∧ (∀ c ∈ (f0 : List Node), Loc.Within c.expression x) ∧
    ∀ c ∈ (f0 : List Node), Nested c) ↔ _
  kids
theorem nested_HashPattern {f0 : List Node} {f1 : Option Loc} {f2 : Option Loc} {x : Loc} : Nested (.HashPattern f0 f1 f2 x) ↔ x.begin ≤ x.stop ∧ Kids f0 x ∧ OLoc.In f1 x ∧ OLoc.In f2 x := by
  rw [nested_iff]
  change (x.begin ≤ x.stop ∧ (∀ l ∈ (f1.toList ++ f2.toList : List Loc), Loc.Within l x) ∧ (∀ c ∈ (f0 : List Node), Loc.Within c.expression x) ∧
    ∀ c ∈ (f0 : List Node), Nested c) ↔ _
  kids
theorem nested_If {f0 : Node} {f1 : Option Node} {f2 : Option Node} {f3 : Loc} {f4 : Loc} {f5 : Option Loc} {f6 : Option Loc} {x : Loc} : Nested (.If f0 f1 f2 f3 f4 f5 f6 x) ↔ x.begin ≤ x.stop ∧ Kid f0 x ∧ OKid f1 x ∧ OKid f2 x ∧ Loc.Within f3 x ∧ Loc.Within f4 x ∧ OLoc.In f5 x ∧ OLoc.In f6 x := by
  rw [nested_iff]
  change (x.begin ≤ x.stop ∧ (∀ l ∈ ([f3] ++ [f4] ++ f5.toList ++ f6.toList : List Loc), Loc.Within l x) ∧ (∀ c ∈ ([f0] ++ f1.toList ++ f2.toList : List Node), Loc.Within c.expression x) ∧
    ∀ c ∈ ([f0] ++ f1.toList ++ f2.toList : List Node), Nested c) ↔ _
  kids
theorem nested_IfGuard {f0 : Node} {f1 : Loc} {x : Loc} : Nested (.IfGuard f0 f1 x) ↔ x.begin ≤ x.stop ∧ Kid f0 x ∧ Loc.Within f1 x := by
  rw [nested_iff]
  change (x.begin ≤ x.stop ∧ (∀ l ∈ ([f1] : List Loc), Loc.Within l x) ∧ (∀ c ∈ ([f0] : List Node), Loc.Within c.expression x) ∧
    ∀ c ∈ ([f0] : List Node), Nested c) ↔ _
  kids
theorem nested_IfMod {f0 : Node} {f1 : Option Node} {f2 : Option Node} {f3 : Loc} {x : Loc} : Nested (.IfMod f0 f1 f2 f3 x) ↔ x.begin ≤ x.stop ∧ Kid f0 x ∧ OKid f1 x ∧ OKid f2 x ∧ Loc.Within f3 x := by
  rw [nested_iff]
  change (x.begin ≤ x.stop ∧ (∀ l ∈ ([f3] : List Loc), Loc.Within l x) ∧ (∀ c ∈ ([f0] ++ f1.toList ++ f2.toList : List Node), Loc.Within c.expression x) ∧
    ∀ c ∈ ([f0] ++ f1.toList ++ f2.toList : List Node), Nested c) ↔ _
  kids
theorem nested_IfTernary {f0 : Node} {f1 : Node} {f2 : Node} {f3 : Loc} {f4 : Loc} {x : Loc} : Nested (.IfTernary f0 f1 f2 f3 f4 x) ↔ x.begin ≤ x.stop ∧ Kid f0 x ∧ Kid f1 x ∧ Kid f2 x ∧ Loc.Within f3 x ∧ Loc.Within f4 x := by
  rw [nested_iff]
  change (x.begin ≤ x.stop ∧ (∀ l ∈ ([f3] ++ [f4] : List Loc), Loc.Within l x) ∧ (∀ c ∈ ([f0] ++ [f1] ++ [f2] : List Node), Loc.Within c.expression x) ∧
    ∀ c ∈ ([f0] ++ [f1] ++ [f2] : List Node), Nested c) ↔ _
  kids
theorem nested_IFlipFlop {f0 : Option Node} {f1 : Option Node} {f2 : Loc} {x : Loc} : Nested (.IFlipFlop f0 f1 f2 x) ↔ x.begin ≤ x.stop ∧ OKid f0 x ∧ OKid f1 x ∧ Loc.Within f2 x := by
  rw [nested_iff]
  change (x.begin ≤ x.stop ∧ (∀ l ∈ ([f2] : List Loc), Loc.Within l x) ∧ (∀ c ∈ (f0.toList ++ f1.toList : List Node), Loc.Within c.expression x) ∧
    ∀ c ∈ (f0.toList ++ f1.toList : List Node), Nested c) ↔ _
  kids
theorem nested_Index {f0 : Node} {f1 : List Node} {f2 : Loc} {f3 : Loc} {x : Loc} : Nested (.Index f0 f1 f2 f3 x) ↔ x.begin ≤ x.stop ∧ Kid f0 x ∧ Kids f1 x ∧ Loc.Within f2 x ∧ Loc.Within f3 x := by
  rw [nested_iff]
  change (x.begin ≤ x.stop ∧ (∀ l ∈ ([f2] ++ [f3] : List Loc), Loc.Within l x) ∧ (∀ c ∈ ([f0] ++ f1 : List Node), Loc.Within c.expression x) ∧
    ∀ c ∈ ([f0] ++ f1 : List Node), Nested c) ↔ _
  kids
theorem nested_IndexAsgn {f0 : Node} {f1 : List Node} {f2 : Option Node} {f3 : Loc} {f4 : Loc} {f5 : Option Loc} {x : Loc} : Nested (.IndexAsgn f0 f1 f2 f3 f4 f5 x) ↔ x.begin ≤ x.stop ∧ Kid f0 x ∧ Kids f1 x ∧ OKid f2 x ∧ Loc.Within f3 x ∧ Loc.Within f4 x ∧ OLoc.In f5 x := by
  rw [nested_iff]
  change (x.begin ≤ x.stop ∧ (∀ l ∈ ([f3] ++ [f4] ++ f5.toList : List Loc), Loc.Within l x) ∧ (∀ c ∈ ([f0] ++ f1 ++ f2.toList : List Node), Loc.Within c.expression x) ∧
    ∀ c ∈ ([f0] ++ f1 ++ f2.toList : List Node), Nested c) ↔ _
  kids
theorem nested_Int {f0 : Text} {f1 : Option Loc} {x : Loc} : Nested (.Int f0 f1 x) ↔ x.begin ≤ x.stop ∧ OLoc.In f1 x := by
  rw [nested_iff]
  change (x.begin ≤ x.stop ∧ (∀ l ∈ (f1.toList : List Loc), Loc.Within l x) ∧ (∀ c ∈ ([] : List Node), Loc.Within c.expression x) ∧
    ∀ c ∈ ([] : List Node), Nested c) ↔ _
  kids
theorem nested_Irange {f0 : Option Node} {f1 : Option Node} {f2 : Loc} {x : Loc} : Nested (.Irange f0 f1 f2 x) ↔ x.begin ≤ x.stop ∧ OKid f0 x ∧ OKid f1 x ∧ Loc.Within f2 x := by
  rw [nested_iff]
  change (x.begin ≤ x.stop ∧ (∀ l ∈ ([f2] : List Loc), Loc.Within l x) ∧ (∀ c ∈ (f0.toList ++ f1.toList : List Node), Loc.Within c.expression x) ∧
    ∀ c ∈ (f0.toList ++ f1.toList : List Node), Nested c) ↔ _
  kids
theorem nested_Ivar {f0 : Text} {x : Loc} : Nested (.Ivar f0 x) ↔ x.begin ≤ x.stop := by
  rw [nested_iff]
  change (x.begin ≤ x.stop ∧ (∀ l ∈ ([] : List Loc), Loc.Within l x) ∧ (∀ c ∈ ([] : List Node), Loc.Within c.expression x) ∧
    ∀ c ∈ ([] : List Node), Nested c) ↔ _
  kids
theorem nested_Ivasgn {f0 : Text} {f1 : Option Node} {f2 : Loc} {f3 : Option Loc} {x : Loc} : Nested (.Ivasgn f0 f1 f2 f3 x) ↔ x.begin ≤ x.stop ∧ OKid f1 x ∧ Loc.Within f2 x ∧ OLoc.In f3 x := by
  rw [nested_iff]
  change (x.begin ≤ x.stop ∧ (∀ l ∈ ([f2] ++ f3.toList : List Loc), Loc.Within l x) ∧ (∀ c ∈ (f1.toList : List Node), Loc.Within c.expression x) ∧
    ∀ c ∈ (f1.toList : List Node), Nested c) ↔ _
  kids
theorem nested_Kwarg {f0 : Text} {f1 : Loc} {x : Loc} : Nested (.Kwarg f0 f1 x) ↔ x.begin ≤ x.stop ∧ Loc.Within f1 x := by
  rw [nested_iff]
  change (x.begin ≤ x.stop ∧ (∀ l ∈ ([f1] : List Loc), Loc.Within l x) ∧ (∀ c ∈ ([] : List Node), Loc.Within c.expression x) ∧
    ∀ c ∈ ([] : List Node), Nested c) ↔ _
  kids
theorem nested_Kwargs {f0 : List Node} {x : Loc} : Nested (.Kwargs f0 x) ↔ x.begin ≤ x.stop ∧ Kids f0 x := by
  rw [nested_iff]
  change (x.begin ≤ x.stop ∧ (∀ l ∈ ([] : List Loc), Loc.Within l x) ∧ (∀ c ∈ (f0 : List Node), Loc.Within c.expression x) ∧
    ∀ c ∈ (f0 : List Node), Nested c) ↔ _
  kids
theorem nested_KwBegin {f0 : List Node} {f1 : Option Loc} {f2 : Option Loc} {x : Loc} : Nested (.KwBegin f0 f1 f2 x) ↔ x.begin ≤ x.stop ∧ Kids f0 x ∧ OLoc.In f1 x ∧ OLoc.In f2 x := by
  rw [nested_iff]
  change (x.begin ≤ x.stop ∧ (∀ l ∈ (f1.toList ++ f2.toList : List Loc), Loc.Within l x) ∧ (∀ c ∈ (f0 : List Node), Loc.Within c.expression x) ∧
    ∀ c ∈ (f0 : List Node), Nested c) ↔ _
  kids
theorem nested_Kwnilarg {f0 : Loc} {x : Loc} : Nested (.Kwnilarg f0 x) ↔ x.begin ≤ x.stop ∧ Loc.Within f0 x := by
  rw [nested_iff]
  change (x.begin ≤ x.stop ∧ (∀ l ∈ ([f0] : List Loc), Loc.Within l x) ∧ (∀ c ∈ ([] : List Node), Loc.Within c.expression x) ∧
    ∀ c ∈ ([] : List Node), Nested c) ↔ _
  kids
theorem nested_Kwoptarg {f0 : Text} {f1 : Node} {f2 : Loc} {x : Loc} : Nested (.Kwoptarg f0 f1 f2 x) ↔ x.begin ≤ x.stop ∧ Kid f1 x ∧ Loc.Within f2 x := by
  rw [nested_iff]
  change (x.begin ≤ x.stop ∧ (∀ l ∈ ([f2] : List Loc), Loc.Within l x) ∧ (∀ c ∈ ([f1] : List Node), Loc.Within c.expression x) ∧
    ∀ c ∈ ([f1] : List Node), Nested c) ↔ _
  kids
theorem nested_Kwrestarg {f0 : Option Text} {f1 : Loc} {f2 : Option Loc} {x : Loc} : Nested (.Kwrestarg f0 f1 f2 x) ↔ x.begin ≤ x.stop ∧ Loc.Within f1 x ∧ OLoc.In f2 x := by
  rw [nested_iff]
  change (x.begin ≤ x.stop ∧ (∀ l ∈ ([f1] ++ f2.toList : List Loc), Loc.Within l x) ∧ (∀ c ∈ ([] : List Node), Loc.Within c.expression x) ∧
    ∀ c ∈ ([] : List Node), Nested c) ↔ _
  kids
theorem nested_Kwsplat {f0 : Node} {f1 : Loc} {x : Loc} : Nested (.Kwsplat f0 f1 x) ↔ x.begin ≤ x.stop ∧ Kid f0 x ∧ Loc.Within f1 x := by
  rw [nested_iff]
  change (x.begin ≤ x.stop ∧ (∀ l ∈ ([f1] : List Loc), Loc.Within l x) ∧ (∀ c ∈ ([f0] : List Node), Loc.Within c.expression x) ∧
    ∀ c ∈ ([f0] : List Node), Nested c) ↔ _
  kids
theorem nested_Lambda {x : Loc} : Nested (.Lambda x) ↔ x.begin ≤ x.stop := by
  rw [nested_iff]
  change (x.begin ≤ x.stop ∧ (∀ l ∈ ([] : List Loc), Loc.Within l x) ∧ (∀ c ∈ ([] : List Node), Loc.Within c.expression x) ∧
    ∀ c ∈ ([] : List Node), Nested c) ↔ _
  kids
theorem nested_Line {x : Loc} : Nested (.Line x) ↔ x.begin ≤ x.stop := by
  rw [nested_iff]
  change (x.begin ≤ x.stop ∧ (∀ l ∈ ([] : List Loc), Loc.Within l x) ∧ (∀ c ∈ ([] : List Node), Loc.Within c.expression x) ∧
    ∀ c ∈ ([] : List Node), Nested c) ↔ _
  kids
theorem nested_Lvar {f0 : Text} {x : Loc} : Nested (.Lvar f0 x) ↔ x.begin ≤ x.stop := by
  rw [nested_iff]
  change (x.begin ≤ x.stop ∧ (∀ l ∈ ([] : List Loc), Loc.Within l x) ∧ (∀ c ∈ ([] : List Node), Loc.Within c.expression x) ∧
    ∀ c ∈ ([] : List Node), Nested c) ↔ _
  kids
theorem nested_Lvasgn {f0 : Text} {f1 : Option Node} {f2 : Loc} {f3 : Option Loc} {x : Loc} : Nested (.Lvasgn f0 f1 f2 f3 x) ↔ x.begin ≤ x.stop ∧ OKid f1 x ∧ Loc.Within f2 x ∧ OLoc.In f3 x := by
  rw [nested_iff]
  change (x.begin ≤ x.stop ∧ (∀ l ∈ ([f2] ++ f3.toList : List Loc), Loc.Within l x) ∧ (∀ c ∈ (f1.toList : List Node), Loc.Within c.expression x) ∧
    ∀ c ∈ (f1.toList : List Node), Nested c) ↔ _
  kids
theorem nested_Masgn {f0 : Node} {f1 : Node} {f2 : Loc} {x : Loc} : Nested (.Masgn f0 f1 f2 x) ↔ x.begin ≤ x.stop ∧ Kid f0 x ∧ Kid f1 x ∧ Loc.Within f2 x := by
  rw [nested_iff]
  change (x.begin ≤ x.stop ∧ (∀ l ∈ ([f2] : List Loc), Loc.Within l x) ∧ (∀ c ∈ ([f0] ++ [f1] : List Node), Loc.Within c.expression x) ∧
    ∀ c ∈ ([f0] ++ [f1] : List Node), Nested c) ↔ _
  kids
theorem nested_MatchAlt {f0 : Node} {f1 : Node} {f2 : Loc} {x : Loc} : Nested (.MatchAlt f0 f1 f2 x) ↔ x.begin ≤ x.stop ∧ Kid f0 x ∧ Kid f1 x ∧ Loc.Within f2 x := by
  rw [nested_iff]
  change (x.begin ≤ x.stop ∧ (∀ l ∈ ([f2] : List Loc), Loc.Within l x) ∧ (∀ c ∈ ([f0] ++ [f1] : List Node), Loc.Within c.expression x) ∧
    ∀ c ∈ ([f0] ++ [f1] : List Node), Nested c) ↔ _
  kids
theorem nested_MatchAs {f0 : Node} {f1 : Node} {f2 : Loc} {x : Loc} : Nested (.MatchAs f0 f1 f2 x) ↔ x.begin ≤ x.stop ∧ Kid f0 x ∧ Kid f1 x ∧ Loc.Within f2 x := by
  rw [nested_iff]
  change (x.begin ≤ x.stop ∧ (∀ l ∈ ([f2] : List Loc), Loc.Within l x) ∧ (∀ c ∈ ([f0] ++ [f1] : List Node), Loc.Within c.expression x) ∧
    ∀ c ∈ ([f0] ++ [f1] : List Node), Nested c) ↔ _
  kids
theorem nested_MatchCurrentLine {f0 : Node} {x : Loc} : Nested (.MatchCurrentLine f0 x) ↔ x.begin ≤ x.stop ∧ Kid f0 x := by
  rw [nested_iff]
  change (x.begin ≤ x.stop ∧ (∀ l ∈ ([] : List Loc), Loc.Within l x) ∧ (∀ c ∈ ([f0] : List Node), Loc.Within c.expression x) ∧
    ∀ c ∈ ([f0] : List Node), Nested c) ↔ _
  kids
theorem nested_MatchNilPattern {f0 : Loc} {f1 : Loc} {x : Loc} : Nested (.MatchNilPattern f0 f1 x) ↔ x.begin ≤ x.stop ∧ Loc.Within f0 x ∧ Loc.Within f1 x := by
  rw [nested_iff]
  change (x.begin ≤ x.stop ∧ (∀ l ∈ ([f0] ++ [f1] : List Loc), Loc.Within l x) ∧ (∀ c ∈ ([] : List Node), Loc.Within c.expression x) ∧
    ∀ c ∈ ([] : List Node), Nested c) ↔ _
  kids
theorem nested_MatchPattern {f0 : Node} {f1 : Node} {f2 : Loc} {x : Loc} : Nested (.MatchPattern f0 f1 f2 x) ↔ x.begin ≤ x.stop ∧ Kid f0 x ∧ Kid f1 x ∧ Loc.Within f2 x := by
  rw [nested_iff]
  change (x.begin ≤ x.stop ∧ (∀ l ∈ ([f2] : List Loc), Loc.Within l x) ∧ (∀ c ∈ ([f0] ++ [f1] : List Node), Loc.Within c.expression x) ∧
    ∀ c ∈ ([f0] ++ [f1] : List Node), Nested c) ↔ _
  kids
theorem nested_MatchPatternP {f0 : Node} {f1 : Node} {f2 : Loc} {x : Loc} : Nested (.MatchPatternP f0 f1 f2 x) ↔ x.begin ≤ x.stop ∧ Kid f0 x ∧ Kid f1 x ∧ Loc.Within f2 x := by
  rw [nested_iff]
  change (x.begin ≤ x.stop ∧ (∀ l ∈ ([f2] : List Loc), Loc.Within l x) ∧ (∀ c ∈ ([f0] ++ [f1] : List Node), Loc.Within c.expression x) ∧
    ∀ c ∈ ([f0] ++ [f1] : List Node), Nested c) ↔ _
  kids
theorem nested_MatchRest {f0 : Option Node} {f1 : Loc} {x : Loc} : Nested (.MatchRest f0 f1 x) ↔ x.begin ≤ x.stop ∧ OKid f0 x ∧ Loc.Within f1 x := by
  rw [nested_iff]
  change (x.begin ≤ x.stop ∧ (∀ l ∈ ([f1] : List Loc), Loc.Within l x) ∧ (∀ c ∈ (f0.toList : List Node), Loc.Within c.expression x) ∧
    ∀ c ∈ (f0.toList : List Node), Nested c) ↔ _
  kids
theorem nested_MatchVar {f0 : Text} {f1 : Loc} {x : Loc} : Nested (.MatchVar f0 f1 x) ↔ x.begin ≤ x.stop ∧ Loc.Within f1 x := by
  rw [nested_iff]
  change (x.begin ≤ x.stop ∧ (∀ l ∈ ([f1] : List Loc), Loc.Within l x) ∧ (∀ c ∈ ([] : List Node), Loc.Within c.expression x) ∧
    ∀ c ∈ ([] : List Node), Nested c) ↔ _
  kids
theorem nested_MatchWithLvasgn {f0 : Node} {f1 : Node} {f2 : Loc} {x : Loc} : Nested (.MatchWithLvasgn f0 f1 f2 x) ↔ x.begin ≤ x.stop ∧ Kid f0 x ∧ Kid f1 x ∧ Loc.Within f2 x := by
  rw [nested_iff]
  change (x.begin ≤ x.stop ∧ (∀ l ∈ ([f2] : List Loc), Loc.Within l x) ∧ (∀ c ∈ ([f0] ++ [f1] : List Node), Loc.Within c.expression x) ∧
    ∀ c ∈ ([f0] ++ [f1] : List Node), Nested c) ↔ _
  kids
theorem nested_Mlhs {f0 : List Node} {f1 : Option Loc} {f2 : Option Loc} {x : Loc} : Nested (.Mlhs f0 f1 f2 x) ↔ x.begin ≤ x.stop ∧ Kids f0 x ∧ OLoc.In f1 x ∧ OLoc.In f2 x := by
  rw [nested_iff]
  change (x.begin ≤ x.stop ∧ (∀ l ∈ (f1.toList ++ f2.toList : List Loc), Loc.Within l x) ∧ (∀ c ∈ (f0 : List Node), Loc.Within c.expression x) ∧
    ∀ c ∈ (f0 : List Node), Nested c) ↔ _
  kids
theorem nested_Module {f0 : Node} {f1 : Option Node} {f2 : Loc} {f3 : Loc} {x : Loc} : Nested (.Module f0 f1 f2 f3 x) ↔ x.begin ≤ x.stop ∧ Kid f0 x ∧ OKid f1 x ∧ Loc.Within f2 x ∧ Loc.Within f3 x := by
  rw [nested_iff]
  change (x.begin ≤ x.stop ∧ (∀ l ∈ ([f2] ++ [f3] : List Loc), Loc.Within l x) ∧ (∀ c ∈ ([f0] ++ f1.toList : List Node), Loc.Within c.expression x) ∧
    ∀ c ∈ ([f0] ++ f1.toList : List Node), Nested c) ↔ _
  kids
theorem nested_Next {f0 : List Node} {f1 : Loc} {x : Loc} : Nested (.Next f0 f1 x) ↔ x.begin ≤ x.stop ∧ Kids f0 x ∧ Loc.Within f1 x := by
  rw [nested_iff]
  change (x.begin ≤ x.stop ∧ (∀ l ∈ ([f1] : List Loc), Loc.Within l x) ∧ (∀ c ∈ (f0 : List Node), Loc.Within c.expression x) ∧
    ∀ c ∈ (f0 : List Node), Nested c) ↔ _
  kids
theorem nested_Nil {x : Loc} : Nested (.Nil x) ↔ x.begin ≤ x.stop := by
  rw [nested_iff]
  change (x.begin ≤ x.stop ∧ (∀ l ∈ ([] : List Loc), Loc.Within l x) ∧ (∀ c ∈ ([] : List Node), Loc.Within c.expression x) ∧
    ∀ c ∈ ([] : List Node), Nested c) ↔ _
  kids
theorem nested_NthRef {f0 : Text} {x : Loc} : Nested (.NthRef f0 x) ↔ x.begin ≤ x.stop := by
  rw [nested_iff]
  change (x.begin ≤ x.stop ∧ (∀ l ∈ ([] : List Loc), Loc.Within l x) ∧ (∀ c ∈ ([] : List Node), Loc.Within c.expression x) ∧
    ∀ c ∈ ([] : List Node), Nested c) ↔ _
  kids
theorem nested_OpAsgn {f0 : Node} {f1 : Text} {f2 : Node} {f3 : Loc} {x : Loc} : Nested (.OpAsgn f0 f1 f2 f3 x) ↔ x.begin ≤ x.stop ∧ Kid f0 x ∧ Kid f2 x ∧ Loc.Within f3 x := by
  rw [nested_iff]
  change (x.begin ≤ x.stop ∧ (∀ l ∈ ([f3] : List Loc), Loc.Within l x) ∧ (∀ c ∈ ([f0] ++ [f2] : List Node), Loc.Within c.expression x) ∧
    ∀ c ∈ ([f0] ++ [f2] : List Node), Nested c) ↔ _
  kids
theorem nested_Optarg {f0 : Text} {f1 : Node} {f2 : Loc} {f3 : Loc} {x : Loc} : Nested (.Optarg f0 f1 f2 f3 x) ↔ x.begin ≤ x.stop ∧ Kid f1 x ∧ Loc.Within f2 x ∧ Loc.Within f3 x := by
  rw [nested_iff]
  change (x.begin ≤ x.stop ∧ (∀ l ∈ ([f2] ++ [f3] : List Loc), Loc.Within l x) ∧ (∀ c ∈ ([f1] : List Node), Loc.Within c.expression x) ∧
    ∀ c ∈ ([f1] : List Node), Nested c) ↔ _
  kids
theorem nested_Or {f0 : Node} {f1 : Node} {f2 : Loc} {x : Loc} : Nested (.Or f0 f1 f2 x) ↔ x.begin ≤ x.stop ∧ Kid f0 x ∧ Kid f1 x ∧ Loc.Within f2 x := by
  rw [nested_iff]
  change (x.begin ≤ x.stop ∧ (∀ l ∈ ([f2] : List Loc), Loc.Within l x) ∧ (∀ c ∈ ([f0] ++ [f1] : List Node), Loc.Within c.expression x) ∧
    ∀ c ∈ ([f0] ++ [f1] : List Node), Nested c) ↔ _
  kids
theorem nested_OrAsgn {f0 : Node} {f1 : Node} {f2 : Loc} {x : Loc} : Nested (.OrAsgn f0 f1 f2 x) ↔ x.begin ≤ x.stop ∧ Kid f0 x ∧ Kid f1 x ∧ Loc.Within f2 x := by
  rw [nested_iff]
  change (x.begin ≤ x.stop ∧ (∀ l ∈ ([f2] : List Loc), Loc.Within l x) ∧ (∀ c ∈ ([f0] ++ [f1] : List Node), Loc.Within c.expression x) ∧
    ∀ c ∈ ([f0] ++ [f1] : List Node), Nested c) ↔ _
  kids
theorem nested_Pair {f0 : Node} {f1 : Node} {f2 : Loc} {x : Loc} : Nested (.Pair f0 f1 f2 x) ↔ x.begin ≤ x.stop ∧ Kid f0 x ∧ Kid f1 x ∧ Loc.Within f2 x := by
  rw [nested_iff]
  change (x.begin ≤ x.stop ∧ (∀ l ∈ ([f2] : List Loc), Loc.Within l x) ∧ (∀ c ∈ ([f0] ++ [f1] : List Node), Loc.Within c.expression x) ∧
    ∀ c ∈ ([f0] ++ [f1] : List Node), Nested c) ↔ _
  kids
theorem nested_Pin {f0 : Node} {f1 : Loc} {x : Loc} : Nested (.Pin f0 f1 x) ↔ x.begin ≤ x.stop ∧ Kid f0 x ∧ Loc.Within f1 x := by
  rw [nested_iff]
  change (x.begin ≤ x.stop ∧ (∀ l ∈ ([f1] : List Loc), Loc.Within l x) ∧ (∀ c ∈ ([f0] : List Node), Loc.Within c.expression x) ∧
    ∀ c ∈ ([f0] : List Node), Nested c) ↔ _
  kids
theorem nested_Postexe {f0 : Option Node} {f1 : Loc} {f2 : Loc} {f3 : Loc} {x : Loc} : Nested (.Postexe f0 f1 f2 f3 x) ↔ x.begin ≤ x.stop ∧ OKid f0 x ∧ Loc.Within f1 x ∧ Loc.Within f2 x ∧ Loc.Within f3 x := by
  rw [nested_iff]
  change (x.begin ≤ x.stop ∧ (∀ l ∈ ([f1] ++ [f2] ++ [f3] : List Loc), Loc.Within l x) ∧ (∀ c ∈ (f0.toList : List Node), Loc.Within c.expression x) ∧
    ∀ c ∈ (f0.toList : List Node), Nested c) ↔ _
  kids
theorem nested_Preexe {f0 : Option Node} {f1 : Loc} {f2 : Loc} {f3 : Loc} {x : Loc} : Nested (.Preexe f0 f1 f2 f3 x) ↔ x.begin ≤ x.stop ∧ OKid f0 x ∧ Loc.Within f1 x ∧ Loc.Within f2 x ∧ Loc.Within f3 x := by
  rw [nested_iff]
  change (x.begin ≤ x.stop ∧ (∀ l ∈ ([f1] ++ [f2] ++ [f3] : List Loc), Loc.Within l x) ∧ (∀ c ∈ (f0.toList : List Node), Loc.Within c.expression x) ∧
    ∀ c ∈ (f0.toList : List Node), Nested c) ↔ _
  kids
theorem nested_Procarg0 {f0 : List Node} {f1 : Option Loc} {f2 : Option Loc} {x : Loc} : Nested (.Procarg0 f0 f1 f2 x) ↔ x.begin ≤ x.stop ∧ Kids f0 x ∧ OLoc.In f1 x ∧ OLoc.In f2 x := by
  rw [nested_iff]
  change (x.begin ≤ x.stop ∧ (∀ l ∈ (f1.toList ++ f2.toList : List Loc), Loc.Within l x) ∧ (∀ c ∈ (f0 : List Node), Loc.Within c.expression x) ∧
    ∀ c ∈ (f0 : List Node), Nested c) ↔ _
  kids
theorem nested_Rational {f0 : Text} {f1 : Option Loc} {x : Loc} : Nested (.Rational f0 f1 x) ↔ x.begin ≤ x.stop ∧ OLoc.In f1 x := by
  rw [nested_iff]
  change (x.begin ≤ x.stop ∧ (∀ l ∈ (f1.toList : List Loc), Loc.Within l x) ∧ (∀ c ∈ ([] : List Node), Loc.Within c.expression x) ∧
    ∀ c ∈ ([] : List Node), Nested c) ↔ _
  kids
theorem nested_Redo {x : Loc} : Nested (.Redo x) ↔ x.begin ≤ x.stop := by
  rw [nested_iff]
  change (x.begin ≤ x.stop ∧ (∀ l ∈ ([] : List Loc), Loc.Within l x) ∧ (∀ c ∈ ([] : List Node), Loc.Within c.expression x) ∧
    ∀ c ∈ ([] : List Node), Nested c) ↔ _
  kids
theorem nested_RegOpt {f0 : Option Text} {x : Loc} : Nested (.RegOpt f0 x) ↔ x.begin ≤ x.stop := by
  rw [nested_iff]
  change (x.begin ≤ x.stop ∧ (∀ l ∈ ([] : List Loc), Loc.Within l x) ∧ (∀ c ∈ ([] : List Node), Loc.Within c.expression x) ∧
    ∀ c ∈ ([] : List Node), Nested c) ↔ _
  kids
theorem nested_Regexp {f0 : List Node} {f1 : Option Node} {f2 : Loc} {f3 : Loc} {x : Loc} : Nested (.Regexp f0 f1 f2 f3 x) ↔ x.begin ≤ x.stop ∧ Kids f0 x ∧ OKid f1 x ∧ Loc.Within f2 x ∧ Loc.Within f3 x := by
  rw [nested_iff]
  change (x.begin ≤ x.stop ∧ (∀ l ∈ ([f2] ++ [f3] : List Loc), Loc.Within l x) ∧ (∀ c ∈ (f0 ++ f1.toList : List Node), Loc.Within c.expression x) ∧
    ∀ c ∈ (f0 ++ f1.toList : List Node), Nested c) ↔ _
  kids
theorem nested_Rescue {f0 : Option Node} {f1 : List Node} {f2 : Option Node} {f3 : Option Loc} {x : Loc} : Nested (.Rescue f0 f1 f2 f3 x) ↔ x.begin ≤ x.stop ∧ OKid f0 x ∧ Kids f1 x ∧ OKid f2 x ∧ OLoc.In f3 x := by
  rw [nested_iff]
  change (x.begin ≤ x.stop ∧ (∀ l ∈ (f3.toList : List Loc), Loc.Within l x) ∧ (∀ c ∈ (f0.toList ++ f1 ++ f2.toList : List Node), Loc.Within c.expression x) ∧
    ∀ c ∈ (f0.toList ++ f1 ++ f2.toList : List Node), Nested c) ↔ _
  kids
theorem nested_RescueBody {f0 : Option Node} {f1 : Option Node} {f2 : Option Node} {f3 : Loc} {f4 : Option Loc} {f5 : Option Loc} {x : Loc} : Nested (.RescueBody f0 f1 f2 f3 f4 f5 x) ↔ x.begin ≤ x.stop ∧ OKid f0 x ∧ OKid f1 x ∧ OKid f2 x ∧ Loc.Within f3 x ∧ OLoc.In f4 x ∧ OLoc.In f5 x := by
  rw [nested_iff]
  change (x.begin ≤ x.stop ∧ (∀ l ∈ ([f3] ++ f4.toList ++ f5.toList : List Loc), Loc.Within l x) ∧ (∀ c ∈ (f0.toList ++ f1.toList ++ f2.toList : List Node), Loc.Within c.expression x) ∧
    ∀ c ∈ (f0.toList ++ f1.toList ++ f2.toList : List Node), Nested c) ↔ _
  kids
theorem nested_Restarg {f0 : Option Text} {f1 : Loc} {f2 : Option Loc} {x : Loc} : Nested (.Restarg f0 f1 f2 x) ↔ x.begin ≤ x.stop ∧ Loc.Within f1 x ∧ OLoc.In f2 x := by
  rw [nested_iff]
  change (x.begin ≤ x.stop ∧ (∀ l ∈ ([f1] ++ f2.toList : List Loc), Loc.Within l x) ∧ (∀ c ∈ ([] : List Node), Loc.Within c.expression x) ∧
    ∀ c ∈ ([] : List Node), Nested c) ↔ _
  kids
theorem nested_Retry {x : Loc} : Nested (.Retry x) ↔ x.begin ≤ x.stop := by
  rw [nested_iff]
  change (x.begin ≤ x.stop ∧ (∀ l ∈ ([] : List Loc), Loc.Within l x) ∧ (∀ c ∈ ([] : List Node), Loc.Within c.expression x) ∧
    ∀ c ∈ ([] : List Node), Nested c) ↔ _
  kids
theorem nested_Return {f0 : List Node} {f1 : Loc} {x : Loc} : Nested (.Return f0 f1 x) ↔ x.begin ≤ x.stop ∧ Kids f0 x ∧ Loc.Within f1 x := by
  rw [nested_iff]
  change (x.begin ≤ x.stop ∧ (∀ l ∈ ([f1] : List Loc), Loc.Within l x) ∧ (∀ c ∈ (f0 : List Node), Loc.Within c.expression x) ∧
    ∀ c ∈ (f0 : List Node), Nested c) ↔ _
  kids
theorem nested_SClass {f0 : Node} {f1 : Option Node} {f2 : Loc} {f3 : Loc} {f4 : Loc} {x : Loc} : Nested (.SClass f0 f1 f2 f3 f4 x) ↔ x.begin ≤ x.stop ∧ Kid f0 x ∧ OKid f1 x ∧ Loc.Within f2 x ∧ Loc.Within f3 x ∧ Loc.Within f4 x := by
  rw [nested_iff]
  change (x.begin ≤ x.stop ∧ (∀ l ∈ ([f2] ++ [f3] ++ [f4] : List Loc), Loc.Within l x) ∧ (∀ c ∈ ([f0] ++ f1.toList : List Node), Loc.Within c.expression x) ∧
    ∀ c ∈ ([f0] ++ f1.toList : List Node), Nested c) ↔ _
  kids
theorem nested_Self_ {x : Loc} : Nested (.Self_ x) ↔ x.begin ≤ x.stop := by
  rw [nested_iff]
  change (x.begin ≤ x.stop ∧ (∀ l ∈ ([] : List Loc), Loc.Within l x) ∧ (∀ c ∈ ([] : List Node), Loc.Within c.expression x) ∧
    ∀ c ∈ ([] : List Node), Nested c) ↔ _
  kids
theorem nested_Send {f0 : Option Node} {f1 : Text} {f2 : List Node} {f3 : Option Loc} {f4 : Option Loc} {f5 : Option Loc} {f6 : Option Loc} {f7 : Option Loc} {x : Loc} : Nested (.Send f0 f1 f2 f3 f4 f5 f6 f7 x) ↔ x.begin ≤ x.stop ∧ OKid f0 x ∧ Kids f2 x ∧ OLoc.In f3 x ∧ OLoc.In f4 x ∧ OLoc.In f5 x ∧ OLoc.In f6 x ∧ OLoc.In f7 x := by
  rw [nested_iff]
  change (x.begin ≤ x.stop ∧ (∀ l ∈ (f3.toList ++ f4.toList ++ f5.toList ++ f6.toList ++ f7.toList : List Loc), Loc.Within l x) ∧ (∀ c ∈ (f0.toList ++ f2 : List Node), Loc.Within c.expression x) ∧
    ∀ c ∈ (f0.toList ++ f2 : List Node), Nested c) ↔ _
  kids
theorem nested_Shadowarg {f0 : Text} {x : Loc} : Nested (.Shadowarg f0 x) ↔ x.begin ≤ x.stop := by
  rw [nested_iff]
  change (x.begin ≤ x.stop ∧ (∀ l ∈ ([] : List Loc), Loc.Within l x) ∧ (∀ c ∈ ([] : List Node), Loc.Within c.expression x) ∧
    ∀ c ∈ ([] : List Node), Nested c) ↔ _
  kids
theorem nested_Splat {f0 : Option Node} {f1 : Loc} {x : Loc} : Nested (.Splat f0 f1 x) ↔ x.begin ≤ x.stop ∧ OKid f0 x ∧ Loc.Within f1 x := by
  rw [nested_iff]
  change (x.begin ≤ x.stop ∧ (∀ l ∈ ([f1] : List Loc), Loc.Within l x) ∧ (∀ c ∈ (f0.toList : List Node), Loc.Within c.expression x) ∧
    ∀ c ∈ (f0.toList : List Node), Nested c) ↔ _
  kids
theorem nested_Super {f0 : List Node} {f1 : Loc} {f2 : Option Loc} {f3 : Option Loc} {x : Loc} : Nested (.Super f0 f1 f2 f3 x) ↔ x.begin ≤ x.stop ∧ Kids f0 x ∧ Loc.Within f1 x ∧ OLoc.In f2 x ∧ OLoc.In f3 x := by
  rw [nested_iff]
  change (x.begin ≤ x.stop ∧ (∀ l ∈ ([f1] ++ f2.toList ++ f3.toList : List Loc), Loc.Within l x) ∧ (∀ c ∈ (f0 : List Node), Loc.Within c.expression x) ∧
    ∀ c ∈ (f0 : List Node), Nested c) ↔ _
  kids
theorem nested_Sym {f0 : Bytes} {f1 : Option Loc} {f2 : Option Loc} {x : Loc} : Nested (.Sym f0 f1 f2 x) ↔ x.begin ≤ x.stop ∧ OLoc.In f1 x ∧ OLoc.In f2 x := by
  rw [nested_iff]
  change (x.begin ≤ x.stop ∧ (∀ l ∈ (f1.toList ++ f2.toList : List Loc), Loc.Within l x) ∧ (∀ c ∈ ([] : List Node), Loc.Within c.expression x) ∧
    ∀ c ∈ ([] : List Node), Nested c) ↔ _
  kids
theorem nested_True {x : Loc} : Nested (.True x) ↔ x.begin ≤ x.stop := by
  rw [nested_iff]
  change (x.begin ≤ x.stop ∧ (∀ l ∈ ([] : List Loc), Loc.Within l x) ∧ (∀ c ∈ ([] : List Node), Loc.Within c.expression x) ∧
    ∀ c ∈ ([] : List Node), Nested c) ↔ _
  kids
theorem nested_Undef {f0 : List Node} {f1 : Loc} {x : Loc} : Nested (.Undef f0 f1 x) ↔ x.begin ≤ x.stop ∧ Kids f0 x ∧ Loc.Within f1 x := by
  rw [nested_iff]
  change (x.begin ≤ x.stop ∧ (∀ l ∈ ([f1] : List Loc), Loc.Within l x) ∧ (∀ c ∈ (f0 : List Node), Loc.Within c.expression x) ∧
    ∀ c ∈ (f0 : List Node), Nested c) ↔ _
  kids
theorem nested_UnlessGuard {f0 : Node} {f1 : Loc} {x : Loc} : Nested (.UnlessGuard f0 f1 x) ↔ x.begin ≤ x.stop ∧ Kid f0 x ∧ Loc.Within f1 x := by
  rw [nested_iff]
  change (x.begin ≤ x.stop ∧ (∀ l ∈ ([f1] : List Loc), Loc.Within l x) ∧ (∀ c ∈ ([f0] : List Node), Loc.Within c.expression x) ∧
    ∀ c ∈ ([f0] : List Node), Nested c) ↔ _
  kids
theorem nested_Until {f0 : Node} {f1 : Option Node} {f2 : Loc} {f3 : Option Loc} {f4 : Option Loc} {x : Loc} : Nested (.Until f0 f1 f2 f3 f4 x) ↔ x.begin ≤ x.stop ∧ Kid f0 x ∧ OKid f1 x ∧ Loc.Within f2 x ∧ OLoc.In f3 x ∧ OLoc.In f4 x := by
  rw [nested_iff]
  change (x.begin ≤ x.stop ∧ (∀ l ∈ ([f2] ++ f3.toList ++ f4.toList : List Loc), Loc.Within l x) ∧ (∀ c ∈ ([f0] ++ f1.toList : List Node), Loc.Within c.expression x) ∧
    ∀ c ∈ ([f0] ++ f1.toList : List Node), Nested c) ↔ _
  kids
theorem nested_UntilPost {f0 : Node} {f1 : Node} {f2 : Loc} {x : Loc} : Nested (.UntilPost f0 f1 f2 x) ↔ x.begin ≤ x.stop ∧ Kid f0 x ∧ Kid f1 x ∧ Loc.Within f2 x := by
  rw [nested_iff]
  change (x.begin ≤ x.stop ∧ (∀ l ∈ ([f2] : List Loc), Loc.Within l x) ∧ (∀ c ∈ ([f0] ++ [f1] : List Node), Loc.Within c.expression x) ∧
    ∀ c ∈ ([f0] ++ [f1] : List Node), Nested c) ↔ _
  kids
theorem nested_While {f0 : Node} {f1 : Option Node} {f2 : Loc} {f3 : Option Loc} {f4 : Option Loc} {x : Loc} : Nested (.While f0 f1 f2 f3 f4 x) ↔ x.begin ≤ x.stop ∧ Kid f0 x ∧ OKid f1 x ∧ Loc.Within f2 x ∧ OLoc.In f3 x ∧ OLoc.In f4 x := by
  rw [nested_iff]
  change (x.begin ≤ x.stop ∧ (∀ l ∈ ([f2] ++ f3.toList ++ f4.toList : List Loc), Loc.Within l x) ∧ (∀ c ∈ ([f0] ++ f1.toList : List Node), Loc.Within c.expression x) ∧
    ∀ c ∈ ([f0] ++ f1.toList : List Node), Nested c) ↔ _
  kids
theorem nested_WhilePost {f0 : Node} {f1 : Node} {f2 : Loc} {x : Loc} : Nested (.WhilePost f0 f1 f2 x) ↔ x.begin ≤ x.stop ∧ Kid f0 x ∧ Kid f1 x ∧ Loc.Within f2 x := by
  rw [nested_iff]
  change (x.begin ≤ x.stop ∧ (∀ l ∈ ([f2] : List Loc), Loc.Within l x) ∧ (∀ c ∈ ([f0] ++ [f1] : List Node), Loc.Within c.expression x) ∧
    ∀ c ∈ ([f0] ++ [f1] : List Node), Nested c) ↔ _
  kids
theorem nested_Xstr {f0 : List Node} {f1 : Loc} {f2 : Loc} {x : Loc} : Nested (.Xstr f0 f1 f2 x) ↔ x.begin ≤ x.stop ∧ Kids f0 x ∧ Loc.Within f1 x ∧ Loc.Within f2 x := by
  rw [nested_iff]
  change (x.begin ≤ x.stop ∧ (∀ l ∈ ([f1] ++ [f2] : List Loc), Loc.Within l x) ∧ (∀ c ∈ (f0 : List Node), Loc.Within c.expression x) ∧
    ∀ c ∈ (f0 : List Node), Nested c) ↔ _
  kids
theorem nested_Yield {f0 : List Node} {f1 : Loc} {f2 : Option Loc} {f3 : Option Loc} {x : Loc} : Nested (.Yield f0 f1 f2 f3 x) ↔ x.begin ≤ x.stop ∧ Kids f0 x ∧ Loc.Within f1 x ∧ OLoc.In f2 x ∧ OLoc.In f3 x := by
  rw [nested_iff]
  change (x.begin ≤ x.stop ∧ (∀ l ∈ ([f1] ++ f2.toList ++ f3.toList : List Loc), Loc.Within l x) ∧ (∀ c ∈ (f0 : List Node), Loc.Within c.expression x) ∧
    ∀ c ∈ (f0 : List Node), Nested c) ↔ _
  kids
theorem nested_ZSuper {x : Loc} : Nested (.ZSuper x) ↔ x.begin ≤ x.stop := by
  rw [nested_iff]
  change (x.begin ≤ x.stop ∧ (∀ l ∈ ([] : List Loc), Loc.Within l x) ∧ (∀ c ∈ ([] : List Node), Loc.Within c.expression x) ∧
    ∀ c ∈ ([] : List Node), Nested c) ↔ _
  kids

theorem nested_When {ps : List Node} {body : Option Node} {k b x : Loc} :
    Nested (.When ps body k b x) ↔ x.begin ≤ x.stop ∧ Kids ps x ∧ OKid body x ∧ Loc.Within k x ∧ (body.isSome → Loc.Within b x) := by
  rw [nested_iff]
  cases body with
  | none =>
    change (x.begin ≤ x.stop ∧ (∀ l ∈ [k], Loc.Within l x) ∧ (∀ c ∈ ps ++ [], Loc.Within c.expression x) ∧
      ∀ c ∈ ps ++ [], Nested c) ↔ _
    simp only [Option.isSome, OKid, Option.toList, Bool.false_eq_true]
    kids
  | some n =>
    change (x.begin ≤ x.stop ∧ (∀ l ∈ [k] ++ [b], Loc.Within l x) ∧ (∀ c ∈ ps ++ [n], Loc.Within c.expression x) ∧
      ∀ c ∈ ps ++ [n], Nested c) ↔ _
    simp only [Option.isSome, OKid, Option.toList]
    kids

theorem nested_InPattern {p : Node} {guard body : Option Node} {k b x : Loc} :
    Nested (.InPattern p guard body k b x) ↔ x.begin ≤ x.stop ∧ Kid p x ∧ OKid guard x ∧ OKid body x ∧ Loc.Within k x ∧
      (body.isSome → Loc.Within b x) := by
  rw [nested_iff]
  cases body with
  | none =>
    change (x.begin ≤ x.stop ∧ (∀ l ∈ [k], Loc.Within l x) ∧
      (∀ c ∈ [p] ++ guard.toList ++ [], Loc.Within c.expression x) ∧
      ∀ c ∈ [p] ++ guard.toList ++ [], Nested c) ↔ _
    simp only [Option.isSome, Bool.false_eq_true]
    kids
  | some n =>
    change (x.begin ≤ x.stop ∧ (∀ l ∈ [k] ++ [b], Loc.Within l x) ∧
      (∀ c ∈ [p] ++ guard.toList ++ [n], Loc.Within c.expression x) ∧
      ∀ c ∈ [p] ++ guard.toList ++ [n], Nested c) ↔ _
    simp only [Option.isSome, OKid, Option.toList]
    kids

theorem nested_Str {v : Bytes} {b e : Option Loc} {x : Loc} :
    Nested (.Str v b e x) ↔ x.begin ≤ x.stop ∧ OLoc.In b x ∧ OLoc.In e x ∧ Apart b e := by
  rw [nested_iff]
  rcases b with _ | b <;> rcases e with _ | e
  · change (x.begin ≤ x.stop ∧ (∀ l ∈ ([] : List Loc), Loc.Within l x) ∧ (∀ c ∈ ([] : List Node), Loc.Within c.expression x) ∧
      ∀ c ∈ ([] : List Node), Nested c) ↔ _
    simp [OLoc.In, Apart]
  · change (x.begin ≤ x.stop ∧ (∀ l ∈ ([e] : List Loc), Loc.Within l x) ∧ (∀ c ∈ ([] : List Node), Loc.Within c.expression x) ∧
      ∀ c ∈ ([] : List Node), Nested c) ↔ _
    simp [OLoc.In, Apart]
  · change (x.begin ≤ x.stop ∧ (∀ l ∈ ([b] : List Loc), Loc.Within l x) ∧ (∀ c ∈ ([] : List Node), Loc.Within c.expression x) ∧
      ∀ c ∈ ([] : List Node), Nested c) ↔ _
    simp [OLoc.In, Apart]
  · change (x.begin ≤ x.stop ∧ (∀ l ∈ ([b, e, ⟨b.stop, e.begin⟩] : List Loc), Loc.Within l x) ∧
      (∀ c ∈ ([] : List Node), Loc.Within c.expression x) ∧ ∀ c ∈ ([] : List Node), Nested c) ↔ _
    simp only [OLoc.In, Apart, List.forall_mem_cons, Option.toList, List.not_mem_nil, false_implies, implies_true, and_true,
      Loc.Within]
    omega

theorem nested_Numblock {f0 : Node} {f1 : Nat} {f2 : Node} {f3 : Loc} {f4 : Loc} {x : Loc} :
    Nested (.Numblock f0 f1 f2 f3 f4 x) ↔ x.begin ≤ x.stop ∧ Kid f0 x ∧ NumBody f2 x ∧ Loc.Within f3 x ∧ Loc.Within f4 x := by
  rw [nested_iff]
  change (x.begin ≤ x.stop ∧ (∀ l ∈ [f3] ++ [f4], Loc.Within l x) ∧
    (∀ c ∈ (if f2.isAbsent = true then [f0] else [f0, f2]), Loc.Within c.expression x) ∧ ∀ c ∈ [f0] ++ [f2], Nested c) ↔ _
  unfold NumBody
  by_cases h : f2.isAbsent = true
  · simp only [h, if_true, true_or]; kids
  · simp only [h, Bool.false_eq_true, if_false, false_or, List.forall_mem_cons]; kids

theorem nested_Heredoc {ps : List Node} {b e x : Loc} :
    Nested (.Heredoc ps b e x) ↔ x.begin ≤ x.stop ∧ ∀ c ∈ ps, Nested c := by
  rw [nested_iff]
  change (x.begin ≤ x.stop ∧ (∀ l ∈ ([] : List Loc), Loc.Within l x) ∧ (∀ c ∈ ([] : List Node), Loc.Within c.expression x) ∧
    ∀ c ∈ ps, Nested c) ↔ _
  simp

theorem nested_XHeredoc {ps : List Node} {b e x : Loc} :
    Nested (.XHeredoc ps b e x) ↔ x.begin ≤ x.stop ∧ ∀ c ∈ ps, Nested c := by
  rw [nested_iff]
  change (x.begin ≤ x.stop ∧ (∀ l ∈ ([] : List Loc), Loc.Within l x) ∧ (∀ c ∈ ([] : List Node), Loc.Within c.expression x) ∧
    ∀ c ∈ ps, Nested c) ↔ _
  simp

theorem at_nested {n : Node} {x : Loc} {P : Prop} {a b : Nat} (h : Nested n ↔ x.begin ≤ x.stop ∧ P) (hx : n.expression = x) :
    n.At a b ↔ (a ≤ x.begin ∧ x.stop ≤ b) ∧ x.begin ≤ x.stop ∧ P := by
  unfold Node.At
  rw [h, hx]
  constructor
  · rintro ⟨⟨h1, h2⟩, h3, h4, h5⟩; exact ⟨⟨h3, h5⟩, h1, h2⟩
  · rintro ⟨⟨h3, h5⟩, h1, h2⟩; exact ⟨⟨h1, h2⟩, h3, h1, h5⟩
theorem at_leaf {n : Node} {x : Loc} {a b : Nat} (h : Nested n ↔ x.begin ≤ x.stop) (hx : n.expression = x) :
    n.At a b ↔ (a ≤ x.begin ∧ x.stop ≤ b) ∧ x.begin ≤ x.stop := by
  unfold Node.At
  rw [h, hx]
  omega

theorem at_Alias {f0 : Node} {f1 : Node} {f2 : Loc} {x : Loc} {a b' : Nat} : (Node.Alias f0 f1 f2 x).At a b' ↔ (a ≤ x.begin ∧ x.stop ≤ b') ∧ x.begin ≤ x.stop ∧ Kid f0 x ∧ Kid f1 x ∧ Loc.Within f2 x := at_nested nested_Alias rfl
theorem at_And {f0 : Node} {f1 : Node} {f2 : Loc} {x : Loc} {a b' : Nat} : (Node.And f0 f1 f2 x).At a b' ↔ (a ≤ x.begin ∧ x.stop ≤ b') ∧ x.begin ≤ x.stop ∧ Kid f0 x ∧ Kid f1 x ∧ Loc.Within f2 x := at_nested nested_And rfl
theorem at_AndAsgn {f0 : Node} {f1 : Node} {f2 : Loc} {x : Loc} {a b' : Nat} : (Node.AndAsgn f0 f1 f2 x).At a b' ↔ (a ≤ x.begin ∧ x.stop ≤ b') ∧ x.begin ≤ x.stop ∧ Kid f0 x ∧ Kid f1 x ∧ Loc.Within f2 x := at_nested nested_AndAsgn rfl
theorem at_Arg {f0 : Text} {x : Loc} {a b' : Nat} : (Node.Arg f0 x).At a b' ↔ (a ≤ x.begin ∧ x.stop ≤ b') ∧ x.begin ≤ x.stop := at_leaf nested_Arg rfl
theorem at_Args {f0 : List Node} {f1 : Option Loc} {f2 : Option Loc} {x : Loc} {a b' : Nat} : (Node.Args f0 f1 f2 x).At a b' ↔ (a ≤ x.begin ∧ x.stop ≤ b') ∧ x.begin ≤ x.stop ∧ Kids f0 x ∧ OLoc.In f1 x ∧ OLoc.In f2 x := at_nested nested_Args rfl
theorem at_Array {f0 : List Node} {f1 : Option Loc} {f2 : Option Loc} {x : Loc} {a b' : Nat} : (Node.Array f0 f1 f2 x).At a b' ↔ (a ≤ x.begin ∧ x.stop ≤ b') ∧ x.begin ≤ x.stop ∧ Kids f0 x ∧ OLoc.In f1 x ∧ OLoc.In f2 x := at_nested nested_Array rfl
theorem at_ArrayPattern {f0 : List Node} {f1 : Option Loc} {f2 : Option Loc} {x : Loc} {a b' : Nat} : (Node.ArrayPattern f0 f1 f2 x).At a b' ↔ (a ≤ x.begin ∧ x.stop ≤ b') ∧ x.begin ≤ x.stop ∧ Kids f0 x ∧ OLoc.In f1 x ∧ OLoc.In f2 x := at_nested nested_ArrayPattern rfl
theorem at_ArrayPatternWithTail {f0 : List Node} {f1 : Option Loc} {f2 : Option Loc} {x : Loc} {a b' : Nat} : (Node.ArrayPatternWithTail f0 f1 f2 x).At a b' ↔ (a ≤ x.begin ∧ x.stop ≤ b') ∧ x.begin ≤ x.stop ∧ Kids f0 x ∧ OLoc.In f1 x ∧ OLoc.In f2 x := at_nested nested_ArrayPatternWithTail rfl
theorem at_BackRef {f0 : Text} {x : Loc} {a b' : Nat} : (Node.BackRef f0 x).At a b' ↔ (a ≤ x.begin ∧ x.stop ≤ b') ∧ x.begin ≤ x.stop := at_leaf nested_BackRef rfl
theorem at_Begin {f0 : List Node} {f1 : Option Loc} {f2 : Option Loc} {x : Loc} {a b' : Nat} : (Node.Begin f0 f1 f2 x).At a b' ↔ (a ≤ x.begin ∧ x.stop ≤ b') ∧ x.begin ≤ x.stop ∧ Kids f0 x ∧ OLoc.In f1 x ∧ OLoc.In f2 x := at_nested nested_Begin rfl
theorem at_Block {f0 : Node} {f1 : Option Node} {f2 : Option Node} {f3 : Loc} {f4 : Loc} {x : Loc} {a b' : Nat} : (Node.Block f0 f1 f2 f3 f4 x).At a b' ↔ (a ≤ x.begin ∧ x.stop ≤ b') ∧ x.begin ≤ x.stop ∧ Kid f0 x ∧ OKid f1 x ∧ OKid f2 x ∧ Loc.Within f3 x ∧ Loc.Within f4 x := at_nested nested_Block rfl
theorem at_Blockarg {f0 : Option Text} {f1 : Loc} {f2 : Option Loc} {x : Loc} {a b' : Nat} : (Node.Blockarg f0 f1 f2 x).At a b' ↔ (a ≤ x.begin ∧ x.stop ≤ b') ∧ x.begin ≤ x.stop ∧ Loc.Within f1 x ∧ OLoc.In f2 x := at_nested nested_Blockarg rfl
theorem at_BlockPass {f0 : Option Node} {f1 : Loc} {x : Loc} {a b' : Nat} : (Node.BlockPass f0 f1 x).At a b' ↔ (a ≤ x.begin ∧ x.stop ≤ b') ∧ x.begin ≤ x.stop ∧ OKid f0 x ∧ Loc.Within f1 x := at_nested nested_BlockPass rfl
theorem at_Break {f0 : List Node} {f1 : Loc} {x : Loc} {a b' : Nat} : (Node.Break f0 f1 x).At a b' ↔ (a ≤ x.begin ∧ x.stop ≤ b') ∧ x.begin ≤ x.stop ∧ Kids f0 x ∧ Loc.Within f1 x := at_nested nested_Break rfl
theorem at_Case {f0 : Option Node} {f1 : List Node} {f2 : Option Node} {f3 : Loc} {f4 : Option Loc} {f5 : Loc} {x : Loc} {a b' : Nat} : (Node.Case f0 f1 f2 f3 f4 f5 x).At a b' ↔ (a ≤ x.begin ∧ x.stop ≤ b') ∧ x.begin ≤ x.stop ∧ OKid f0 x ∧ Kids f1 x ∧ OKid f2 x ∧ Loc.Within f3 x ∧ OLoc.In f4 x ∧ Loc.Within f5 x := at_nested nested_Case rfl
theorem at_CaseMatch {f0 : Node} {f1 : List Node} {f2 : Option Node} {f3 : Loc} {f4 : Option Loc} {f5 : Loc} {x : Loc} {a b' : Nat} : (Node.CaseMatch f0 f1 f2 f3 f4 f5 x).At a b' ↔ (a ≤ x.begin ∧ x.stop ≤ b') ∧ x.begin ≤ x.stop ∧ Kid f0 x ∧ Kids f1 x ∧ OKid f2 x ∧ Loc.Within f3 x ∧ OLoc.In f4 x ∧ Loc.Within f5 x := at_nested nested_CaseMatch rfl
theorem at_Casgn {f0 : Option Node} {f1 : Text} {f2 : Option Node} {f3 : Option Loc} {f4 : Loc} {f5 : Option Loc} {x : Loc} {a b' : Nat} : (Node.Casgn f0 f1 f2 f3 f4 f5 x).At a b' ↔ (a ≤ x.begin ∧ x.stop ≤ b') ∧ x.begin ≤ x.stop ∧ OKid f0 x ∧ OKid f2 x ∧ OLoc.In f3 x ∧ Loc.Within f4 x ∧ OLoc.In f5 x := at_nested nested_Casgn rfl
theorem at_Cbase {x : Loc} {a b' : Nat} : (Node.Cbase x).At a b' ↔ (a ≤ x.begin ∧ x.stop ≤ b') ∧ x.begin ≤ x.stop := at_leaf nested_Cbase rfl
theorem at_Class {f0 : Node} {f1 : Option Node} {f2 : Option Node} {f3 : Loc} {f4 : Option Loc} {f5 : Loc} {x : Loc} {a b' : Nat} : (Node.Class f0 f1 f2 f3 f4 f5 x).At a b' ↔ (a ≤ x.begin ∧ x.stop ≤ b') ∧ x.begin ≤ x.stop ∧ Kid f0 x ∧ OKid f1 x ∧ OKid f2 x ∧ Loc.Within f3 x ∧ OLoc.In f4 x ∧ Loc.Within f5 x := at_nested nested_Class rfl
theorem at_Complex {f0 : Text} {f1 : Option Loc} {x : Loc} {a b' : Nat} : (Node.Complex f0 f1 x).At a b' ↔ (a ≤ x.begin ∧ x.stop ≤ b') ∧ x.begin ≤ x.stop ∧ OLoc.In f1 x := at_nested nested_Complex rfl
theorem at_Const {f0 : Option Node} {f1 : Text} {f2 : Option Loc} {f3 : Loc} {x : Loc} {a b' : Nat} : (Node.Const f0 f1 f2 f3 x).At a b' ↔ (a ≤ x.begin ∧ x.stop ≤ b') ∧ x.begin ≤ x.stop ∧ OKid f0 x ∧ OLoc.In f2 x ∧ Loc.Within f3 x := at_nested nested_Const rfl
theorem at_ConstPattern {f0 : Node} {f1 : Node} {f2 : Loc} {f3 : Loc} {x : Loc} {a b' : Nat} : (Node.ConstPattern f0 f1 f2 f3 x).At a b' ↔ (a ≤ x.begin ∧ x.stop ≤ b') ∧ x.begin ≤ x.stop ∧ Kid f0 x ∧ Kid f1 x ∧ Loc.Within f2 x ∧ Loc.Within f3 x := at_nested nested_ConstPattern rfl
theorem at_CSend {f0 : Node} {f1 : Text} {f2 : List Node} {f3 : Loc} {f4 : Option Loc} {f5 : Option Loc} {f6 : Option Loc} {f7 : Option Loc} {x : Loc} {a b' : Nat} : (Node.CSend f0 f1 f2 f3 f4 f5 f6 f7 x).At a b' ↔ (a ≤ x.begin ∧ x.stop ≤ b') ∧ x.begin ≤ x.stop ∧ Kid f0 x ∧ Kids f2 x ∧ Loc.Within f3 x ∧ OLoc.In f4 x ∧ OLoc.In f5 x ∧ OLoc.In f6 x ∧ OLoc.In f7 x := at_nested nested_CSend rfl
theorem at_Cvar {f0 : Text} {x : Loc} {a b' : Nat} : (Node.Cvar f0 x).At a b' ↔ (a ≤ x.begin ∧ x.stop ≤ b') ∧ x.begin ≤ x.stop := at_leaf nested_Cvar rfl
theorem at_Cvasgn {f0 : Text} {f1 : Option Node} {f2 : Loc} {f3 : Option Loc} {x : Loc} {a b' : Nat} : (Node.Cvasgn f0 f1 f2 f3 x).At a b' ↔ (a ≤ x.begin ∧ x.stop ≤ b') ∧ x.begin ≤ x.stop ∧ OKid f1 x ∧ Loc.Within f2 x ∧ OLoc.In f3 x := at_nested nested_Cvasgn rfl
theorem at_Def {f0 : Text} {f1 : Option Node} {f2 : Option Node} {f3 : Loc} {f4 : Loc} {f5 : Option Loc} {f6 : Option Loc} {x : Loc} {a b' : Nat} : (Node.Def f0 f1 f2 f3 f4 f5 f6 x).At a b' ↔ (a ≤ x.begin ∧ x.stop ≤ b') ∧ x.begin ≤ x.stop ∧ OKid f1 x ∧ OKid f2 x ∧ Loc.Within f3 x ∧ Loc.Within f4 x ∧ OLoc.In f5 x ∧ OLoc.In f6 x := at_nested nested_Def rfl
theorem at_Defined {f0 : Node} {f1 : Loc} {f2 : Option Loc} {f3 : Option Loc} {x : Loc} {a b' : Nat} : (Node.Defined f0 f1 f2 f3 x).At a b' ↔ (a ≤ x.begin ∧ x.stop ≤ b') ∧ x.begin ≤ x.stop ∧ Kid f0 x ∧ Loc.Within f1 x ∧ OLoc.In f2 x ∧ OLoc.In f3 x := at_nested nested_Defined rfl
theorem at_Defs {f0 : Node} {f1 : Text} {f2 : Option Node} {f3 : Option Node} {f4 : Loc} {f5 : Loc} {f6 : Loc} {f7 : Option Loc} {f8 : Option Loc} {x : Loc} {a b' : Nat} : (Node.Defs f0 f1 f2 f3 f4 f5 f6 f7 f8 x).At a b' ↔ (a ≤ x.begin ∧ x.stop ≤ b') ∧ x.begin ≤ x.stop ∧ Kid f0 x ∧ OKid f2 x ∧ OKid f3 x ∧ Loc.Within f4 x ∧ Loc.Within f5 x ∧ Loc.Within f6 x ∧ OLoc.In f7 x ∧ OLoc.In f8 x := at_nested nested_Defs rfl
theorem at_Dstr {f0 : List Node} {f1 : Option Loc} {f2 : Option Loc} {x : Loc} {a b' : Nat} : (Node.Dstr f0 f1 f2 x).At a b' ↔ (a ≤ x.begin ∧ x.stop ≤ b') ∧ x.begin ≤ x.stop ∧ Kids f0 x ∧ OLoc.In f1 x ∧ OLoc.In f2 x := at_nested nested_Dstr rfl
theorem at_Dsym {f0 : List Node} {f1 : Option Loc} {f2 : Option Loc} {x : Loc} {a b' : Nat} : (Node.Dsym f0 f1 f2 x).At a b' ↔ (a ≤ x.begin ∧ x.stop ≤ b') ∧ x.begin ≤ x.stop ∧ Kids f0 x ∧ OLoc.In f1 x ∧ OLoc.In f2 x := at_nested nested_Dsym rfl
theorem at_EFlipFlop {f0 : Option Node} {f1 : Option Node} {f2 : Loc} {x : Loc} {a b' : Nat} : (Node.EFlipFlop f0 f1 f2 x).At a b' ↔ (a ≤ x.begin ∧ x.stop ≤ b') ∧ x.begin ≤ x.stop ∧ OKid f0 x ∧ OKid f1 x ∧ Loc.Within f2 x := at_nested nested_EFlipFlop rfl
theorem at_EmptyElse {x : Loc} {a b' : Nat} : (Node.EmptyElse x).At a b' ↔ (a ≤ x.begin ∧ x.stop ≤ b') ∧ x.begin ≤ x.stop := at_leaf nested_EmptyElse rfl
theorem at_Encoding {x : Loc} {a b' : Nat} : (Node.Encoding x).At a b' ↔ (a ≤ x.begin ∧ x.stop ≤ b') ∧ x.begin ≤ x.stop := at_leaf nested_Encoding rfl
theorem at_Ensure {f0 : Option Node} {f1 : Option Node} {f2 : Loc} {x : Loc} {a b' : Nat} : (Node.Ensure f0 f1 f2 x).At a b' ↔ (a ≤ x.begin ∧ x.stop ≤ b') ∧ x.begin ≤ x.stop ∧ OKid f0 x ∧ OKid f1 x ∧ Loc.Within f2 x := at_nested nested_Ensure rfl
theorem at_Erange {f0 : Option Node} {f1 : Option Node} {f2 : Loc} {x : Loc} {a b' : Nat} : (Node.Erange f0 f1 f2 x).At a b' ↔ (a ≤ x.begin ∧ x.stop ≤ b') ∧ x.begin ≤ x.stop ∧ OKid f0 x ∧ OKid f1 x ∧ Loc.Within f2 x := at_nested nested_Erange rfl
theorem at_False {x : Loc} {a b' : Nat} : (Node.False x).At a b' ↔ (a ≤ x.begin ∧ x.stop ≤ b') ∧ x.begin ≤ x.stop := at_leaf nested_False rfl
theorem at_File {x : Loc} {a b' : Nat} : (Node.File x).At a b' ↔ (a ≤ x.begin ∧ x.stop ≤ b') ∧ x.begin ≤ x.stop := at_leaf nested_File rfl
theorem at_FindPattern {f0 : List Node} {f1 : Option Loc} {f2 : Option Loc} {x : Loc} {a b' : Nat} : (Node.FindPattern f0 f1 f2 x).At a b' ↔ (a ≤ x.begin ∧ x.stop ≤ b') ∧ x.begin ≤ x.stop ∧ Kids f0 x ∧ OLoc.In f1 x ∧ OLoc.In f2 x := at_nested nested_FindPattern rfl
theorem at_Float {f0 : Text} {f1 : Option Loc} {x : Loc} {a b' : Nat} : (Node.Float f0 f1 x).At a b' ↔ (a ≤ x.begin ∧ x.stop ≤ b') ∧ x.begin ≤ x.stop ∧ OLoc.In f1 x := at_nested nested_Float rfl
theorem at_For {f0 : Node} {f1 : Node} {f2 : Option Node} {f3 : Loc} {f4 : Loc} {f5 : Loc} {f6 : Loc} {x : Loc} {a b' : Nat} : (Node.For f0 f1 f2 f3 f4 f5 f6 x).At a b' ↔ (a ≤ x.begin ∧ x.stop ≤ b') ∧ x.begin ≤ x.stop ∧ Kid f0 x ∧ Kid f1 x ∧ OKid f2 x ∧ Loc.Within f3 x ∧ Loc.Within f4 x ∧ Loc.Within f5 x ∧ Loc.Within f6 x := at_nested nested_For rfl
theorem at_ForwardArg {x : Loc} {a b' : Nat} : (Node.ForwardArg x).At a b' ↔ (a ≤ x.begin ∧ x.stop ≤ b') ∧ x.begin ≤ x.stop := at_leaf nested_ForwardArg rfl
theorem at_ForwardedArgs {x : Loc} {a b' : Nat} : (Node.ForwardedArgs x).At a b' ↔ (a ≤ x.begin ∧ x.stop ≤ b') ∧ x.begin ≤ x.stop := at_leaf nested_ForwardedArgs rfl
theorem at_Gvar {f0 : Text} {x : Loc} {a b' : Nat} : (Node.Gvar f0 x).At a b' ↔ (a ≤ x.begin ∧ x.stop ≤ b') ∧ x.begin ≤ x.stop := at_leaf nested_Gvar rfl
theorem at_Gvasgn {f0 : Text} {f1 : Option Node} {f2 : Loc} {f3 : Option Loc} {x : Loc} {a b' : Nat} : (Node.Gvasgn f0 f1 f2 f3 x).At a b' ↔ (a ≤ x.begin ∧ x.stop ≤ b') ∧ x.begin ≤ x.stop ∧ OKid f1 x ∧ Loc.Within f2 x ∧ OLoc.In f3 x := at_nested nested_Gvasgn rfl
theorem at_Hash {f0 : List Node} {f1 : Option Loc} {f2 : Option Loc} {x : Loc} {a b' : Nat} : (Node.Hash f0 f1 f2 x).At a b' ↔ (a ≤ x.begin ∧ x.stop ≤ b') ∧ x.begin ≤ x.stop ∧ Kids f0 x ∧ OLoc.In f1 x ∧ OLoc.In f2 x := at_nested nested_Hash rfl
theorem at_HashPattern {f0 : List Node} {f1 : Option Loc} {f2 : Option Loc} {x : Loc} {a b' : Nat} : (Node.HashPattern f0 f1 f2 x).At a b' ↔ (a ≤ x.begin ∧ x.stop ≤ b') ∧ x.begin ≤ x.stop ∧ Kids f0 x ∧ OLoc.In f1 x ∧ OLoc.In f2 x := at_nested nested_HashPattern rfl
theorem at_If {f0 : Node} {f1 : Option Node} {f2 : Option Node} {f3 : Loc} {f4 : Loc} {f5 : Option Loc} {f6 : Option Loc} {x : Loc} {a b' : Nat} : (Node.If f0 f1 f2 f3 f4 f5 f6 x).At a b' ↔ (a ≤ x.begin ∧ x.stop ≤ b') ∧ x.begin ≤ x.stop ∧ Kid f0 x ∧ OKid f1 x ∧ OKid f2 x ∧ Loc.Within f3 x ∧ Loc.Within f4 x ∧ OLoc.In f5 x ∧ OLoc.In f6 x := at_nested nested_If rfl
theorem at_IfGuard {f0 : Node} {f1 : Loc} {x : Loc} {a b' : Nat} : (Node.IfGuard f0 f1 x).At a b' ↔ (a ≤ x.begin ∧ x.stop ≤ b') ∧ x.begin ≤ x.stop ∧ Kid f0 x ∧ Loc.Within f1 x := at_nested nested_IfGuard rfl
theorem at_IfMod {f0 : Node} {f1 : Option Node} {f2 : Option Node} {f3 : Loc} {x : Loc} {a b' : Nat} : (Node.IfMod f0 f1 f2 f3 x).At a b' ↔ (a ≤ x.begin ∧ x.stop ≤ b') ∧ x.begin ≤ x.stop ∧ Kid f0 x ∧ OKid f1 x ∧ OKid f2 x ∧ Loc.Within f3 x := at_nested nested_IfMod rfl
theorem at_IfTernary {f0 : Node} {f1 : Node} {f2 : Node} {f3 : Loc} {f4 : Loc} {x : Loc} {a b' : Nat} : (Node.IfTernary f0 f1 f2 f3 f4 x).At a b' ↔ (a ≤ x.begin ∧ x.stop ≤ b') ∧ x.begin ≤ x.stop ∧ Kid f0 x ∧ Kid f1 x ∧ Kid f2 x ∧ Loc.Within f3 x ∧ Loc.Within f4 x := at_nested nested_IfTernary rfl
theorem at_IFlipFlop {f0 : Option Node} {f1 : Option Node} {f2 : Loc} {x : Loc} {a b' : Nat} : (Node.IFlipFlop f0 f1 f2 x).At a b' ↔ (a ≤ x.begin ∧ x.stop ≤ b') ∧ x.begin ≤ x.stop ∧ OKid f0 x ∧ OKid f1 x ∧ Loc.Within f2 x := at_nested nested_IFlipFlop rfl
theorem at_Index {f0 : Node} {f1 : List Node} {f2 : Loc} {f3 : Loc} {x : Loc} {a b' : Nat} : (Node.Index f0 f1 f2 f3 x).At a b' ↔ (a ≤ x.begin ∧ x.stop ≤ b') ∧ x.begin ≤ x.stop ∧ Kid f0 x ∧ Kids f1 x ∧ Loc.Within f2 x ∧ Loc.Within f3 x := at_nested nested_Index rfl
theorem at_IndexAsgn {f0 : Node} {f1 : List Node} {f2 : Option Node} {f3 : Loc} {f4 : Loc} {f5 : Option Loc} {x : Loc} {a b' : Nat} : (Node.IndexAsgn f0 f1 f2 f3 f4 f5 x).At a b' ↔ (a ≤ x.begin ∧ x.stop ≤ b') ∧ x.begin ≤ x.stop ∧ Kid f0 x ∧ Kids f1 x ∧ OKid f2 x ∧ Loc.Within f3 x ∧ Loc.Within f4 x ∧ OLoc.In f5 x := at_nested nested_IndexAsgn rfl
theorem at_Int {f0 : Text} {f1 : Option Loc} {x : Loc} {a b' : Nat} : (Node.Int f0 f1 x).At a b' ↔ (a ≤ x.begin ∧ x.stop ≤ b') ∧ x.begin ≤ x.stop ∧ OLoc.In f1 x := at_nested nested_Int rfl
theorem at_Irange {f0 : Option Node} {f1 : Option Node} {f2 : Loc} {x : Loc} {a b' : Nat} : (Node.Irange f0 f1 f2 x).At a b' ↔ (a ≤ x.begin ∧ x.stop ≤ b') ∧ x.begin ≤ x.stop ∧ OKid f0 x ∧ OKid f1 x ∧ Loc.Within f2 x := at_nested nested_Irange rfl
theorem at_Ivar {f0 : Text} {x : Loc} {a b' : Nat} : (Node.Ivar f0 x).At a b' ↔ (a ≤ x.begin ∧ x.stop ≤ b') ∧ x.begin ≤ x.stop := at_leaf nested_Ivar rfl
theorem at_Ivasgn {f0 : Text} {f1 : Option Node} {f2 : Loc} {f3 : Option Loc} {x : Loc} {a b' : Nat} : (Node.Ivasgn f0 f1 f2 f3 x).At a b' ↔ (a ≤ x.begin ∧ x.stop ≤ b') ∧ x.begin ≤ x.stop ∧ OKid f1 x ∧ Loc.Within f2 x ∧ OLoc.In f3 x := at_nested nested_Ivasgn rfl
theorem at_Kwarg {f0 : Text} {f1 : Loc} {x : Loc} {a b' : Nat} : (Node.Kwarg f0 f1 x).At a b' ↔ (a ≤ x.begin ∧ x.stop ≤ b') ∧ x.begin ≤ x.stop ∧ Loc.Within f1 x := at_nested nested_Kwarg rfl
theorem at_Kwargs {f0 : List Node} {x : Loc} {a b' : Nat} : (Node.Kwargs f0 x).At a b' ↔ (a ≤ x.begin ∧ x.stop ≤ b') ∧ x.begin ≤ x.stop ∧ Kids f0 x := at_nested nested_Kwargs rfl
theorem at_KwBegin {f0 : List Node} {f1 : Option Loc} {f2 : Option Loc} {x : Loc} {a b' : Nat} : (Node.KwBegin f0 f1 f2 x).At a b' ↔ (a ≤ x.begin ∧ x.stop ≤ b') ∧ x.begin ≤ x.stop ∧ Kids f0 x ∧ OLoc.In f1 x ∧ OLoc.In f2 x := at_nested nested_KwBegin rfl
theorem at_Kwnilarg {f0 : Loc} {x : Loc} {a b' : Nat} : (Node.Kwnilarg f0 x).At a b' ↔ (a ≤ x.begin ∧ x.stop ≤ b') ∧ x.begin ≤ x.stop ∧ Loc.Within f0 x := at_nested nested_Kwnilarg rfl
theorem at_Kwoptarg {f0 : Text} {f1 : Node} {f2 : Loc} {x : Loc} {a b' : Nat} : (Node.Kwoptarg f0 f1 f2 x).At a b' ↔ (a ≤ x.begin ∧ x.stop ≤ b') ∧ x.begin ≤ x.stop ∧ Kid f1 x ∧ Loc.Within f2 x := at_nested nested_Kwoptarg rfl
theorem at_Kwrestarg {f0 : Option Text} {f1 : Loc} {f2 : Option Loc} {x : Loc} {a b' : Nat} : (Node.Kwrestarg f0 f1 f2 x).At a b' ↔ (a ≤ x.begin ∧ x.stop ≤ b') ∧ x.begin ≤ x.stop ∧ Loc.Within f1 x ∧ OLoc.In f2 x := at_nested nested_Kwrestarg rfl
theorem at_Kwsplat {f0 : Node} {f1 : Loc} {x : Loc} {a b' : Nat} : (Node.Kwsplat f0 f1 x).At a b' ↔ (a ≤ x.begin ∧ x.stop ≤ b') ∧ x.begin ≤ x.stop ∧ Kid f0 x ∧ Loc.Within f1 x := at_nested nested_Kwsplat rfl
theorem at_Lambda {x : Loc} {a b' : Nat} : (Node.Lambda x).At a b' ↔ (a ≤ x.begin ∧ x.stop ≤ b') ∧ x.begin ≤ x.stop := at_leaf nested_Lambda rfl
theorem at_Line {x : Loc} {a b' : Nat} : (Node.Line x).At a b' ↔ (a ≤ x.begin ∧ x.stop ≤ b') ∧ x.begin ≤ x.stop := at_leaf nested_Line rfl
theorem at_Lvar {f0 : Text} {x : Loc} {a b' : Nat} : (Node.Lvar f0 x).At a b' ↔ (a ≤ x.begin ∧ x.stop ≤ b') ∧ x.begin ≤ x.stop := at_leaf nested_Lvar rfl
theorem at_Lvasgn {f0 : Text} {f1 : Option Node} {f2 : Loc} {f3 : Option Loc} {x : Loc} {a b' : Nat} : (Node.Lvasgn f0 f1 f2 f3 x).At a b' ↔ (a ≤ x.begin ∧ x.stop ≤ b') ∧ x.begin ≤ x.stop ∧ OKid f1 x ∧ Loc.Within f2 x ∧ OLoc.In f3 x := at_nested nested_Lvasgn rfl
theorem at_Masgn {f0 : Node} {f1 : Node} {f2 : Loc} {x : Loc} {a b' : Nat} : (Node.Masgn f0 f1 f2 x).At a b' ↔ (a ≤ x.begin ∧ x.stop ≤ b') ∧ x.begin ≤ x.stop ∧ Kid f0 x ∧ Kid f1 x ∧ Loc.Within f2 x := at_nested nested_Masgn rfl
theorem at_MatchAlt {f0 : Node} {f1 : Node} {f2 : Loc} {x : Loc} {a b' : Nat} : (Node.MatchAlt f0 f1 f2 x).At a b' ↔ (a ≤ x.begin ∧ x.stop ≤ b') ∧ x.begin ≤ x.stop ∧ Kid f0 x ∧ Kid f1 x ∧ Loc.Within f2 x := at_nested nested_MatchAlt rfl
theorem at_MatchAs {f0 : Node} {f1 : Node} {f2 : Loc} {x : Loc} {a b' : Nat} : (Node.MatchAs f0 f1 f2 x).At a b' ↔ (a ≤ x.begin ∧ x.stop ≤ b') ∧ x.begin ≤ x.stop ∧ Kid f0 x ∧ Kid f1 x ∧ Loc.Within f2 x := at_nested nested_MatchAs rfl
theorem at_MatchCurrentLine {f0 : Node} {x : Loc} {a b' : Nat} : (Node.MatchCurrentLine f0 x).At a b' ↔ (a ≤ x.begin ∧ x.stop ≤ b') ∧ x.begin ≤ x.stop ∧ Kid f0 x := at_nested nested_MatchCurrentLine rfl
theorem at_MatchNilPattern {f0 : Loc} {f1 : Loc} {x : Loc} {a b' : Nat} : (Node.MatchNilPattern f0 f1 x).At a b' ↔ (a ≤ x.begin ∧ x.stop ≤ b') ∧ x.begin ≤ x.stop ∧ Loc.Within f0 x ∧ Loc.Within f1 x := at_nested nested_MatchNilPattern rfl
theorem at_MatchPattern {f0 : Node} {f1 : Node} {f2 : Loc} {x : Loc} {a b' : Nat} : (Node.MatchPattern f0 f1 f2 x).At a b' ↔ (a ≤ x.begin ∧ x.stop ≤ b') ∧ x.begin ≤ x.stop ∧ Kid f0 x ∧ Kid f1 x ∧ Loc.Within f2 x := at_nested nested_MatchPattern rfl
theorem at_MatchPatternP {f0 : Node} {f1 : Node} {f2 : Loc} {x : Loc} {a b' : Nat} : (Node.MatchPatternP f0 f1 f2 x).At a b' ↔ (a ≤ x.begin ∧ x.stop ≤ b') ∧ x.begin ≤ x.stop ∧ Kid f0 x ∧ Kid f1 x ∧ Loc.Within f2 x := at_nested nested_MatchPatternP rfl
theorem at_MatchRest {f0 : Option Node} {f1 : Loc} {x : Loc} {a b' : Nat} : (Node.MatchRest f0 f1 x).At a b' ↔ (a ≤ x.begin ∧ x.stop ≤ b') ∧ x.begin ≤ x.stop ∧ OKid f0 x ∧ Loc.Within f1 x := at_nested nested_MatchRest rfl
theorem at_MatchVar {f0 : Text} {f1 : Loc} {x : Loc} {a b' : Nat} : (Node.MatchVar f0 f1 x).At a b' ↔ (a ≤ x.begin ∧ x.stop ≤ b') ∧ x.begin ≤ x.stop ∧ Loc.Within f1 x := at_nested nested_MatchVar rfl
theorem at_MatchWithLvasgn {f0 : Node} {f1 : Node} {f2 : Loc} {x : Loc} {a b' : Nat} : (Node.MatchWithLvasgn f0 f1 f2 x).At a b' ↔ (a ≤ x.begin ∧ x.stop ≤ b') ∧ x.begin ≤ x.stop ∧ Kid f0 x ∧ Kid f1 x ∧ Loc.Within f2 x := at_nested nested_MatchWithLvasgn rfl
theorem at_Mlhs {f0 : List Node} {f1 : Option Loc} {f2 : Option Loc} {x : Loc} {a b' : Nat} : (Node.Mlhs f0 f1 f2 x).At a b' ↔ (a ≤ x.begin ∧ x.stop ≤ b') ∧ x.begin ≤ x.stop ∧ Kids f0 x ∧ OLoc.In f1 x ∧ OLoc.In f2 x := at_nested nested_Mlhs rfl
theorem at_Module {f0 : Node} {f1 : Option Node} {f2 : Loc} {f3 : Loc} {x : Loc} {a b' : Nat} : (Node.Module f0 f1 f2 f3 x).At a b' ↔ (a ≤ x.begin ∧ x.stop ≤ b') ∧ x.begin ≤ x.stop ∧ Kid f0 x ∧ OKid f1 x ∧ Loc.Within f2 x ∧ Loc.Within f3 x := at_nested nested_Module rfl
theorem at_Next {f0 : List Node} {f1 : Loc} {x : Loc} {a b' : Nat} : (Node.Next f0 f1 x).At a b' ↔ (a ≤ x.begin ∧ x.stop ≤ b') ∧ x.begin ≤ x.stop ∧ Kids f0 x ∧ Loc.Within f1 x := at_nested nested_Next rfl
theorem at_Nil {x : Loc} {a b' : Nat} : (Node.Nil x).At a b' ↔ (a ≤ x.begin ∧ x.stop ≤ b') ∧ x.begin ≤ x.stop := at_leaf nested_Nil rfl
theorem at_NthRef {f0 : Text} {x : Loc} {a b' : Nat} : (Node.NthRef f0 x).At a b' ↔ (a ≤ x.begin ∧ x.stop ≤ b') ∧ x.begin ≤ x.stop := at_leaf nested_NthRef rfl
theorem at_OpAsgn {f0 : Node} {f1 : Text} {f2 : Node} {f3 : Loc} {x : Loc} {a b' : Nat} : (Node.OpAsgn f0 f1 f2 f3 x).At a b' ↔ (a ≤ x.begin ∧ x.stop ≤ b') ∧ x.begin ≤ x.stop ∧ Kid f0 x ∧ Kid f2 x ∧ Loc.Within f3 x := at_nested nested_OpAsgn rfl
theorem at_Optarg {f0 : Text} {f1 : Node} {f2 : Loc} {f3 : Loc} {x : Loc} {a b' : Nat} : (Node.Optarg f0 f1 f2 f3 x).At a b' ↔ (a ≤ x.begin ∧ x.stop ≤ b') ∧ x.begin ≤ x.stop ∧ Kid f1 x ∧ Loc.Within f2 x ∧ Loc.Within f3 x := at_nested nested_Optarg rfl
theorem at_Or {f0 : Node} {f1 : Node} {f2 : Loc} {x : Loc} {a b' : Nat} : (Node.Or f0 f1 f2 x).At a b' ↔ (a ≤ x.begin ∧ x.stop ≤ b') ∧ x.begin ≤ x.stop ∧ Kid f0 x ∧ Kid f1 x ∧ Loc.Within f2 x := at_nested nested_Or rfl
theorem at_OrAsgn {f0 : Node} {f1 : Node} {f2 : Loc} {x : Loc} {a b' : Nat} : (Node.OrAsgn f0 f1 f2 x).At a b' ↔ (a ≤ x.begin ∧ x.stop ≤ b') ∧ x.begin ≤ x.stop ∧ Kid f0 x ∧ Kid f1 x ∧ Loc.Within f2 x := at_nested nested_OrAsgn rfl
theorem at_Pair {f0 : Node} {f1 : Node} {f2 : Loc} {x : Loc} {a b' : Nat} : (Node.Pair f0 f1 f2 x).At a b' ↔ (a ≤ x.begin ∧ x.stop ≤ b') ∧ x.begin ≤ x.stop ∧ Kid f0 x ∧ Kid f1 x ∧ Loc.Within f2 x := at_nested nested_Pair rfl
theorem at_Pin {f0 : Node} {f1 : Loc} {x : Loc} {a b' : Nat} : (Node.Pin f0 f1 x).At a b' ↔ (a ≤ x.begin ∧ x.stop ≤ b') ∧ x.begin ≤ x.stop ∧ Kid f0 x ∧ Loc.Within f1 x := at_nested nested_Pin rfl
theorem at_Postexe {f0 : Option Node} {f1 : Loc} {f2 : Loc} {f3 : Loc} {x : Loc} {a b' : Nat} : (Node.Postexe f0 f1 f2 f3 x).At a b' ↔ (a ≤ x.begin ∧ x.stop ≤ b') ∧ x.begin ≤ x.stop ∧ OKid f0 x ∧ Loc.Within f1 x ∧ Loc.Within f2 x ∧ Loc.Within f3 x := at_nested nested_Postexe rfl
theorem at_Preexe {f0 : Option Node} {f1 : Loc} {f2 : Loc} {f3 : Loc} {x : Loc} {a b' : Nat} : (Node.Preexe f0 f1 f2 f3 x).At a b' ↔ (a ≤ x.begin ∧ x.stop ≤ b') ∧ x.begin ≤ x.stop ∧ OKid f0 x ∧ Loc.Within f1 x ∧ Loc.Within f2 x ∧ Loc.Within f3 x := at_nested nested_Preexe rfl
theorem at_Procarg0 {f0 : List Node} {f1 : Option Loc} {f2 : Option Loc} {x : Loc} {a b' : Nat} : (Node.Procarg0 f0 f1 f2 x).At a b' ↔ (a ≤ x.begin ∧ x.stop ≤ b') ∧ x.begin ≤ x.stop ∧ Kids f0 x ∧ OLoc.In f1 x ∧ OLoc.In f2 x := at_nested nested_Procarg0 rfl
theorem at_Rational {f0 : Text} {f1 : Option Loc} {x : Loc} {a b' : Nat} : (Node.Rational f0 f1 x).At a b' ↔ (a ≤ x.begin ∧ x.stop ≤ b') ∧ x.begin ≤ x.stop ∧ OLoc.In f1 x := at_nested nested_Rational rfl
theorem at_Redo {x : Loc} {a b' : Nat} : (Node.Redo x).At a b' ↔ (a ≤ x.begin ∧ x.stop ≤ b') ∧ x.begin ≤ x.stop := at_leaf nested_Redo rfl
theorem at_RegOpt {f0 : Option Text} {x : Loc} {a b' : Nat} : (Node.RegOpt f0 x).At a b' ↔ (a ≤ x.begin ∧ x.stop ≤ b') ∧ x.begin ≤ x.stop := at_leaf nested_RegOpt rfl
theorem at_Regexp {f0 : List Node} {f1 : Option Node} {f2 : Loc} {f3 : Loc} {x : Loc} {a b' : Nat} : (Node.Regexp f0 f1 f2 f3 x).At a b' ↔ (a ≤ x.begin ∧ x.stop ≤ b') ∧ x.begin ≤ x.stop ∧ Kids f0 x ∧ OKid f1 x ∧ Loc.Within f2 x ∧ Loc.Within f3 x := at_nested nested_Regexp rfl
theorem at_Rescue {f0 : Option Node} {f1 : List Node} {f2 : Option Node} {f3 : Option Loc} {x : Loc} {a b' : Nat} : (Node.Rescue f0 f1 f2 f3 x).At a b' ↔ (a ≤ x.begin ∧ x.stop ≤ b') ∧ x.begin ≤ x.stop ∧ OKid f0 x ∧ Kids f1 x ∧ OKid f2 x ∧ OLoc.In f3 x := at_nested nested_Rescue rfl
theorem at_RescueBody {f0 : Option Node} {f1 : Option Node} {f2 : Option Node} {f3 : Loc} {f4 : Option Loc} {f5 : Option Loc} {x : Loc} {a b' : Nat} : (Node.RescueBody f0 f1 f2 f3 f4 f5 x).At a b' ↔ (a ≤ x.begin ∧ x.stop ≤ b') ∧ x.begin ≤ x.stop ∧ OKid f0 x ∧ OKid f1 x ∧ OKid f2 x ∧ Loc.Within f3 x ∧ OLoc.In f4 x ∧ OLoc.In f5 x := at_nested nested_RescueBody rfl
theorem at_Restarg {f0 : Option Text} {f1 : Loc} {f2 : Option Loc} {x : Loc} {a b' : Nat} : (Node.Restarg f0 f1 f2 x).At a b' ↔ (a ≤ x.begin ∧ x.stop ≤ b') ∧ x.begin ≤ x.stop ∧ Loc.Within f1 x ∧ OLoc.In f2 x := at_nested nested_Restarg rfl
theorem at_Retry {x : Loc} {a b' : Nat} : (Node.Retry x).At a b' ↔ (a ≤ x.begin ∧ x.stop ≤ b') ∧ x.begin ≤ x.stop := at_leaf nested_Retry rfl
theorem at_Return {f0 : List Node} {f1 : Loc} {x : Loc} {a b' : Nat} : (Node.Return f0 f1 x).At a b' ↔ (a ≤ x.begin ∧ x.stop ≤ b') ∧ x.begin ≤ x.stop ∧ Kids f0 x ∧ Loc.Within f1 x := at_nested nested_Return rfl
theorem at_SClass {f0 : Node} {f1 : Option Node} {f2 : Loc} {f3 : Loc} {f4 : Loc} {x : Loc} {a b' : Nat} : (Node.SClass f0 f1 f2 f3 f4 x).At a b' ↔ (a ≤ x.begin ∧ x.stop ≤ b') ∧ x.begin ≤ x.stop ∧ Kid f0 x ∧ OKid f1 x ∧ Loc.Within f2 x ∧ Loc.Within f3 x ∧ Loc.Within f4 x := at_nested nested_SClass rfl
theorem at_Self_ {x : Loc} {a b' : Nat} : (Node.Self_ x).At a b' ↔ (a ≤ x.begin ∧ x.stop ≤ b') ∧ x.begin ≤ x.stop := at_leaf nested_Self_ rfl
theorem at_Send {f0 : Option Node} {f1 : Text} {f2 : List Node} {f3 : Option Loc} {f4 : Option Loc} {f5 : Option Loc} {f6 : Option Loc} {f7 : Option Loc} {x : Loc} {a b' : Nat} : (Node.Send f0 f1 f2 f3 f4 f5 f6 f7 x).At a b' ↔ (a ≤ x.begin ∧ x.stop ≤ b') ∧ x.begin ≤ x.stop ∧ OKid f0 x ∧ Kids f2 x ∧ OLoc.In f3 x ∧ OLoc.In f4 x ∧ OLoc.In f5 x ∧ OLoc.In f6 x ∧ OLoc.In f7 x := at_nested nested_Send rfl
theorem at_Shadowarg {f0 : Text} {x : Loc} {a b' : Nat} : (Node.Shadowarg f0 x).At a b' ↔ (a ≤ x.begin ∧ x.stop ≤ b') ∧ x.begin ≤ x.stop := at_leaf nested_Shadowarg rfl
theorem at_Splat {f0 : Option Node} {f1 : Loc} {x : Loc} {a b' : Nat} : (Node.Splat f0 f1 x).At a b' ↔ (a ≤ x.begin ∧ x.stop ≤ b') ∧ x.begin ≤ x.stop ∧ OKid f0 x ∧ Loc.Within f1 x := at_nested nested_Splat rfl
theorem at_Super {f0 : List Node} {f1 : Loc} {f2 : Option Loc} {f3 : Option Loc} {x : Loc} {a b' : Nat} : (Node.Super f0 f1 f2 f3 x).At a b' ↔ (a ≤ x.begin ∧ x.stop ≤ b') ∧ x.begin ≤ x.stop ∧ Kids f0 x ∧ Loc.Within f1 x ∧ OLoc.In f2 x ∧ OLoc.In f3 x := at_nested nested_Super rfl
theorem at_Sym {f0 : Bytes} {f1 : Option Loc} {f2 : Option Loc} {x : Loc} {a b' : Nat} : (Node.Sym f0 f1 f2 x).At a b' ↔ (a ≤ x.begin ∧ x.stop ≤ b') ∧ x.begin ≤ x.stop ∧ OLoc.In f1 x ∧ OLoc.In f2 x := at_nested nested_Sym rfl
theorem at_True {x : Loc} {a b' : Nat} : (Node.True x).At a b' ↔ (a ≤ x.begin ∧ x.stop ≤ b') ∧ x.begin ≤ x.stop := at_leaf nested_True rfl
theorem at_Undef {f0 : List Node} {f1 : Loc} {x : Loc} {a b' : Nat} : (Node.Undef f0 f1 x).At a b' ↔ (a ≤ x.begin ∧ x.stop ≤ b') ∧ x.begin ≤ x.stop ∧ Kids f0 x ∧ Loc.Within f1 x := at_nested nested_Undef rfl
theorem at_UnlessGuard {f0 : Node} {f1 : Loc} {x : Loc} {a b' : Nat} : (Node.UnlessGuard f0 f1 x).At a b' ↔ (a ≤ x.begin ∧ x.stop ≤ b') ∧ x.begin ≤ x.stop ∧ Kid f0 x ∧ Loc.Within f1 x := at_nested nested_UnlessGuard rfl
theorem at_Until {f0 : Node} {f1 : Option Node} {f2 : Loc} {f3 : Option Loc} {f4 : Option Loc} {x : Loc} {a b' : Nat} : (Node.Until f0 f1 f2 f3 f4 x).At a b' ↔ (a ≤ x.begin ∧ x.stop ≤ b') ∧ x.begin ≤ x.stop ∧ Kid f0 x ∧ OKid f1 x ∧ Loc.Within f2 x ∧ OLoc.In f3 x ∧ OLoc.In f4 x := at_nested nested_Until rfl
theorem at_UntilPost {f0 : Node} {f1 : Node} {f2 : Loc} {x : Loc} {a b' : Nat} : (Node.UntilPost f0 f1 f2 x).At a b' ↔ (a ≤ x.begin ∧ x.stop ≤ b') ∧ x.begin ≤ x.stop ∧ Kid f0 x ∧ Kid f1 x ∧ Loc.Within f2 x := at_nested nested_UntilPost rfl
theorem at_While {f0 : Node} {f1 : Option Node} {f2 : Loc} {f3 : Option Loc} {f4 : Option Loc} {x : Loc} {a b' : Nat} : (Node.While f0 f1 f2 f3 f4 x).At a b' ↔ (a ≤ x.begin ∧ x.stop ≤ b') ∧ x.begin ≤ x.stop ∧ Kid f0 x ∧ OKid f1 x ∧ Loc.Within f2 x ∧ OLoc.In f3 x ∧ OLoc.In f4 x := at_nested nested_While rfl
theorem at_WhilePost {f0 : Node} {f1 : Node} {f2 : Loc} {x : Loc} {a b' : Nat} : (Node.WhilePost f0 f1 f2 x).At a b' ↔ (a ≤ x.begin ∧ x.stop ≤ b') ∧ x.begin ≤ x.stop ∧ Kid f0 x ∧ Kid f1 x ∧ Loc.Within f2 x := at_nested nested_WhilePost rfl
theorem at_Xstr {f0 : List Node} {f1 : Loc} {f2 : Loc} {x : Loc} {a b' : Nat} : (Node.Xstr f0 f1 f2 x).At a b' ↔ (a ≤ x.begin ∧ x.stop ≤ b') ∧ x.begin ≤ x.stop ∧ Kids f0 x ∧ Loc.Within f1 x ∧ Loc.Within f2 x := at_nested nested_Xstr rfl
theorem at_Yield {f0 : List Node} {f1 : Loc} {f2 : Option Loc} {f3 : Option Loc} {x : Loc} {a b' : Nat} : (Node.Yield f0 f1 f2 f3 x).At a b' ↔ (a ≤ x.begin ∧ x.stop ≤ b') ∧ x.begin ≤ x.stop ∧ Kids f0 x ∧ Loc.Within f1 x ∧ OLoc.In f2 x ∧ OLoc.In f3 x := at_nested nested_Yield rfl
theorem at_ZSuper {x : Loc} {a b' : Nat} : (Node.ZSuper x).At a b' ↔ (a ≤ x.begin ∧ x.stop ≤ b') ∧ x.begin ≤ x.stop := at_leaf nested_ZSuper rfl
theorem at_Heredoc {ps : List Node} {b e : Loc} {x : Loc} {a b' : Nat} : (Node.Heredoc ps b e x).At a b' ↔ (a ≤ x.begin ∧ x.stop ≤ b') ∧ x.begin ≤ x.stop ∧ ∀ c ∈ ps, Nested c := at_nested nested_Heredoc rfl
theorem at_XHeredoc {ps : List Node} {b e : Loc} {x : Loc} {a b' : Nat} : (Node.XHeredoc ps b e x).At a b' ↔ (a ≤ x.begin ∧ x.stop ≤ b') ∧ x.begin ≤ x.stop ∧ ∀ c ∈ ps, Nested c := at_nested nested_XHeredoc rfl
theorem at_Str {v : Bytes} {b e : Option Loc} {x : Loc} {a b' : Nat} : (Node.Str v b e x).At a b' ↔ (a ≤ x.begin ∧ x.stop ≤ b') ∧ x.begin ≤ x.stop ∧ OLoc.In b x ∧ OLoc.In e x ∧ Apart b e := at_nested nested_Str rfl
theorem at_Numblock {f0 : Node} {f1 : Nat} {f2 : Node} {f3 : Loc} {f4 : Loc} {x : Loc} {a b' : Nat} : (Node.Numblock f0 f1 f2 f3 f4 x).At a b' ↔ (a ≤ x.begin ∧ x.stop ≤ b') ∧ x.begin ≤ x.stop ∧ Kid f0 x ∧ NumBody f2 x ∧ Loc.Within f3 x ∧ Loc.Within f4 x := at_nested nested_Numblock rfl
theorem at_When {ps : List Node} {body : Option Node} {k b : Loc} {x : Loc} {a b' : Nat} : (Node.When ps body k b x).At a b' ↔ (a ≤ x.begin ∧ x.stop ≤ b') ∧ x.begin ≤ x.stop ∧ Kids ps x ∧ OKid body x ∧ Loc.Within k x ∧ (body.isSome → Loc.Within b x) := at_nested nested_When rfl
theorem at_InPattern {p : Node} {guard body : Option Node} {k b : Loc} {x : Loc} {a b' : Nat} : (Node.InPattern p guard body k b x).At a b' ↔ (a ≤ x.begin ∧ x.stop ≤ b') ∧ x.begin ≤ x.stop ∧ Kid p x ∧ OKid guard x ∧ OKid body x ∧ Loc.Within k x ∧ (body.isSome → Loc.Within b x) := at_nested nested_InPattern rfl

end Verif
