import Verif.Lemmas.MethodSound
import Verif.Props.Scope
/-!
C57: what Ruby forbids in a method is not in the tree of a method.
-/
namespace Verif.Props
open Verif.Grammar hiding Loose
open Verif.Builder Verif.BuilderSpec Verif.MethodSpec

/-- **C57** for any nonterminal and any state of the parser: no method in the trees it gives defines a class or a module or assigns
a constant; and if the parser was in a method when it came to the nonterminal, then the trees themselves do not.

Partial because of what `MethodSpec.target` leaves out: `A::B ||= 1` and `::B += 1`, see `C57_not_for_scoped_targets`. -/
theorem C57_methods_define_nothing_partial (ext : BldExt) (dedent : List Atom → Int) (t : TTree) (hw : t.shape.wf = true) (y : NT)
    (hr : t.shape.root = some (.n y)) (s s' : BState) (v : PVal) (hp : t.parse ext dedent s = .ok (v, s')) (n : Node)
    (hn : n ∈ v.atoms.flatMap Atom.trees) : ¬ Breaks n ∧ (s.context.get .inDef = true → ¬ Holds n) := by
  have h := parse_method (ext := ext) (dedent := dedent) t hw
  unfold KidM at h
  rw [hr] at h
  obtain ⟨-, h⟩ := h s _ hp
  obtain ⟨a, ha, hn⟩ := List.mem_flatMap.mp hn
  obtain ⟨h1, h2⟩ := h a ha
  exact ⟨fun g => h1 ⟨n, hn, g⟩, fun hd g => h2 hd ⟨n, hn, g⟩⟩

/-- **C57** for a program. -/
theorem C57_programs_partial (ext : BldExt) (dedent : List Atom → Int) (t : TTree) (hw : t.shape.wf = true)
    (hr : t.shape.root = some (.n NT.program)) (n : Node) (c : Option Saved) (s : BState)
    (hp : t.parse ext dedent atStart = .ok (⟨[.onode (some n)], c⟩, s)) : ¬ Breaks n :=
  (C57_methods_define_nothing_partial ext dedent t hw _ hr _ _ _ hp n (by simp [Atom.trees])).1

/-! ### Examples -/

/-- Something forbidden is in `n`, in the parts of a method or not. -/
def hasB : Nat → Node → Bool
  | 0, _ => false
  | k + 1, n => forbidden n || n.children.any (hasB k)
/-- Somewhere in `n` is a definition of a method with something forbidden below it. -/
def defHasB : Nat → Node → Bool
  | 0, _ => false
  | k + 1, n => (method n).any (hasB k) || n.children.any (defHasB k)
/-- How a parse ends: `none` when an action returned an error. -/
def refusedB (t : TTree) : Bool :=
  match t.parse plainExt (fun _ => 0) atStart with
  | .error .err => true
  | _ => false

/-- `def m(a); class << self; A = a; end; end` -/
def inSingleton : TTree :=
  .node 0 [.node 1 [.node 3 [.node 6 [.node 34 [.node 57 [.node 249 [.node 333 [.node 59 [.node 349 [tk .kDEF "def" 0 3], .node
  58 [.node 123 [tk .tIDENTIFIER "m" 4 5]]], .node 624 [.node 623 [tk .tLPAREN2 "(" 5 6, .node 639 [.node 658 [.node 656 [.node
  655 [.node 654 [tk .tIDENTIFIER "a" 6 7]]]], .node 632 []], .node 719 [.node 717 [], tk .tRPAREN ")" 7 8]]], .node 10 [.node
  11 [.node 14 [.node 12 [.node 729 []], .node 727 [.node 725 [tk .tSEMI ";" 8 9]], .node 16 [.node 34 [.node 57 [.node 249
  [.node 331 [.node 347 [tk .kCLASS "class" 10 15], tk .tLSHFT "<<" 16 18, .node 57 [.node 249 [.node 300 [.node 614 [.node 607
  [tk .kSELF "self" 19 23]]]]], .node 725 [tk .tSEMI ";" 23 24], .node 10 [.node 11 [.node 13 [.node 16 [.node 34 [.node 57
  [.node 203 [.node 109 [.node 604 [tk .tCONSTANT "A" 25 26]], tk .tEQL "=" 27 28, .node 261 [.node 249 [.node 300 [.node 613
  [.node 601 [tk .tIDENTIFIER "a" 29 30]]]]]]]]]], .node 716 [.node 727 [.node 725 [tk .tSEMI ";" 30 31]]]], .node 540 [.node
  729 []], .node 547 [.node 729 []]], .node 357 [tk .kEND "end" 32 35]]]]]]], .node 716 [.node 727 [.node 725 [tk .tSEMI ";" 35
  36]]]], .node 540 [.node 729 []], .node 547 [.node 729 []]], .node 357 [tk .kEND "end" 37 40]]]]]]], .node 715 []]]

/-- The conditions of C57 hold for this program, and there is a constant assigned below a method: in a singleton class. -/
example : (inSingleton.shape.wf && inSingleton.shape.root == some (.n NT.program) && (match treeOf inSingleton with
    | some (n, _, ds) => defHasB 9 n && ds.isEmpty
    | none => false)) = true := by decide +kernel

/-- `def m; A = 1; end` -/
def constInDef : TTree :=
  .node 0 [.node 1 [.node 3 [.node 6 [.node 34 [.node 57 [.node 249 [.node 333 [.node 59 [.node 349 [tk .kDEF "def" 0 3], .node
  58 [.node 123 [tk .tIDENTIFIER "m" 4 5]]], .node 625 [.node 647 [], .node 725 [tk .tSEMI ";" 5 6]], .node 10 [.node 11 [.node
  13 [.node 16 [.node 34 [.node 57 [.node 203 [.node 109 [.node 604 [tk .tCONSTANT "A" 7 8]], tk .tEQL "=" 9 10, .node 261
  [.node 249 [.node 292 [.node 548 [.node 592 [.node 594 [tk .tINTEGER "1" 11 12]]]]]]]]]]], .node 716 [.node 727 [.node 725
  [tk .tSEMI ";" 12 13]]]], .node 540 [.node 729 []], .node 547 [.node 729 []]], .node 357 [tk .kEND "end" 14 17]]]]]]], .node
  715 []]]

/-- `def m; class A; end; end` -/
def classInDef : TTree :=
  .node 0 [.node 1 [.node 3 [.node 6 [.node 34 [.node 57 [.node 249 [.node 333 [.node 59 [.node 349 [tk .kDEF "def" 0 3], .node
  58 [.node 123 [tk .tIDENTIFIER "m" 4 5]]], .node 625 [.node 647 [], .node 725 [tk .tSEMI ";" 5 6]], .node 10 [.node 11 [.node
  13 [.node 16 [.node 34 [.node 57 [.node 249 [.node 330 [.node 347 [tk .kCLASS "class" 7 12], .node 121 [.node 119 [tk
  .tCONSTANT "A" 13 14]], .node 620 [], .node 10 [.node 11 [.node 12 [.node 729 []], .node 716 [.node 727 [.node 725 [tk .tSEMI
  ";" 14 15]]]], .node 540 [.node 729 []], .node 547 [.node 729 []]], .node 357 [tk .kEND "end" 16 19]]]]]]], .node 716 [.node
  727 [.node 725 [tk .tSEMI ";" 19 20]]]], .node 540 [.node 729 []], .node 547 [.node 729 []]], .node 357 [tk .kEND "end" 21
  24]]]]]]], .node 715 []]]

/-- These two are derivations of the grammar that the parser refuses. -/
example : (constInDef.shape.wf && refusedB constInDef && classInDef.shape.wf && refusedB classInDef) = true := by decide +kernel

/-- `def m; ::A ||= 1; end` -/
def scopedInDef : TTree :=
  .node 0 [.node 1 [.node 3 [.node 6 [.node 34 [.node 57 [.node 249 [.node 333 [.node 59 [.node 349 [tk .kDEF "def" 0 3], .node
  58 [.node 123 [tk .tIDENTIFIER "m" 4 5]]], .node 625 [.node 647 [], .node 725 [tk .tSEMI ";" 5 6]], .node 10 [.node 11 [.node
  13 [.node 16 [.node 34 [.node 57 [.node 210 [tk .tCOLON3 "::" 7 9, tk .tCONSTANT "A" 9 10, tk .tOP_ASGN "||=" 11 14, .node
  261 [.node 249 [.node 292 [.node 548 [.node 592 [.node 594 [tk .tINTEGER "1" 15 16]]]]]]]]]]], .node 716 [.node 727 [.node
  725 [tk .tSEMI ";" 16 17]]]], .node 540 [.node 729 []], .node 547 [.node 729 []]], .node 357 [tk .kEND "end" 18 21]]]]]]],
  .node 715 []]]

/-- An assignment of a constant. -/
def isCasgn : Node → Bool
  | .Casgn .. => true
  | _ => false
/-- `def m; ::A ||= 1; end` assigns a constant in a method, and the parser accepts it without a diagnostic: the actions for a target
with a scope (src/parser/parse.y:774-788, 2004-2038) call `const_op_assignable`, which does not look at the context, where those
for `A ||= 1` call `assignable`, which does. -/
theorem C57_not_for_scoped_targets : ∃ t : TTree, t.shape.wf = true ∧ t.shape.root = some (.n NT.program) ∧ ∃ n c s,
    t.parse plainExt (fun _ => 0) atStart = .ok (⟨[.onode (some n)], c⟩, s) ∧ s.diagnostics.isEmpty = true ∧
      ∃ name b d e f g x, n = .Def name none (some b) d e f g x ∧ (∃ r v o y, b = .OrAsgn r v o y ∧ isCasgn r = true) := by
  refine ⟨scopedInDef, by decide +kernel, by decide +kernel, ?_⟩
  have h : (match treeOf scopedInDef with
    | some (.Def _ none (some (.OrAsgn r _ _ _)) _ _ _ _ _, _, ds) => ds.isEmpty && isCasgn r
    | _ => false) = true := by decide +kernel
  unfold treeOf at h
  split at h
  · rename_i he
    split at he
    · rename_i hp
      cases he
      rw [Bool.and_eq_true] at h
      exact ⟨_, _, _, hp, h.1, _, _, _, _, _, _, _, rfl, _, _, _, _, rfl, h.2⟩
    · cases he
  · cases h

end Verif.Props
