import Verif.Lemmas.ScopeSound
import Verif.Props.Parse
/-!
C54: every local variable is bound in its scope.
-/
namespace Verif.Props
open Verif.Grammar hiding Loose
open Verif.Builder Verif.BuilderSpec Verif.ScopeSpec

/-- **C54**. In the tree of a program every node `Lvar` is in a scope that binds its name: an assignment, a parameter, a pattern
variable or a named group of a regexp in the same method, class, module or program, or in a block around it. Also, every name
the parser has declared at the end is bound in the scope of the program.

The exempted names are those that have no binding node: `_1` … `_9`, and the two marks for `...` and `&`, which are no names of
variables in Ruby. Programs excluded are those with the error `OrdinaryParamDefined`, and those in which a block is attached to a
jump with several arguments; for both the statement is wrong, see `C54_not_for_all_programs`. -/
theorem C54_variables_are_bound_partial (ext : BldExt) (dedent : List Atom → Int) (x : Text) (hn : isNumparamName x = false)
    (hf : x ≠ StaticEnv.FORWARD_ARGS) (ha : x ≠ StaticEnv.ANONYMOUS_BLOCKARG) (t : TTree) (hw : t.shape.wf = true)
    (hr : t.shape.root = some (.n NT.program)) (hb : t.blocksFit = true) (n : Node) (c : Option Saved) (s : BState)
    (hp : t.parse ext dedent atStart = .ok (⟨[.onode (some n)], c⟩, s)) (hd : ∀ l, ⟨.error, .OrdinaryParamDefined, l⟩ ∉ s.diagnostics) :
    Scoped ext x n ∧ (x ∈ s.staticEnv.variables → Binds ext x n) := by
  have hx : Plain x := ⟨hn, hf, ha⟩
  have h0 : ¬ Dcl x atStart := by intro h; cases h
  have hc : ¬ Clash s := fun ⟨l, h⟩ => hd l h
  exact ⟨program_scoped hx hw hr hb h0 hp hc (.onode (some n)) (List.mem_singleton.mpr rfl) n (List.mem_singleton.mpr rfl), program_bound hx hw hr hb h0 hp hc⟩

/-! ### Deciding it for a tree -/

/-- `x` is not bound in `n`, as far as fuel goes. -/
def unboundB (ext : BldExt) (x : Text) : Nat → Node → Bool
  | 0, _ => false
  | k + 1, n => !(ownNames ext n).contains x && (open_ n).all (unboundB ext x k)
theorem unboundB_sound {ext : BldExt} {x : Text} : ∀ {k : Nat} {n : Node}, unboundB ext x k n = true → ¬ Binds ext x n
  | 0, _, h => by cases h
  | k + 1, n, h => by
    simp only [unboundB, Bool.and_eq_true, Bool.not_eq_true', List.all_eq_true, List.contains_eq_mem, decide_eq_false_iff_not] at h
    intro g
    cases g with
    | own g => exact h.1 g
    | part g1 g2 => exact unboundB_sound (h.2 _ g1) g2
/-- `n` mentions `x`. -/
def usesB (ext : BldExt) (x : Text) : Nat → Node → Bool
  | 0, _ => false
  | k + 1, n => (match n with | .Lvar y _ => decide (y = x) | _ => false) || (open_ n).any (usesB ext x k) ||
    ((nested n).any (usesB ext x k) && (nested n).all (unboundB ext x k))
theorem usesB_sound {ext : BldExt} {x : Text} : ∀ {k : Nat} {n : Node}, usesB ext x k n = true → Uses ext x n
  | 0, _, h => by cases h
  | k + 1, n, h => by
    simp only [usesB, Bool.or_eq_true, Bool.and_eq_true, List.any_eq_true, List.all_eq_true] at h
    rcases h with (h | ⟨c, h1, h2⟩) | ⟨⟨c, h1, h2⟩, h3⟩
    · split at h
      · cases of_decide_eq_true h; exact .var
      · cases h
    · exact .part h1 (usesB_sound h2)
    · exact .nested h1 (usesB_sound h2) fun d hd => unboundB_sound (h3 d hd)

/-- The tree, the names declared and the errors of a parse that completes. -/
def treeOf (t : TTree) : Option (Node × List Text × List BldDiag) :=
  match t.parse plainExt (fun _ => 0) atStart with
  | .ok (⟨[.onode (some n)], _⟩, s) => some (n, s.staticEnv.variables, s.diagnostics)
  | _ => none

/-- `def m(a); a; end; a = 1; m { |;b| b = a; b }` -/
def defAndBlock : TTree :=
  .node 0 [.node 1 [.node 4 [.node 4 [.node 3 [.node 6 [.node 34 [.node 57 [.node 249 [.node 333 [.node 59 [.node 349 [tk .kDEF
  "def" 0 3], .node 58 [.node 123 [tk .tIDENTIFIER "m" 4 5]]], .node 624 [.node 623 [tk .tLPAREN2 "(" 5 6, .node 639 [.node 658
  [.node 656 [.node 655 [.node 654 [tk .tIDENTIFIER "a" 6 7]]]], .node 632 []], .node 719 [.node 717 [], tk .tRPAREN ")" 7
  8]]], .node 10 [.node 11 [.node 14 [.node 12 [.node 729 []], .node 727 [.node 725 [tk .tSEMI ";" 8 9]], .node 16 [.node 34
  [.node 57 [.node 249 [.node 300 [.node 613 [.node 601 [tk .tIDENTIFIER "a" 10 11]]]]]]]], .node 716 [.node 727 [.node 725 [tk
  .tSEMI ";" 11 12]]]], .node 540 [.node 729 []], .node 547 [.node 729 []]], .node 357 [tk .kEND "end" 13 16]]]]]]], .node 727
  [.node 725 [tk .tSEMI ";" 16 17]], .node 6 [.node 34 [.node 57 [.node 203 [.node 109 [.node 601 [tk .tIDENTIFIER "a" 18 19]],
  tk .tEQL "=" 20 21, .node 261 [.node 249 [.node 292 [.node 548 [.node 592 [.node 594 [tk .tINTEGER "1" 22 23]]]]]]]]]]],
  .node 727 [.node 725 [tk .tSEMI ";" 23 24]], .node 6 [.node 34 [.node 57 [.node 249 [.node 318 [.node 68 [.node 701 [tk
  .tIDENTIFIER "m" 25 26]], .node 435 [tk .tLCURLY "{" 27 28, .node 437 [.node 407 [.node 408 [tk .tPIPE "|" 29 30, .node 411
  [.node 717 [], tk .tSEMI ";" 30 31, .node 412 [.node 414 [tk .tIDENTIFIER "b" 31 32]], .node 717 []], tk .tPIPE "|" 32 33]],
  .node 11 [.node 14 [.node 13 [.node 16 [.node 34 [.node 57 [.node 203 [.node 109 [.node 601 [tk .tIDENTIFIER "b" 34 35]], tk
  .tEQL "=" 36 37, .node 261 [.node 249 [.node 300 [.node 613 [.node 601 [tk .tIDENTIFIER "a" 38 39]]]]]]]]]], .node 727 [.node
  725 [tk .tSEMI ";" 39 40]], .node 16 [.node 34 [.node 57 [.node 249 [.node 300 [.node 613 [.node 601 [tk .tIDENTIFIER "b" 41
  42]]]]]]]], .node 715 []]], tk .tRCURLY "}" 43 44]]]]]]], .node 715 []]]

/-- The conditions of C54 hold for this program; its tree mentions `a` in the scope of the program (from the block) and `b` only
inside; `a` is declared and `b` is not. -/
example : (defAndBlock.shape.wf && defAndBlock.shape.root == some (.n NT.program) && defAndBlock.blocksFit && !isNumparamName (lit "a") &&
    (match treeOf defAndBlock with
    | some (n, vars, ds) => usesB plainExt (lit "a") 9 n && unboundB plainExt (lit "b") 9 n && decide (vars = [lit "a"]) && ds.isEmpty
    | none => false)) = true := by decide +kernel

/-- `m { |a| _1; a }` -/
def numbered : TTree :=
  .node 0 [.node 1 [.node 3 [.node 6 [.node 34 [.node 57 [.node 249 [.node 318 [.node 68 [.node 701 [tk .tIDENTIFIER "m" 0 1]],
  .node 435 [tk .tLCURLY "{" 2 3, .node 437 [.node 407 [.node 409 [tk .tPIPE "|" 4 5, .node 398 [.node 658 [.node 656 [.node
  655 [.node 654 [tk .tIDENTIFIER "a" 5 6]]]], .node 389 []], .node 410 [.node 717 []], tk .tPIPE "|" 6 7]], .node 11 [.node 14
  [.node 13 [.node 16 [.node 34 [.node 57 [.node 249 [.node 300 [.node 613 [.node 601 [tk .tIDENTIFIER "_1" 8 10]]]]]]]], .node
  727 [.node 725 [tk .tSEMI ";" 10 11]], .node 16 [.node 34 [.node 57 [.node 249 [.node 300 [.node 613 [.node 601 [tk
  .tIDENTIFIER "a" 12 13]]]]]]]], .node 715 []]], tk .tRCURLY "}" 14 15]]]]]]], .node 715 []]]

/-- `return 1, (x = 2) do end; x` -/
def lostArg : TTree :=
  .node 0 [.node 1 [.node 4 [.node 3 [.node 6 [.node 34 [.node 50 [.node 64 [.node 65 [.node 422 [.node 77 [.node 358 [tk
  .kRETURN "return" 0 6], .node 274 [.node 285 [.node 283 [.node 256 [.node 249 [.node 292 [.node 548 [.node 592 [.node 594 [tk
  .tINTEGER "1" 7 8]]]]]]], tk .tCOMMA "," 8 9, .node 256 [.node 249 [.node 306 [tk .tLPAREN "(" 10 11, .node 11 [.node 13
  [.node 16 [.node 34 [.node 57 [.node 203 [.node 109 [.node 601 [tk .tIDENTIFIER "x" 11 12]], tk .tEQL "=" 13 14, .node 261
  [.node 249 [.node 292 [.node 548 [.node 592 [.node 594 [tk .tINTEGER "2" 15 16]]]]]]]]]]], .node 715 []], tk .tRPAREN ")" 16
  17]]]], .node 282 [.node 729 []]]], .node 421 [.node 351 [tk .kDO_BLOCK "do" 18 20], .node 438 [.node 406 [.node 729 []],
  .node 10 [.node 11 [.node 12 [.node 729 []], .node 715 []], .node 540 [.node 729 []], .node 547 [.node 729 []]]], .node 357
  [tk .kEND "end" 21 24]]]]]]]]], .node 727 [.node 725 [tk .tSEMI ";" 24 25]], .node 6 [.node 34 [.node 57 [.node 249 [.node
  300 [.node 613 [.node 601 [tk .tIDENTIFIER "x" 26 27]]]]]]]], .node 715 []]]

/-- There is a program in whose tree a local variable is bound nowhere. -/
def leavesUnbound (t : TTree) (x : Text) (ds : Bool) : Bool :=
  t.shape.wf && t.shape.root == some (.n NT.program) && !isNumparamName x && (match treeOf t with
  | some (n, _, d) => usesB plainExt x 9 n && unboundB plainExt x 9 n && (d.isEmpty == ds)
  | none => false)
theorem leavesUnbound_sound {t : TTree} {x : Text} {ds : Bool} (h : leavesUnbound t x ds = true) : t.shape.wf = true ∧
    t.shape.root = some (.n NT.program) ∧ isNumparamName x = false ∧ ∃ n c s, t.parse plainExt (fun _ => 0) atStart = .ok (⟨[.onode (some n)], c⟩, s) ∧
      s.diagnostics.isEmpty = ds ∧ Uses plainExt x n ∧ ¬ Binds plainExt x n := by
  unfold leavesUnbound at h
  simp only [Bool.and_eq_true, beq_iff_eq, Bool.not_eq_true'] at h
  obtain ⟨⟨⟨h1, h2⟩, h3⟩, h4⟩ := h
  refine ⟨h1, h2, h3, ?_⟩
  unfold treeOf at h4
  split at h4
  · rename_i n vars d he
    split at he
    · rename_i n' c s hp
      cases he
      simp only [Bool.and_eq_true, beq_iff_eq] at h4
      exact ⟨n, c, s, hp, h4.2, usesB_sound h4.1.1, unboundB_sound h4.1.2⟩
    · cases he
  · cases h4

/-- Without the two conditions of C54 it is wrong: after `m { |a| _1; a }` (parameters are dropped from the tree, the error is
reported and the parser goes on) and after `return 1, (x = 2) do end; x` (no error; the arguments after the first are dropped, see
`rewrite_args_and_loc`, src/builder.rs:2108-2145) the tree has a local variable that is bound nowhere. -/
theorem C54_not_for_all_programs :
    (∃ t : TTree, t.shape.wf = true ∧ t.shape.root = some (.n NT.program) ∧ t.blocksFit = true ∧ ∃ n c s,
      t.parse plainExt (fun _ => 0) atStart = .ok (⟨[.onode (some n)], c⟩, s) ∧ ¬ Scoped plainExt (lit "a") n) ∧
    (∃ t : TTree, t.shape.wf = true ∧ t.shape.root = some (.n NT.program) ∧ ∃ n c s,
      t.parse plainExt (fun _ => 0) atStart = .ok (⟨[.onode (some n)], c⟩, s) ∧ s.diagnostics.isEmpty = true ∧ ¬ Scoped plainExt (lit "x") n) := by
  refine ⟨⟨numbered, ?_⟩, ⟨lostArg, ?_⟩⟩
  · obtain ⟨h1, h2, -, n, c, s, h3, h4, h5, h6⟩ := leavesUnbound_sound (t := numbered) (x := lit "a") (ds := false) (by decide +kernel)
    exact ⟨h1, h2, by decide +kernel, n, c, s, h3, fun h => h6 (h.2 h5)⟩
  · obtain ⟨h1, h2, -, n, c, s, h3, h4, h5, h6⟩ := leavesUnbound_sound (t := lostArg) (x := lit "x") (ds := true) (by decide +kernel)
    exact ⟨h1, h2, n, c, s, h3, h4, fun h => h6 (h.2 h5)⟩

end Verif.Props
