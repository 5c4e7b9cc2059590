import Verif.Lemmas.ValueTable
import Verif.Lemmas.ValueEval
/-!
C48: over every derivation of the grammar, the locations in the syntax trees that the actions build nest.
-/
namespace Verif.Props
open Verif.Grammar Verif.Builder

/-! ### Placing a concrete tree -/

mutual
/-- The least end of a tree that starts at `a`, if it can be placed. -/
def placeFrom : TTree → Nat → Option Nat
  | .leaf t, a => if a ≤ t.loc.begin ∧ t.loc.begin + minSize t.tokenType ≤ t.loc.stop then some t.loc.stop else none
  | .node r kids, a => if opensHeredoc r kids then placeHeredoc kids a else placeAll kids a
def placeAll : List TTree → Nat → Option Nat
  | [], a => some a
  | t :: ts, a => (placeFrom t a).bind fun m => placeAll ts m
def placeHeredoc : List TTree → Nat → Option Nat
  | [], a => some a
  | t :: ts, a => (placeFrom t a).bind fun m => if placeEach ts then some m else none
def placeAny : TTree → Bool
  | .leaf t => t.loc.begin + minSize t.tokenType ≤ t.loc.stop
  | .node r kids => if isContents r then placeEach kids else
      (if opensHeredoc r kids then placeHeredoc kids 0 else placeAll kids 0).isSome
def placeEach : List TTree → Bool
  | [] => true
  | t :: ts => placeAny t && placeEach ts
end

mutual
theorem placeFrom_placed : ∀ (t : TTree) {a m : Nat}, placeFrom t a = some m → Placed t a m
  | .leaf t, a, m, h => by
    rw [placeFrom] at h
    rw [Placed]
    split at h
    · rename_i h1
      cases h
      exact ⟨h1.1, h1.2, Nat.le_refl _⟩
    · cases h
  | .node r kids, a, m, h => by
    rw [placeFrom] at h
    rw [Placed]
    split at h
    · rename_i ho
      rw [if_pos ho]
      exact placeHeredoc_placed kids h
    · rename_i ho
      rw [if_neg ho]
      exact placeAll_placed kids h
theorem placeAll_placed : ∀ (ts : List TTree) {a m : Nat}, placeAll ts a = some m → placedL ts a m
  | [], a, m, h => by
    rw [placeAll] at h
    rw [placedL]
    cases h
    exact Nat.le_refl _
  | t :: ts, a, m, h => by
    rw [placeAll, Option.bind_eq_some_iff] at h
    obtain ⟨p, h1, h2⟩ := h
    rw [placedL]
    exact ⟨p, placeFrom_placed t h1, placeAll_placed ts h2⟩
theorem placeHeredoc_placed : ∀ (ts : List TTree) {a m : Nat}, placeHeredoc ts a = some m → placedHeredoc ts a m
  | [], a, m, h => by
    rw [placeHeredoc] at h
    cases h
    rw [placedHeredoc]
    exact Nat.le_refl _
  | t :: ts, a, m, h => by
    rw [placeHeredoc, Option.bind_eq_some_iff] at h
    obtain ⟨p, h1, h2⟩ := h
    split at h2
    · rename_i he
      cases h2
      rw [placedHeredoc]
      exact ⟨placeFrom_placed t h1, placeEach_anywhere ts he⟩
    · cases h2
theorem placeAny_anywhere : ∀ (t : TTree), placeAny t = true → Anywhere t
  | .leaf t, h => by
    rw [placeAny, decide_eq_true_eq] at h
    rw [Anywhere]
    exact h
  | .node r kids, h => by
    rw [placeAny] at h
    rw [Anywhere]
    split at h
    · rename_i hc
      rw [if_pos hc]
      exact placeEach_anywhere kids h
    · rename_i hc
      rw [if_neg hc]
      obtain ⟨m, h⟩ := Option.isSome_iff_exists.1 h
      refine ⟨0, m, ?_⟩
      split at h
      · rename_i ho
        rw [if_pos ho]
        exact placeHeredoc_placed kids h
      · rename_i ho
        rw [if_neg ho]
        exact placeAll_placed kids h
theorem placeEach_anywhere : ∀ (ts : List TTree), placeEach ts = true → anywhereL ts
  | [], _ => by rw [anywhereL]; trivial
  | t :: ts, h => by
    rw [placeEach, Bool.and_eq_true] at h
    rw [anywhereL]
    exact ⟨placeAny_anywhere t h.1, placeEach_anywhere ts h.2⟩
end

/-! ### Example derivations -/

/-- A token as a tree. -/
def tk (ty : Tok) (s : String) (b e : Nat) : TTree := .leaf ⟨ty, ascs s, ⟨b, e⟩⟩
/-- No tables. -/
def plainExt : BldExt := ⟨fun _ => false, fun _ => false, none⟩

/-- `p(<<A, 1)⏎t⏎A⏎` -/
def heredocTree : TTree :=
  .node 0 [.node 1 [.node 3 [.node 6 [.node 34 [.node 57 [.node 249 [.node 319 [.node 426 [.node 68 [.node 701 [tk .tIDENTIFIER
  "p" 0 1]], .node 263 [tk .tLPAREN2 "(" 1 2, .node 269 [.node 274 [.node 285 [.node 283 [.node 256 [.node 249 [.node 293
  [.node 550 [.node 552 [.node 554 [tk .tSTRING_BEG "<<\"" 2 5, .node 572 [.node 571 [], .node 577 [tk .tSTRING_CONTENT "t\n"
  10 12]], tk .tSTRING_END "A" 12 13]]]]]]], tk .tCOMMA "," 5 6, .node 256 [.node 249 [.node 292 [.node 548 [.node 592 [.node
  594 [tk .tINTEGER "1" 7 8]]]]]]], .node 282 [.node 729 []]]], .node 719 [.node 717 [], tk .tRPAREN ")" 8 9]]]]]]]]], .node
  715 []]]

/-- `case 1⏎when 2 then⏎end` -/
def caseTree : TTree :=
  .node 0 [.node 1 [.node 3 [.node 6 [.node 34 [.node 57 [.node 249 [.node 326 [.node 345 [tk .kCASE "case" 0 4], .node 61
  [.node 57 [.node 249 [.node 292 [.node 548 [.node 592 [.node 594 [tk .tINTEGER "1" 5 6]]]]]]], .node 716 [.node 727 [.node
  726 [tk .tNL "" 6 7]]], .node 443 [.node 354 [tk .kWHEN "when" 7 11], .node 439 [.node 256 [.node 249 [.node 292 [.node 548
  [.node 592 [.node 594 [tk .tINTEGER "2" 12 13]]]]]]], .node 360 [tk .kTHEN "then" 14 18], .node 11 [.node 12 [.node 729 []],
  .node 716 [.node 727 [.node 726 [tk .tNL "" 18 19]]]], .node 444 [.node 366 [.node 729 []]]], .node 357 [tk .kEND "end" 19
  22]]]]]]], .node 715 []]]

/-- The value of a tree, if it is a single syntax tree. -/
def built (t : TTree) : Option Node :=
  match t.eval plainExt 0 {} with
  | some ([.onode (some n)], _) => some n
  | _ => none

theorem built_evals {t : TTree} {n : Node} (h : built t = some n) : Evals plainExt t [.onode (some n)] := by
  unfold built at h
  split at h
  · rename_i h1
    cases h
    exact t.eval_evals h1
  · cases h

theorem exists_of_any {o : Option α} {p : α → Bool} (h : o.any p = true) : ∃ x, o = some x ∧ p x = true := by
  cases o with
  | none => cases h
  | some x => exact ⟨x, rfl, h⟩

example : heredocTree.shape.wf ∧ heredocTree.shape.root = some (.n NT.program) ∧ placeFrom heredocTree 0 = some 9 := by decide +kernel
/-- The call is located at `p(<<A, 1)`, the here document at `<<A`, its text at 10..12. -/
example : (built heredocTree).any (fun n => n.expression == ⟨0, 9⟩ && n.children.map Node.expression == [⟨2, 5⟩, ⟨7, 8⟩] &&
    (n.children.map Node.children).map (·.map Node.expression) == [[⟨10, 12⟩], []]) = true := by decide +kernel

/-! ### C48 -/

theorem trees_at {ty : Ty} {x : Atom} (h : ty.At x a b) {n : Node} (hn : n ∈ x.trees) : n.At a b := by
  unfold Ty.At at h
  split at h
  · cases hn
  · cases hn
  · cases hn
  · rw [List.mem_singleton.1 hn]; exact h
  · rename_i o
    rw [Atom.trees, Option.mem_toList] at hn
    subst hn
    exact h
  · exact h.mem hn
  · rename_i g
    rcases g with o | k
    · rw [Atom.trees, Option.mem_toList] at hn
      subst hn
      exact h
    · cases hn
  · rename_i k
    rcases k with t | ⟨t, ps, e⟩
    · cases hn
    · obtain ⟨p, q, h1, h2, h3, -⟩ := h
      exact (h2.mem hn).mono h1.le h3.le
  · rename_i t
    rcases t with ⟨o, n'⟩
    rw [Atom.trees, Option.mem_toList] at hn
    cases hn
    exact h.2.1
  · rename_i g
    rcases g with ⟨_ | t, ns, _ | u⟩
    · obtain ⟨rfl, -⟩ := h; cases hn
    · exact absurd h id
    · exact absurd h id
    · obtain ⟨p, q, h1, h2, h3⟩ := h
      exact (h2.mem hn).mono h1.le h3.le
  · rename_i e
    rcases e with ⟨_ | t, _ | u⟩
    · cases hn
    · exact absurd h id
    · exact absurd h id
    · obtain ⟨p, h1, h2⟩ := h
      rw [List.mem_singleton.1 hn]
      exact h2.mono h1.le (Nat.le_refl _)
  · exact absurd h id

theorem chain_trees {ts : List Ty} {xs : List Atom} (h : Chain ts xs a b) {x : Atom} (hx : x ∈ xs) {n : Node} (hn : n ∈ x.trees) :
    n.At a b := by
  induction ts generalizing xs a with
  | nil => obtain ⟨rfl, -⟩ := chain_nil h; cases hx
  | cons t ts ih =>
    obtain ⟨y, ys, m, rfl, h1, h2⟩ := chain_cons h
    rcases List.mem_cons.1 hx with rfl | hx
    · exact (trees_at h1 hn).mono (Nat.le_refl _) h2.le
    · exact (ih h2 hx).mono h1.le (Nat.le_refl _)

/-- C48, without the claim about `begin_l` of a `when`/`in` branch that has no body (`Node.marks` leaves it out): take any
derivation tree of any nonterminal whose tokens come in the order of their positions, between `a` and `b`.  Whatever the actions
make of it, in every syntax tree they build every node's expression is a proper location that contains the node's other locations
and the expressions of its sub-nodes, and the whole lies between `a` and `b`. -/
theorem C48_locations_nest_partial (ext : BldExt) (t : TTree) (a b : Nat) (hw : t.shape.wf = true) (hp : Placed t a b)
    (vs : List Atom) (hv : Evals ext t vs) (x : Atom) (hx : x ∈ vs) (n : Node) (hn : n ∈ x.trees) :
    Located Node.marks n ∧ Loc.Within n.expression ⟨a, b⟩ := by
  obtain ⟨h1, h2, h3, h4⟩ := chain_trees (evals_at t hw hp hv) hx hn
  exact ⟨h1, h2, h3, h4⟩

example : ∃ n, built heredocTree = some n ∧ Located Node.marks n ∧ Loc.Within n.expression ⟨0, 9⟩ := by
  obtain ⟨n, h, -⟩ := exists_of_any (o := built heredocTree) (p := fun _ => true) (by decide +kernel)
  exact ⟨n, h, C48_locations_nest_partial plainExt heredocTree 0 9 (by decide +kernel) (placeFrom_placed _ (by decide +kernel)) _
    (built_evals h) _ (List.mem_singleton.2 rfl) _ (List.mem_singleton.2 rfl)⟩

/-- The value of a derivation of `program` is an optional syntax tree. -/
theorem C48_program (ext : BldExt) (t : TTree) (a b : Nat) (hw : t.shape.wf = true) (hr : t.shape.root = some (.n NT.program))
    (hp : Placed t a b) (vs : List Atom) (hv : Evals ext t vs) :
    vs = [.onode none] ∨ ∃ n, vs = [.onode (some n)] ∧ Located Node.marks n ∧ Loc.Within n.expression ⟨a, b⟩ := by
  have h := evals_at t hw hp hv
  rw [hr] at h
  obtain ⟨y, m, rfl, h1, -⟩ := chain_one (t := .onode) h
  obtain ⟨o, rfl, -⟩ := at_onode h1
  rcases o with _ | n
  · exact .inl rfl
  · exact .inr ⟨n, rfl, C48_locations_nest_partial ext t a b hw hp _ hv _ (List.mem_singleton.2 rfl) _ (List.mem_singleton.2 rfl)⟩

example : caseTree.shape.wf = true ∧ caseTree.shape.root = some (.n NT.program) := by decide +kernel

/-- A `when` or `in` branch without a body. -/
def bodiless : Node → Bool
  | .When _ none _ _ _ => true
  | .InPattern _ _ none _ _ _ => true
  | _ => false

/-- `p` holds of a node and everything below it. -/
inductive Everywhere (p : Node → Prop) : Node → Prop
  | mk (n : Node) (here : p n) (below : ∀ c ∈ n.children, Everywhere p c) : Everywhere p n

theorem everywhere_iff {p : Node → Prop} {n : Node} : Everywhere p n ↔ p n ∧ ∀ c ∈ n.children, Everywhere p c :=
  ⟨fun ⟨_, h, h'⟩ => ⟨h, h'⟩, fun ⟨h, h'⟩ => ⟨_, h, h'⟩⟩

theorem allMarks_mem {n : Node} (h : bodiless n = false) {l : Loc} (hl : l ∈ n.allMarks) : l ∈ n.marks := by
  unfold Node.marks
  split
  · cases h
  · cases h
  · simp only [Node.allMarks, Node.locs] at hl
    simp at hl ⊢
    tauto
  · exact hl

/-- Nothing else is left out: in a tree without such branches all location fields nest. -/
theorem C48_all_locations (n : Node) (h : Located Node.marks n) (hb : Everywhere (fun m => bodiless m = false) n) :
    Located Node.allMarks n := by
  induction h with
  | mk n h1 h2 h3 h4 ih =>
    obtain ⟨hb1, hb2⟩ := everywhere_iff.1 hb
    exact ⟨n, h1, fun l hl => h2 l (allMarks_mem hb1 hl), h3, fun c hc => ih c hc (hb2 c hc)⟩

example : Located Node.allMarks (.And (.True ⟨0, 4⟩) (.False ⟨8, 13⟩) ⟨5, 7⟩ ⟨0, 13⟩) := by
  apply C48_all_locations
  · refine ⟨_, by decide, by decide, by decide, fun c hc => ?_⟩
    simp only [Node.children, List.cons_append, List.nil_append, List.mem_cons, List.not_mem_nil, or_false] at hc
    rcases hc with rfl | rfl <;> exact ⟨_, by decide, by decide, nofun, nofun⟩
  · refine ⟨_, rfl, fun c hc => ?_⟩
    simp only [Node.children, List.cons_append, List.nil_append, List.mem_cons, List.not_mem_nil, or_false] at hc
    rcases hc with rfl | rfl <;> exact ⟨_, rfl, nofun⟩

/-- C48 fails for `begin_l` of a branch without a body: in `case 1⏎when 2 then⏎end` the `when` node is located at `when 2`, its
`begin_l` is the `then` after it. -/
theorem C48_when_begin_outside : ∃ t a b vs n, t.shape.wf = true ∧ t.shape.root = some (.n NT.program) ∧ Placed t a b ∧
    Evals plainExt t vs ∧ vs = [.onode (some n)] ∧ ¬ Located Node.allMarks n := by
  obtain ⟨n, h, hn⟩ := exists_of_any (o := built caseTree)
    (p := fun n => n.children.any fun c => c.allMarks.any fun l => !decide (Loc.Within l c.expression)) (by decide +kernel)
  refine ⟨caseTree, 0, 22, _, n, by decide +kernel, by decide +kernel, placeFrom_placed _ (by decide +kernel), built_evals h, rfl, ?_⟩
  intro hl
  obtain ⟨c, hc, hcl⟩ := List.any_eq_true.1 hn
  obtain ⟨l, hl', hll⟩ := List.any_eq_true.1 hcl
  cases hl with
  | mk _ _ _ _ sub =>
    cases sub c hc with
    | mk _ _ marked _ _ =>
      have := marked l hl'
      simp [this] at hll

end Verif.Props
