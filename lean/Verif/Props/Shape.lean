import Verif.Lemmas.ShapeTable
import Verif.Props.Locations
/-!
C49, C50: over every derivation of the grammar in which a `do` block is given to a call, the functions of the builder never run
into `unreachable!`, and the syntax trees they build have only those kinds of nodes at every place that can be expected there.
-/
namespace Verif.Props
open Verif.Grammar Verif.Builder

/-! ### Example derivations -/

/-- `foo 1, if x; .. end` around a statement that ends at `k`. -/
def inArgs (inner : TTree) (k : Nat) : TTree :=
  .node 0 [.node 1 [.node 3 [.node 6 [.node 34 [.node 50 [.node 63 [.node 69 [.node 68 [.node 701 [tk .tIDENTIFIER "foo" 0 3]],
  .node 278 [.node 274 [.node 285 [.node 283 [.node 256 [.node 249 [.node 292 [.node 548 [.node 592 [.node 594 [tk .tINTEGER
  "1" 4 5]]]]]]], tk .tCOMMA "," 5 6, .node 256 [.node 249 [.node 322 [.node 341 [tk .kIF "if" 7 9], .node 61 [.node 57 [.node
  249 [.node 300 [.node 613 [.node 601 [tk .tIDENTIFIER "x" 10 11]]]]]], .node 359 [.node 725 [tk .tSEMI ";" 11 12]], .node 11
  [.node 13 [.node 16 [.node 34 [.node 50 [.node 64 [.node 65 [inner]]]]]], .node 716 [.node 727 [.node 725 [tk .tSEMI ";" k (k
  + 1)]]]], .node 364 [.node 366 [.node 729 []]], .node 357 [tk .kEND "end" (k + 2) (k + 5)]]]]], .node 282 [.node 729
  []]]]]]]]]], .node 715 []]]

/-- `bar (a) {} do end` -/
def bracesDo : TTree :=
  .node 422 [.node 70 [.node 68 [.node 701 [tk .tIDENTIFIER "bar" 13 16]], .node 278 [.node 274 [.node 283 [.node 256 [.node
  249 [.node 305 [tk .tLPAREN_ARG "(" 17 18, .node 34 [.node 57 [.node 249 [.node 300 [.node 613 [.node 601 [tk .tIDENTIFIER
  "a" 18 19]]]]]], .node 719 [.node 717 [], tk .tRPAREN ")" 19 20]]]]], .node 282 [.node 729 []]]], .node 67 [tk .tLBRACE_ARG
  "{" 21 22, .node 437 [.node 406 [.node 729 []], .node 11 [.node 12 [.node 729 []], .node 715 []]], tk .tRCURLY "}" 22 23]],
  .node 421 [.node 351 [tk .kDO_BLOCK "do" 24 26], .node 438 [.node 406 [.node 729 []], .node 10 [.node 11 [.node 12 [.node 729
  []], .node 715 []], .node 540 [.node 729 []], .node 547 [.node 729 []]]], .node 357 [tk .kEND "end" 27 30]]]

/-- `return 1 do end` -/
def returnDo : TTree :=
  .node 422 [.node 77 [.node 358 [tk .kRETURN "return" 13 19], .node 274 [.node 283 [.node 256 [.node 249 [.node 292 [.node 548
  [.node 592 [.node 594 [tk .tINTEGER "1" 20 21]]]]]]], .node 282 [.node 729 []]]], .node 421 [.node 351 [tk .kDO_BLOCK "do" 22
  24], .node 438 [.node 406 [.node 729 []], .node 10 [.node 11 [.node 12 [.node 729 []], .node 715 []], .node 540 [.node 729
  []], .node 547 [.node 729 []]]], .node 357 [tk .kEND "end" 25 28]]]

/-- `return bar 1 do end` -/
def returnCallDo : TTree :=
  .node 422 [.node 77 [.node 358 [tk .kRETURN "return" 13 19], .node 273 [.node 69 [.node 68 [.node 701 [tk .tIDENTIFIER "bar"
  20 23]], .node 278 [.node 274 [.node 283 [.node 256 [.node 249 [.node 292 [.node 548 [.node 592 [.node 594 [tk .tINTEGER "1"
  24 25]]]]]]], .node 282 [.node 729 []]]]]]], .node 421 [.node 351 [tk .kDO_BLOCK "do" 26 28], .node 438 [.node 406 [.node 729
  []], .node 10 [.node 11 [.node 12 [.node 729 []], .node 715 []], .node 540 [.node 729 []], .node 547 [.node 729 []]]], .node
  357 [tk .kEND "end" 29 32]]]

example : (inArgs bracesDo 30).shape.wf ∧ (inArgs bracesDo 30).shape.root = some (.n NT.program) ∧
    placeFrom (inArgs bracesDo 30) 0 = some 35 := by decide +kernel
example : (inArgs returnDo 28).shape.wf ∧ (inArgs returnDo 28).shape.root = some (.n NT.program) ∧
    placeFrom (inArgs returnDo 28) 0 = some 33 := by decide +kernel
example : (inArgs returnCallDo 32).shape.wf ∧ (inArgs returnCallDo 32).shape.root = some (.n NT.program) ∧
    placeFrom (inArgs returnCallDo 32) 0 = some 37 := by decide +kernel

/-! ### C49 -/

/-- C49, for derivations in which the block of a `block_call` is given to a call: take any derivation tree of any nonterminal.
Whatever values the actions below have made, and whatever the state of the builder, no function called in an action runs into an
`unreachable!`: neither its own, nor the one in the conversion of a semantic value to the type it is declared with. -/
theorem C49_no_unreachable_partial (ext : BldExt) (t : TTree) (hw : t.shape.wf = true) (hb : t.blocksFit = true) (f : BFn)
    (xs : List Atom) (hc : t.Calls ext f xs) (indent : Int) (hd : f.Dedents indent xs) (s : BState) :
    (applyFn ext indent f xs).run s ≠ .error .unreachable := by
  obtain ⟨as, b, h1, h2⟩ := tree_calls t hw hb hc
  intro he
  have := fn_safe (ext := ext) (indent := indent) h1 h2 s
  rw [he] at this
  exact this hd rfl

/-- The subtree at a path. -/
def subAt : List Nat → TTree → Option TTree
  | [], t => some t
  | i :: is, t => (t.kids[i]?).bind (subAt is)

theorem callsL_of_get {ext : BldExt} {f : BFn} {xs : List Atom} {i : Nat} {ts : List TTree} {t : TTree} (h : ts[i]? = some t)
    (hc : t.Calls ext f xs) : callsL ext ts f xs := by
  induction ts generalizing i with
  | nil => cases h
  | cons u us ih =>
    rw [callsL]
    cases i with
    | zero => cases h; exact .inl hc
    | succ i => exact .inr (ih h)
theorem calls_of_sub {ext : BldExt} {f : BFn} {xs : List Atom} {u : TTree} : ∀ {p : List Nat} {t : TTree}, subAt p t = some u →
    u.Calls ext f xs → t.Calls ext f xs
  | [], t, h, hc => by cases h; exact hc
  | i :: is, t, h, hc => by
    rw [subAt, Option.bind_eq_some_iff] at h
    obtain ⟨k, h1, h2⟩ := h
    cases t with
    | leaf => cases h1
    | node r kids =>
      rw [TTree.Calls]
      exact .inr (callsL_of_get h1 (calls_of_sub h2 hc))

/-- The arguments of the call of `block` that gives the value of a tree, and the tables when it is made. -/
def blockArgs : TTree → Option (List Atom × BState)
  | .leaf _ => none
  | .node r kids =>
    match rules[r]?, outs[r]? with
    | some ρ, some (_, .mk [.call .block es]) =>
      if ρ.rhs.all (fun i => !i.refuses) then
        (evalL plainExt 0 kids {}).bind fun p => exEval plainExt 0 (slots ρ.rhs p.1) es p.2
      else none
    | _, _ => none

theorem blockArgs_calls {t : TTree} {xs : List Atom} {s : BState} (h : blockArgs t = some (xs, s)) : t.Calls plainExt .block xs := by
  unfold blockArgs at h
  split at h
  · cases h
  · split at h
    · rename_i h1 h2
      split at h
      · rename_i h3
        obtain ⟨p, h4, h5⟩ := Option.bind_eq_some_iff.1 h
        rw [TTree.Calls]
        refine .inl ⟨_, _, h1, h2, h3, p.1, evalL_evals _ h4, ?_⟩
        rw [ValOut.Calls, exCalls, Ex.Calls]
        exact .inl (.inl ⟨rfl, exEval_gives _ h5⟩)
      · cases h
    · cases h

/-- The call that makes a `Block` of `return bar 1 do end`, inside the arguments of a command. -/
example : ∃ xs s, (inArgs returnCallDo 32).Calls plainExt .block xs ∧ (applyFn plainExt 0 .block xs).run s ≠ .error .unreachable := by
  obtain ⟨⟨xs, s⟩, h, -⟩ := exists_of_any (o := blockArgs returnCallDo) (p := fun _ => true) (by decide +kernel)
  have hc : (inArgs returnCallDo 32).Calls plainExt .block xs := calls_of_sub (p := [0, 0, 0, 0, 0, 0, 0, 1, 0, 0, 2, 0, 0, 3, 0, 0, 0, 0, 0, 0, 0]) rfl (blockArgs_calls h)
  exact ⟨xs, s, hc, C49_no_unreachable_partial _ _ (by decide +kernel) (by decide +kernel) _ _ hc 0 trivial s⟩

/-- C49 fails otherwise: `foo 1, if x; bar (a) {} do end; end`.  The arguments of `foo` go on until the last `end`, so `do` is
read as `kDO_BLOCK` (src/lexer/parse_ident.rs:78-90), the block is attached to `bar (a) {}`, which has one, and
`Builder::block` panics. -/
theorem C49_do_after_braces_panics : ∃ (t : TTree) (xs : List Atom) (s : BState), t.shape.wf = true ∧ t.shape.root = some (.n NT.program) ∧
    t.Calls plainExt .block xs ∧ BFn.Dedents 0 .block xs ∧ (applyFn plainExt 0 .block xs).run s = .error .unreachable := by
  obtain ⟨⟨xs, s⟩, h, hp⟩ := exists_of_any (o := blockArgs bracesDo) (p := fun p => match (applyFn plainExt 0 .block p.1).run p.2 with
    | .error .unreachable => true
    | _ => false) (by decide +kernel)
  refine ⟨inArgs bracesDo 30, xs, s, by decide +kernel, by decide +kernel, calls_of_sub (p := [0, 0, 0, 0, 0, 0, 0, 1, 0, 0, 2, 0, 0, 3, 0, 0, 0, 0, 0, 0, 0]) rfl (blockArgs_calls h), trivial, ?_⟩
  dsimp only at hp
  split at hp
  · assumption
  · cases hp

/-! ### C50 -/

theorem has_trees {a : Abs} {x : Atom} (h : a.Has x) {n : Node} (hn : n ∈ x.trees) : Shaped n := by
  unfold Abs.Has at h
  split at h
  · cases hn
  · cases hn
  · rw [List.mem_singleton.1 hn]; exact h.2
  · rename_i o
    rw [Atom.trees, Option.mem_toList] at hn
    exact (h.1 n hn).2
  · exact (h.1 n hn).2
  · rename_i g
    rcases g with o | k
    · rw [Atom.trees, Option.mem_toList] at hn
      exact (h n hn).2
    · cases hn
  · rename_i k
    rcases k with t | ⟨t, ps, e⟩
    · cases hn
    · exact (h n hn).2
  · rename_i t
    rcases t with ⟨o, n'⟩
    rw [Atom.trees, Option.mem_toList] at hn
    exact (h n hn).2
  · rename_i g
    rcases g with ⟨t, ns, u⟩
    exact (h n hn).2
  · rename_i e
    rcases e with ⟨t, u⟩
    exact (h n (by simpa [Atom.trees] using hn)).2
  · exact absurd h id

theorem hasL_trees {as : List Abs} {xs : List Atom} (h : HasL as xs) {x : Atom} (hx : x ∈ xs) {n : Node} (hn : n ∈ x.trees) :
    Shaped n := by
  induction as generalizing xs with
  | nil => rw [hasL_nil h] at hx; cases hx
  | cons a as ih =>
    obtain ⟨y, ys, rfl, h1, h2⟩ := hasL_cons h
    rcases List.mem_cons.1 hx with rfl | hx
    · exact has_trees h1 hn
    · exact ih h2 hx

/-- C50, for derivations in which the block of a `block_call` is given to a call: take any derivation tree of any nonterminal.
Whatever the actions make of it, in every syntax tree they build every field of every node holds a node of a kind that can stand
there, and lists that are never empty are not. -/
theorem C50_shaped_partial (ext : BldExt) (t : TTree) (hw : t.shape.wf = true) (hb : t.blocksFit = true) (vs : List Atom)
    (hv : Evals ext t vs) (x : Atom) (hx : x ∈ vs) (n : Node) (hn : n ∈ x.trees) : Shaped n :=
  hasL_trees ((fineAll t hw hb).fine vs hv) hx hn

/-- The value of a derivation of `program` is absent or a tree of statements: never a part of an argument list, a pattern, a
parameter, a left-hand side, a branch of `case` or the like. -/
theorem C50_program_partial (ext : BldExt) (t : TTree) (hw : t.shape.wf = true) (hr : t.shape.root = some (.n NT.program))
    (hb : t.blocksFit = true) (vs : List Atom) (hv : Evals ext t vs) :
    vs = [.onode none] ∨ ∃ n, vs = [.onode (some n)] ∧ Has Shape.topK n ∧ Shaped n := by
  have h := (fineAll t hw hb).fine vs hv
  rw [hr] at h
  have h : HasL [.onode Shape.topK true] vs := h.le (by decide +kernel)
  obtain ⟨y, ys, rfl, h1, h2⟩ := hasL_cons h
  cases hasL_nil h2
  obtain ⟨o, rfl, h3⟩ := has_onode h1
  rcases o with _ | n
  · exact .inl rfl
  · exact .inr ⟨n, rfl, h3.1 n rfl⟩

example : ∃ n, built (inArgs returnCallDo 32) = some n ∧ Has Shape.topK n ∧ Shaped n := by
  obtain ⟨n, h, -⟩ := exists_of_any (o := built (inArgs returnCallDo 32)) (p := fun _ => true) (by decide +kernel)
  rcases C50_program_partial plainExt _ (by decide +kernel) (by decide +kernel) (by decide +kernel) _ (built_evals h) with h' | ⟨m, h', hm⟩
  · cases h'
  · cases h'; exact ⟨n, h, hm⟩

/-- Some node down there is of a kind that cannot stand where it is. -/
def misplaced : Nat → Node → Bool
  | 0, _ => false
  | k + 1, n => n.fields.any fun p => !p.1.testBit p.2.kind.ctorIdx || misplaced k p.2

theorem misplaced_not {k : Nat} {n : Node} (h : misplaced k n = true) : ¬ Shaped n := by
  induction k generalizing n with
  | zero => cases h
  | succ k ih =>
    rintro ⟨_, h1, h2, -⟩
    rw [misplaced, List.any_eq_true] at h
    obtain ⟨p, hp, h⟩ := h
    rw [Bool.or_eq_true] at h
    rcases h with h | h
    · have h1 : p.1.testBit p.2.kind.ctorIdx = true := h1 p hp
      rw [h1] at h; cases h
    · exact ih h (h2 p hp)

/-- C50 fails otherwise: `foo 1, if x; return 1 do end; end` gives a `Block` whose `call` is the number 1. -/
theorem C50_block_over_number : ∃ (t : TTree) (vs : List Atom) (n : Node), t.shape.wf = true ∧ t.shape.root = some (.n NT.program) ∧ Evals plainExt t vs ∧
    vs = [.onode (some n)] ∧ ¬ Shaped n := by
  obtain ⟨n, h, hn⟩ := exists_of_any (o := built (inArgs returnDo 28)) (p := misplaced 4) (by decide +kernel)
  exact ⟨inArgs returnDo 28, _, n, by decide +kernel, by decide +kernel, built_evals h, rfl, misplaced_not hn⟩

end Verif.Props
