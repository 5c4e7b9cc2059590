import Verif.Lemmas.GrammarSound
import Verif.Lemmas.GrammarBits
import Verif.Lemmas.GrammarScope
/-!
C41, C44, C45: the bookkeeping of the parser over every derivation of the grammar.
-/
namespace Verif.Props
open Verif.Grammar

/-! ### Example derivations -/

/-- `def m(a)⏎ b⏎ end` -/
def defTree : Tree :=
  .node 0 [.node 1 [.node 3 [.node 6 [.node 34 [.node 57 [.node 249 [.node 333 [.node 59 [.node 349 [.leaf .kDEF],
  .node 58 [.node 123 [.leaf .tIDENTIFIER]]], .node 624 [.node 623 [.leaf .tLPAREN2, .node 639 [.node 658 [.node 656
  [.node 655 [.node 654 [.leaf .tIDENTIFIER]]]], .node 632 []], .node 719 [.node 717 [], .leaf .tRPAREN]]], .node 10
  [.node 11 [.node 14 [.node 12 [.node 729 []], .node 727 [.node 726 [.leaf .tNL]], .node 16 [.node 34 [.node 57
  [.node 249 [.node 300 [.node 613 [.node 601 [.leaf .tIDENTIFIER]]]]]]]], .node 716 [.node 727 [.node 726 [.leaf
  .tNL]]]], .node 540 [.node 729 []], .node 547 [.node 729 []]], .node 357 [.leaf .kEND]]]]]]], .node 715 []]]

/-- `a = 1⏎ m { |b| c = 2 }` -/
def blockTree : Tree :=
  .node 0 [.node 1 [.node 4 [.node 3 [.node 6 [.node 34 [.node 57 [.node 203 [.node 109 [.node 601 [.leaf
  .tIDENTIFIER]], .leaf .tEQL, .node 261 [.node 249 [.node 292 [.node 548 [.node 592 [.node 594 [.leaf
  .tINTEGER]]]]]]]]]]], .node 727 [.node 726 [.leaf .tNL]], .node 6 [.node 34 [.node 57 [.node 249 [.node 318 [.node
  68 [.node 701 [.leaf .tIDENTIFIER]], .node 435 [.leaf .tLCURLY, .node 437 [.node 407 [.node 409 [.leaf .tPIPE,
  .node 398 [.node 658 [.node 656 [.node 655 [.node 654 [.leaf .tIDENTIFIER]]]], .node 389 []], .node 410 [.node 717
  []], .leaf .tPIPE]], .node 11 [.node 13 [.node 16 [.node 34 [.node 57 [.node 203 [.node 109 [.node 601 [.leaf
  .tIDENTIFIER]], .leaf .tEQL, .node 261 [.node 249 [.node 292 [.node 548 [.node 592 [.node 594 [.leaf
  .tINTEGER]]]]]]]]]]], .node 715 []]], .leaf .tRCURLY]]]]]]], .node 715 []]]

/-- `m (1)`, a command call whose lookahead is the parenthesis -/
def commandTree : Tree :=
  .node 0 [.node 1 [.node 3 [.node 6 [.node 34 [.node 50 [.node 63 [.node 69 [.node 68 [.node 701 [.leaf
  .tIDENTIFIER]], .node 278 [.node 274 [.node 283 [.node 256 [.node 249 [.node 305 [.leaf .tLPAREN_ARG, .node 34
  [.node 57 [.node 249 [.node 292 [.node 548 [.node 592 [.node 594 [.leaf .tINTEGER]]]]]]], .node 719 [.node 717 [],
  .leaf .tRPAREN]]]]], .node 282 [.node 729 []]]]]]]]]], .node 715 []]]

/-- Nothing fails and nothing is declared. -/
def quietWorld : World := ⟨fun _ => false, fun _ => 0, fun _ _ => []⟩
/-- Every action that can declares variable `v`, and the pattern variables and numbered parameters it can. -/
def noisyWorld : World :=
  ⟨fun _ => false, fun _ => 0, fun _ _ => [.declare (lit "v"), .argSet (some (lit "v")), .register 1, .declPv (lit "v"), .declPk (lit "v")]⟩

example : defTree.wf ∧ defTree.root = some (.n NT.program) ∧ defTree.toks =
    [.kDEF, .tIDENTIFIER, .tLPAREN2, .tIDENTIFIER, .tRPAREN, .tNL, .tIDENTIFIER, .tNL, .kEND] := by decide +kernel
example : blockTree.wf ∧ blockTree.root = some (.n NT.program) := by decide +kernel
example : commandTree.wf ∧ commandTree.root = some (.n NT.program) ∧
    commandTree.toks = [.tIDENTIFIER, .tLPAREN_ARG, .tINTEGER, .tRPAREN] := by decide +kernel

/-! ### C41 -/

theorem ctx_zero (c : Context) (h : ∀ f, c.get f = false) (hj : ∀ j, 7 ≤ j → c.value.getLsbD j = false) :
    c.isEmpty = true := by
  have : c.value = 0 := by
    apply BitVec.eq_of_getLsbD_eq
    intro i hi
    rw [show (0 : BitVec 64).getLsbD i = false from by simp]
    by_cases h7 : 7 ≤ i
    · exact hj i h7
    · have : ∀ i < 7, bitOf .inDefined = i ∨ bitOf .inKwarg = i ∨ bitOf .inArgdef = i ∨ bitOf .inDef = i ∨
          bitOf .inClass = i ∨ bitOf .inBlock = i ∨ bitOf .inLambda = i := by decide
      have : ∃ f, bitOf f = i := by
        rcases this i (by omega) with h | h | h | h | h | h | h <;> exact ⟨_, h⟩
      obtain ⟨f, rfl⟩ := this
      rw [← get_eq]; exact h f
  simp [Context.isEmpty, this]

theorem track_nil {a b : List Cell} (h : Track 0 0 a b) : b = a := by
  obtain ⟨_, pre, hp, rfl⟩ := h
  obtain rfl : pre = [] := List.length_eq_zero_iff.mp hp
  rfl

theorem program_false (f : CtxFlag) : ∀ r ∈ rel f NT.program, r.1 = false → r.2.1 = false := by
  cases f <;> decide +kernel

/-- **C41** (stacks and context). For every derivation of a program, whatever the actions declare and whichever of their branches
they take: either an action returns `Err` or, when the parse is complete, local scopes, current argument, numbered parameters,
pattern variables, pattern keys and context pass `assert_state_is_final`. -/
theorem C41_state_is_final (w : World) (t : Tree) (hwf : t.wf = true) (hr : t.root = some (.n NT.program)) :
    match exec w t St.new with
    | .ok (s', _) => s'.isFinal = true
    | .error e => e = .err := by
  have h := exec_fits w t hwf
  simp only [FitsRoot, hr] at h
  have h := h St.new (by intro d; cases d <;> decide +kernel)
  rcases he : exec w t St.new with e | ⟨s', v⟩
  · rw [he] at h
    cases e with
    | err => rfl
    | panic p => exact absurd h (by simp [Post])
    | badTree => exact absurd h (by simp [Post])
  · rw [he] at h
    obtain ⟨h1, h2, h3, h4⟩ := h
    have hz : ∀ d, d ≠ .env → stk d s' = stk d St.new := by
      intro d hd
      apply track_nil
      have := h1 d
      cases d <;> first | exact absurd rfl hd | exact this
    have harg := hz .arg (by simp)
    have hnum := hz .num (by simp)
    have hpv := hz .pv (by simp)
    have hpk := hz .pk (by simp)
    have henv : s'.env.stack = [] := by
      obtain ⟨_, pre, hp, he⟩ := h1 .env
      have hp : pre.length = 1 := hp
      obtain ⟨c, rfl⟩ := List.length_eq_one_iff.mp hp
      have : (stk .env St.new).drop ((stackOf NT.program).1.get .env) = [] := by decide +kernel
      rw [this] at he
      simpa [stk] using congrArg List.tail he
    have hctx : s'.ctx.isEmpty = true := by
      apply ctx_zero
      · intro f
        exact program_false f _ (h2 f) (by
          have : ∀ f, St.new.ctx.get f = false := by intro f; cases f <;> decide +kernel
          exact this f)
      · intro j hj
        rw [h4 j hj]
        simp [St.new, Context.empty]
    simp only [stk, St.new, CurArgStack.new, NumStack.new, VarStack.new, List.map_nil, List.map_eq_nil_iff] at harg hnum hpv hpk
    simp [St.isFinal, StaticEnv.isEmpty, CurArgStack.isEmpty, NumStack.isEmpty, VarStack.isEmpty, henv, harg, hnum, hpv, hpk, hctx]

example : (exec noisyWorld defTree St.new).map (fun r => (r.1.isFinal, r.1.env.variables)) = .ok (true, []) := by
  decide +kernel
example : (exec noisyWorld blockTree St.new).map (fun r => (r.1.isFinal, r.1.env.variables.length)) = .ok (true, 1) := by
  decide +kernel

/-- **C41** (`cond`, `cmdarg`, `paren_nest`). However the reading of the tokens of a program is interleaved with the actions — the
lexer pushes and pops at brackets, the actions push and pop at definitions, loops, commands and interpolations, and a command
argument list reaches below a bracket that was read ahead — in the end all three pass `assert_state_is_final`. -/
theorem C41_bits_are_final (t : Tree) (hwf : t.wf = true) (hr : t.root = some (.n NT.program)) (es : List Ev)
    (ht : Ev.toks es = t.toks ++ [.END_OF_INPUT]) (ho : Ev.ops es = t.ops) : (Bits.new.run es).isFinal = true := by
  obtain ⟨h1, h2, h3⟩ := tok_fits t hwf
  simp only [TokFits, OpFits, hr] at h1 h2 h3
  have h := run_inv es Bits.new 0 0 0 0 0 0 ⟨by decide, by decide, rfl, by simp [Bits.new, opens]⟩
    (by rw [ht, depth_append]; have := h1 0; simp only [Nat.zero_add] at this
        rw [show depth tokDir t.toks 0 = some 0 from this]; rfl)
    (by rw [ho]; exact h2 0) (by rw [ho]; exact h3 0)
  have hc : (Bits.new.run es).cond.stack = 0 := by
    apply BitVec.eq_of_toNat_eq; have := h.cond; simpa using this
  have hd : (Bits.new.run es).cmdarg.stack = 0 := by
    apply BitVec.eq_of_toNat_eq; have := h.cmd; simpa using this
  simp [Bits.isFinal, StackState.isEmpty, hc, hd, h.nest]

/-- The invariant at every moment: as many brackets are open as `paren_nest` says, and `cond`/`cmdarg` have no bit above the
brackets and pushes that are open. -/
theorem C41_bits_bounded (t : Tree) (hwf : t.wf = true) (hr : t.root = some (.n NT.program)) (es es' : List Ev)
    (ht : Ev.toks (es ++ es') = t.toks ++ [.END_OF_INPUT]) (ho : Ev.ops (es ++ es') = t.ops) :
    0 ≤ (Bits.new.run es).parenNest := by
  obtain ⟨h1, h2, h3⟩ := tok_fits t hwf
  simp only [TokFits, OpFits, hr] at h1 h2 h3
  have e1 : Ev.toks (es ++ es') = Ev.toks es ++ Ev.toks es' := by simp [Ev.toks]
  have e2 : Ev.ops (es ++ es') = Ev.ops es ++ Ev.ops es' := by simp [Ev.ops]
  have d1 : depth tokDir (Ev.toks es ++ Ev.toks es') 0 = some 0 := by
    rw [← e1, ht, depth_append]; have := h1 0; simp only [Nat.zero_add] at this
    rw [show depth tokDir t.toks 0 = some 0 from this]; rfl
  have d2 : depth condDir (Ev.ops es ++ Ev.ops es') 0 = some 0 := by rw [← e2, ho]; exact h2 0
  have d3 : depth cmdDir (Ev.ops es ++ Ev.ops es') 0 = some 0 := by rw [← e2, ho]; exact h3 0
  rw [depth_append] at d1 d2 d3
  rcases k1 : depth tokDir (Ev.toks es) 0 with _ | l
  · simp [k1] at d1
  rcases k2 : depth condDir (Ev.ops es) 0 with _ | a
  · simp [k2] at d2
  rcases k3 : depth cmdDir (Ev.ops es) 0 with _ | c
  · simp [k3] at d3
  have h := run_inv es Bits.new 0 0 0 l a c ⟨by decide, by decide, rfl, by simp [Bits.new, opens]⟩ k1 k2 k3
  rw [h.nest]; omega

/-- All actions before all tokens; the lookahead order for `m (1)`: the bracket is read before the argument list starts. -/
def eager (t : Tree) : List Ev := t.ops.map .op ++ (t.toks ++ [Tok.END_OF_INPUT]).map .read
example : (Bits.new.run (eager commandTree)).isFinal = true := by decide +kernel
def commandRun : List Ev :=
  [.op .argPush, .op (.numPush true), .read .tIDENTIFIER, .read .tLPAREN_ARG, .op .cmdPushLA, .read .tINTEGER] ++
    (commandTree.ops.drop 3).map .op ++ [.read .tRPAREN, .read .END_OF_INPUT]
example : Ev.toks commandRun = commandTree.toks ++ [.END_OF_INPUT] ∧ Ev.ops commandRun = commandTree.ops := by
  decide +kernel
example : (Bits.new.run commandRun).isFinal = true := by decide +kernel
example : ((Bits.new.run (commandRun.take 5)).cmdarg.stack.toNat, (Bits.new.run (commandRun.take 5)).parenNest) = (2, 1) := by
  decide +kernel
/-- With an opening parenthesis missing its partner nothing of this holds. -/
example : (Bits.new.run [.read .tLPAREN, .read .END_OF_INPUT]).isFinal = false := by decide +kernel

/-! ### Inside a program -/

/-- The nonterminals of patterns, between `in` and `then`. -/
def isPattern (x : NT) : Prop := NT.p_top_expr ≤ x ∧ x ≤ NT.p_variable
/-- The nonterminals that open the scope of a method. -/
def isDefHead (x : NT) : Prop := x = NT.def_name ∨ x = NT.defn_head ∨ x = NT.defs_head
instance (x : NT) : Decidable (isPattern x) := inferInstanceAs (Decidable (_ ∧ _))
instance (x : NT) : Decidable (isDefHead x) := inferInstanceAs (Decidable (_ ∨ _))

/-- A state in which something of nonterminal `x` may start: there is a current argument and a numbered parameter context, and in a
pattern there are sets of variables and keys. -/
structure Ready (x : NT) (s : St) : Prop where
  arg : s.arg.stack ≠ []
  num : s.num.stack ≠ []
  pv : isPattern x → s.pv.stack ≠ []
  pk : isPattern x → s.pk.stack ≠ []

theorem needs_small : ∀ x < 222, (stackOf x).1.env ≤ 1 ∧ (stackOf x).1.arg ≤ 1 ∧ (stackOf x).1.num ≤ 1 ∧
    (stackOf x).1.pv ≤ (if isPattern x then 1 else 0) ∧ (stackOf x).1.pk ≤ (if isPattern x then 1 else 0) := by
  decide +kernel

theorem keeps_height : ∀ x < 222, ¬ isDefHead x → (stackOf x).1 = (stackOf x).2 ∨ x = NT.p_lparen ∨ x = NT.p_lbracket := by
  decide +kernel

theorem lhs_small {r : Nat} {ρ : Rule} (h : rules[r]? = some ρ) : ρ.lhs < 222 := by
  have : rules.all (fun ρ => decide (ρ.lhs < 222)) = true := by decide +kernel
  simpa using List.all_eq_true.mp this _ (List.mem_of_getElem? h)

theorem root_small {t : Tree} {x : NT} (h : t.root = some (.n x)) : x < 222 := by
  cases t with
  | leaf => simp [Tree.root] at h
  | node r kids =>
    simp only [Tree.root, Option.map_eq_some_iff, Sym.n.injEq] at h
    obtain ⟨ρ, hρ, rfl⟩ := h
    exact lhs_small hρ

theorem ready_post {w : World} {t : Tree} {x : NT} {s : St} (hwf : t.wf = true) (hr : t.root = some (.n x))
    (hs : Ready x s) : Post x s (exec w t s) := by
  have h := exec_fits w t hwf
  simp only [FitsRoot, hr] at h
  obtain ⟨n1, n2, n3, n4, n5⟩ := needs_small x (root_small hr)
  have len : ∀ {α : Type} (l : List α), l ≠ [] → 1 ≤ l.length := by
    intro α l hl; cases l with
    | nil => exact absurd rfl hl
    | cons => simp
  refine h s (fun d => ?_)
  cases d with
  | env => simp only [D5.get, stk, List.length_map, List.length_cons]; omega
  | arg => have := len _ hs.arg; simp only [D5.get, stk, List.length_map]; omega
  | num => have := len _ hs.num; simp only [D5.get, stk, List.length_map]; omega
  | pv =>
    simp only [D5.get, stk, List.length_map]
    by_cases hp : isPattern x
    · have := len _ (hs.pv hp); rw [if_pos hp] at n4; omega
    · rw [if_neg hp] at n4; omega
  | pk =>
    simp only [D5.get, stk, List.length_map]
    by_cases hp : isPattern x
    · have := len _ (hs.pk hp); rw [if_pos hp] at n5; omega
    · rw [if_neg hp] at n5; omega

/-- **C44** (no panic). Running the actions of any derivation never panics: no cast meets another kind of value (so none meets one
that was already taken), `unextend` never pops the last scope, and declaring a numbered parameter or a pattern variable never
meets an empty stack. -/
theorem C44_no_panic (w : World) (t : Tree) (x : NT) (s : St) (hwf : t.wf = true) (hr : t.root = some (.n x))
    (hs : Ready x s) (p : Panic) : exec w t s ≠ .error (.panic p) := by
  intro h
  have := ready_post (w := w) hwf hr hs
  rw [h] at this
  exact this

/-- **C44** (whole programs). From the initial state there is nothing to assume. -/
theorem C44_program_no_panic (w : World) (t : Tree) (hwf : t.wf = true) (hr : t.root = some (.n NT.program)) (p : Panic) :
    exec w t St.new ≠ .error (.panic p) := by
  have := C41_state_is_final w t hwf hr
  intro h
  rw [h] at this
  simp at this

/-- **C44** (values). The value of a completed nonterminal was assigned by its action and not yet taken. -/
theorem C44_value_assigned (w : World) (t : Tree) (x : NT) (s s' : St) (v : Val) (hwf : t.wf = true)
    (hr : t.root = some (.n x)) (hs : Ready x s) (h : exec w t s = .ok (s', v)) :
    v.kind ≠ .Uninitialized ∧ v.kind ≠ .Stolen := by
  have hp := ready_post (w := w) hwf hr hs
  rw [h] at hp
  have hk := hp.2.2.1
  have : ∀ x < 222, ∀ k ∈ kindsOf x, k ≠ .Uninitialized ∧ k ≠ .Stolen := by decide +kernel
  exact this x (root_small hr) _ hk

/-- The hypotheses are met, and the conclusion is not empty: with a value of the wrong kind in its slot a cast does panic. -/
example : Ready NT.primary ⟨StaticEnv.new, CurArgStack.new.push none, NumStack.new.push true, .new, .new, .empty, 0⟩ :=
  ⟨by simp [CurArgStack.push], by simp [NumStack.push], fun h => absurd h (by decide), fun h => absurd h (by decide)⟩
example : castAll [⟨.Token, none⟩] [(.Node, 1)] = .error (.panic .unreachable) := rfl
example : castAll [⟨.Node, none⟩] [(.Node, 1), (.Node, 1)] = .error (.panic .unreachable) := rfl

/-- **C41** (inside a program). Every part of a program other than the head of a method definition leaves all stacks as high as they
were and everything below their tops untouched, and the flags that say where we are (keyword argument, method, class, block,
lambda) as they were. -/
theorem C41_parts_are_balanced (w : World) (t : Tree) (x : NT) (s s' : St) (v : Val) (hwf : t.wf = true)
    (hr : t.root = some (.n x)) (hs : Ready x s) (hx : ¬ isDefHead x) (hb : x ≠ NT.p_lparen ∧ x ≠ NT.p_lbracket)
    (h : exec w t s = .ok (s', v)) :
    (s'.env.stack = s.env.stack ∧ s'.arg.stack.tail = s.arg.stack.tail ∧ s'.arg.stack.length = s.arg.stack.length ∧
      s'.num.stack.tail = s.num.stack.tail ∧ s'.num.stack.length = s.num.stack.length ∧
      s'.pv.stack.tail = s.pv.stack.tail ∧ s'.pv.stack.length = s.pv.stack.length ∧
      s'.pk.stack.tail = s.pk.stack.tail ∧ s'.pk.stack.length = s.pk.stack.length) ∧
    ∀ f ∈ [CtxFlag.inKwarg, .inDef, .inClass, .inBlock, .inLambda], s'.ctx.get f = s.ctx.get f := by
  have hp := ready_post (w := w) hwf hr hs
  rw [h] at hp
  obtain ⟨h1, h2, _, _⟩ := hp
  have hk : (stackOf x).1 = (stackOf x).2 := by
    rcases keeps_height x (root_small hr) hx with h | h | h
    · exact h
    · exact absurd h hb.1
    · exact absurd h hb.2
  have hn := needs_small x (root_small hr)
  have tr : ∀ d, (stk d s').tail = (stk d s).tail ∧ (stk d s').length = (stk d s).length := by
    intro d
    obtain ⟨hl, pre, hpl, he⟩ := h1 d
    rw [← hk] at hpl
    have hle : (stackOf x).1.get d ≤ 1 := by
      have e : ∀ p : Prop, [Decidable p] → (if p then 1 else 0) ≤ 1 := by intro p _; split <;> omega
      have := e (isPattern x)
      cases d <;> simp only [D5.get] <;> omega
    generalize (stackOf x).1.get d = n at *
    rw [he]
    match n, hle with
    | 0, _ =>
      obtain rfl : pre = [] := List.length_eq_zero_iff.mp hpl
      simp
    | 1, _ =>
      obtain ⟨c, rfl⟩ := List.length_eq_one_iff.mp hpl
      simp only [List.cons_append, List.nil_append, List.tail_cons, List.length_cons, List.length_tail, List.drop_one,
        true_and]
      omega
  refine ⟨?_, ?_⟩
  · have inj : Function.Injective Cell.names := fun a b h => by simpa using h
    have inja : Function.Injective Cell.arg := fun a b h => by simpa using h
    have injn : Function.Injective Cell.num := fun a b h => by simpa using h
    obtain ⟨e1, e2⟩ := tr .env
    obtain ⟨a1, a2⟩ := tr .arg
    obtain ⟨n1, n2⟩ := tr .num
    obtain ⟨v1, v2⟩ := tr .pv
    obtain ⟨k1, k2⟩ := tr .pk
    simp only [stk, List.map_cons, List.tail_cons, ← List.map_tail, List.length_map] at e1 e2 a1 a2 n1 n2 v1 v2 k1 k2
    exact ⟨inj.list_map e1, inja.list_map a1, a2, injn.list_map n1, n2, inj.list_map v1, v2, inj.list_map k1, k2⟩
  · intro f hf
    have : ∀ x < 222, ¬ isDefHead x → ∀ f ∈ [CtxFlag.inKwarg, .inDef, .inClass, .inBlock, .inLambda],
        ∀ r ∈ rel f x, r.2.1 = r.1 := by decide +kernel
    exact this x (root_small hr) hx f hf _ (h2 f)

/-! ### C45: local variables -/

/-- **C45** (scope of a declaration). Running any part of a program other than the head of a method definition only adds variables
to the current scope and leaves the enclosing scopes alone. -/
theorem C45_locals_grow (w : World) (t : Tree) (x : NT) (s s' : St) (v : Val) (hwf : t.wf = true)
    (hr : t.root = some (.n x)) (hx : ¬ isDefHead x) (h : exec w t s = .ok (s', v)) :
    s.env.variables <:+ s'.env.variables ∧ s'.env.stack = s.env.stack := by
  have he := exec_env w t hwf
  simp only [FitsRootE, hr] at he
  obtain ⟨pre, new, h1, h2, _, _⟩ := he s s' v h
  have : (envSum x).1 = 0 := by
    simp only [isDefHead, not_or] at hx
    simp only [envSum, hx.1, hx.2.1, hx.2.2, or_self, if_false]
    split <;> rfl
  rw [this] at h2
  obtain rfl : pre = [] := List.length_eq_zero_iff.mp h2
  simp only [List.nil_append, List.cons.injEq] at h1
  exact ⟨⟨new, h1.1.symm⟩, h1.2⟩

/-- A production that contains a scope: its line in parse.y, how many of its items (symbols and actions) come before the scope is
open, whether the scope starts without variables, and whether it starts before anything else of the production. -/
structure ScopeRule where
  line : Nat
  head : Nat
  static : Bool
  first : Bool
deriving DecidableEq, Repr

/-- Endless methods (command and expression body, without and with `rescue`), classes, singleton classes, modules, methods,
lambdas, brace blocks and `do` blocks. -/
def scopeRules : List ScopeRule :=
  [⟨808, 1, true, true⟩, ⟨828, 1, true, true⟩, ⟨864, 1, true, false⟩, ⟨886, 1, true, false⟩,
   ⟨2347, 1, true, true⟩, ⟨2367, 1, true, true⟩, ⟨2403, 1, true, false⟩, ⟨2425, 1, true, false⟩,
   ⟨3286, 4, true, false⟩, ⟨3316, 4, true, false⟩, ⟨3342, 3, true, false⟩, ⟨3368, 1, true, true⟩, ⟨3387, 1, true, false⟩,
   ⟨4087, 2, false, true⟩, ⟨4456, 1, false, true⟩, ⟨4481, 1, false, true⟩]

/-- These are all productions whose actions open or close a scope, except `def_name`, which opens the one of a method. -/
theorem scopeRules_all : ∀ ρ ∈ rules,
    (∃ act op, .a act ∈ ρ.rhs ∧ op ∈ act.ops ∧ (op = Op.envStatic ∨ op = Op.envDynamic ∨ op = Op.envPop)) →
    ρ.lhs = NT.def_name ∨ ∃ σ ∈ scopeRules, σ.line = ρ.line := by
  have h : rules.all (fun ρ => (ρ.lhs == NT.def_name || scopeRules.any fun σ => σ.line == ρ.line) ||
      ρ.rhs.all (fun | .a act => act.ops.all (fun o => o != .envStatic && o != .envDynamic && o != .envPop) | _ => true)) =
      true := by decide +kernel
  intro ρ hρ ⟨act, op, ha, ho, h3⟩
  have := List.all_eq_true.mp h ρ hρ
  simp only [Bool.or_eq_true, beq_iff_eq, List.any_eq_true] at this
  rcases this with this | this
  · exact this
  · have := List.all_eq_true.mp (List.all_eq_true.mp this _ ha) op ho
    rcases h3 with rfl | rfl | rfl <;> simp at this

theorem scopeRules_check : rules.all (fun ρ => scopeRules.all fun σ => σ.line != ρ.line ||
    (match itemsE (ρ.rhs.take σ.head) (0, false, true) with
      | some (p, fr, st) => p == 1 && (!σ.static || fr) && (!σ.first || st)
      | none => false) &&
    (itemsE (ρ.rhs.drop σ.head) (1, false, true)).any (fun y => etGe y (0, false, true))) = true := by decide +kernel

/-- **C45** (scopes). For every production with a scope: let `s1` be the state in which the scope has just been opened, that is
after the production's head. Then
* afterwards the variables and the enclosing scopes are exactly those that were current when the scope was opened: nothing declared
  inside leaks, nothing declared outside is lost;
* in methods, classes, singleton classes and modules the scope starts without variables;
* methods with a plain name, lambdas and blocks as a whole leave the variables exactly as they were. -/
theorem C45_scopes_are_closed (w : World) (r : Nat) (ρ : Rule) (kids : List Tree) (σ : ScopeRule) (s s' : St) (v : Val)
    (hρ : rules[r]? = some ρ) (hσ : σ ∈ scopeRules) (hl : σ.line = ρ.line) (hwf : (Tree.node r kids).wf = true)
    (h : exec w (.node r kids) s = .ok (s', v)) :
    ∃ s1 vals, runItems w (ρ.rhs.take σ.head) (execL w kids) [] s = .ok (s1, vals) ∧
      s1.env.stack = s'.env.variables :: s'.env.stack ∧
      (σ.static = true → s1.env.variables = []) ∧
      (σ.first = true → s'.env = s.env) := by
  have hc := List.all_eq_true.mp (List.all_eq_true.mp scopeRules_check ρ (List.mem_of_getElem? hρ)) σ hσ
  simp only [hl, bne_self_eq_false, Bool.false_or, Bool.and_eq_true] at hc
  obtain ⟨hc1, hc2⟩ := hc
  split at hc1
  · rename_i p fr st hx
    simp only [Bool.and_eq_true, beq_iff_eq, Bool.or_eq_true, Bool.not_eq_eq_eq_not, Bool.not_true] at hc1
    obtain ⟨⟨rfl, hc3⟩, hc4⟩ := hc1
    simp only [Tree.wf, hρ, Bool.and_eq_true, decide_eq_true_iff] at hwf
    have hfit := fitsE_of w ρ.rhs kids hwf.1 (execL_env w kids hwf.2)
    simp only [exec] at h
    obtain ⟨vals', hi, _⟩ := runRule_items hρ h
    rw [← List.take_append_drop σ.head ρ.rhs] at hi hfit
    obtain ⟨s1, vals1, e1, e2, e3, e4⟩ := close_scope w _ _ _ hfit s s' [] vals' fr st hx hc2 hi
    refine ⟨s1, vals1, e1, e2, fun h => e3 ?_, fun h => e4 ?_⟩
    · rcases hc3 with h' | h' <;> simp_all
    · rcases hc4 with h' | h' <;> simp_all
  · simp at hc1

/-- A method, a block, a class are among these productions. -/
example : (rules[333]?.map fun ρ => (ρ.lhs, ρ.line)) = some (NT.primary, 3368) ∧
    (rules[437]?.map fun ρ => (ρ.lhs, ρ.line)) = some (NT.brace_body, 4456) ∧
    (rules[330]?.map fun ρ => (ρ.lhs, ρ.line)) = some (NT.primary, 3286) := by decide +kernel
/-- `a = 1; m { |b| c = 2 }` with every name called `v`: declared once at the top level, twice in the block, one left. -/
example : (exec noisyWorld blockTree St.new).map (fun r => r.1.env) = .ok ⟨[lit "v"], []⟩ := by decide +kernel

end Verif.Props
