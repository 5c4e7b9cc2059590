import Verif.Model.Grammar.Run
/-!
Brackets are balanced in every derivation, and so are the pushes and pops of the actions on `cond` and `cmdarg`; hence any
interleaving of the two ends with empty `cond` and `cmdarg`.
-/
namespace Verif.Grammar

/-- Depth along a list of steps (`some true` up, `some false` down); `none` when it would go below zero. -/
def depth {α : Type} (f : α → Option Bool) : List α → Nat → Option Nat
  | [], d => some d
  | x :: xs, d =>
    match f x with
    | none => depth f xs d
    | some true => depth f xs (d + 1)
    | some false => match d with
      | 0 => none
      | d + 1 => depth f xs d

/-- From any depth with at least `n`, the list ends `n` lower and `p` higher, never below. -/
def Bal {α : Type} (f : α → Option Bool) (n p : Nat) (xs : List α) : Prop := ∀ d, depth f xs (d + n) = some (d + p)

theorem depth_append {α : Type} (f : α → Option Bool) (xs ys : List α) (d : Nat) :
    depth f (xs ++ ys) d = (depth f xs d).bind (depth f ys) := by
  induction xs generalizing d with
  | nil => rfl
  | cons x xs ih =>
    simp only [List.cons_append, depth]
    split
    · exact ih d
    · exact ih _
    · cases d with
      | zero => rfl
      | succ d => exact ih d

theorem Bal.nil {α : Type} (f : α → Option Bool) (n : Nat) : Bal f n n [] := fun _ => rfl

theorem Bal.append {α : Type} {f : α → Option Bool} {n m k p : Nat} {xs ys : List α} (h : Bal f n m xs) (hk : k ≤ m)
    (h2 : Bal f k p ys) : Bal f n (m - k + p) (xs ++ ys) := by
  intro d
  rw [depth_append, h d]
  have := h2 (d + m - k)
  rw [show d + m - k + k = d + m from by omega] at this
  simp only [Option.bind_some, this]
  congr 1
  omega

/-! ### The table -/

/-- Bracket tokens. -/
def tokDir (t : Tok) : Option Bool := if opens t then some true else if closes t then some false else none

/-- Actions on `cond`. -/
def condDir : Op → Option Bool
  | .condPush _ => some true
  | .condPop => some false
  | _ => none

/-- Actions on `cmdarg`. -/
def cmdDir : Op → Option Bool
  | .cmdPush _ => some true
  | .cmdPop => some false
  | .cmdPushLA => some true
  | .cmdPopLA => some false
  | _ => none

/-- Brackets closed and opened by a nonterminal. -/
def tokSum (x : NT) : Nat × Nat :=
  if x = NT.rparen ∨ x = NT.rbracket ∨ x = NT.rbrace then (1, 0)
  else if x = NT.p_lparen ∨ x = NT.p_lbracket then (0, 1) else (0, 0)

/-- Pushes of the actions of a nonterminal on `cond` and `cmdarg`. -/
def bitSum (x : NT) : Nat × Nat :=
  if x = NT.def_name ∨ x = NT.defn_head ∨ x = NT.defs_head then (0, 1) else (0, 0)

def checkT (goal : Nat) : List Item → Nat → Bool
  | [], m => m == goal
  | .t tok :: is, m =>
    match tokDir tok with
    | none => checkT goal is m
    | some true => checkT goal is (m + 1)
    | some false => match m with
      | 0 => false
      | m + 1 => checkT goal is m
  | .n x :: is, m => decide ((tokSum x).1 ≤ m) && checkT goal is (m - (tokSum x).1 + (tokSum x).2)
  | .a _ :: is, m => checkT goal is m
  | .err :: _, _ => true

def checkB (f : Op → Option Bool) (goal : Nat) : List Item → Nat → Bool
  | [], m => m == goal
  | .t _ :: is, m => checkB f goal is m
  | .n x :: is, m => decide ((bitSum x).1 ≤ m) && checkB f goal is (m - (bitSum x).1 + (bitSum x).2)
  | .a act :: is, m =>
    match depth f act.ops m with
    | some m' => checkB f goal is m'
    | none => false
  | .err :: _, _ => true

theorem rules_brackets : rules.all (fun ρ =>
    checkT (tokSum ρ.lhs).2 ρ.rhs (tokSum ρ.lhs).1 && checkB condDir (bitSum ρ.lhs).2 ρ.rhs (bitSum ρ.lhs).1 &&
    checkB cmdDir (bitSum ρ.lhs).2 ρ.rhs (bitSum ρ.lhs).1) = true := by decide +kernel

theorem depth_shift {α : Type} {f : α → Option Bool} {xs : List α} {m m' : Nat} (h : depth f xs m = some m') (d : Nat) :
    depth f xs (d + m) = some (d + m') := by
  induction xs generalizing m with
  | nil => simp only [depth, Option.some.injEq] at h ⊢; omega
  | cons x xs ih =>
    simp only [depth] at h ⊢
    split at h
    · exact ih h
    · exact ih h
    · cases m with
      | zero => simp at h
      | succ m => exact ih h

theorem Bal.of_depth {α : Type} {f : α → Option Bool} {xs : List α} {m m' : Nat} (h : depth f xs m = some m') :
    Bal f m m' xs := fun d => depth_shift h d

/-- The tokens of a tree are balanced as the summary of its root says. -/
def TokFits (t : Tree) : Prop :=
  match t.root with
  | none => False
  | some (.t tok) => t.toks = [tok]
  | some (.n x) => Bal tokDir (tokSum x).1 (tokSum x).2 t.toks

/-- So are the operations. -/
def OpFits (f : Op → Option Bool) (t : Tree) : Prop :=
  match t.root with
  | none => False
  | some (.t _) => t.ops = []
  | some (.n x) => Bal f (bitSum x).1 (bitSum x).2 t.ops

theorem toks_items (goal n : Nat) (is : List Item) (kids : List Tree)
    (h : (syms is).map (·.map some) = some (rootsL kids)) (hk : ∀ t ∈ kids, TokFits t) (pre : List Tok) (m : Nat)
    (hp : Bal tokDir n m pre) (hc : checkT goal is m = true) : Bal tokDir n goal (pre ++ toksL kids) := by
  induction is generalizing kids pre m with
  | nil =>
    cases kids with
    | nil => simp only [checkT, beq_iff_eq] at hc; subst hc; simpa [toksL] using hp
    | cons => simp [syms, rootsL] at h
  | cons it is ih =>
    cases it with
    | err => simp [syms] at h
    | a act => exact ih kids (by simpa [syms] using h) hk pre m hp hc
    | t tok =>
      cases kids with
      | nil =>
        simp only [syms, Option.map_map, rootsL, Option.map_eq_some_iff] at h
        obtain ⟨a, _, ha⟩ := h
        simp at ha
      | cons k kids =>
        simp only [syms, Option.map_map, rootsL, Option.map_eq_some_iff] at h
        obtain ⟨a, ha1, ha2⟩ := h
        simp only [Function.comp, List.map_cons, List.cons.injEq] at ha2
        have hk0 := hk k (by simp)
        simp only [TokFits, ← ha2.1] at hk0
        simp only [toksL, hk0]
        rw [← List.append_assoc]
        have hd : ∀ d, depth tokDir (pre ++ [tok]) (d + n) = depth tokDir [tok] (d + m) := by
          intro d; rw [depth_append, hp d]; rfl
        simp only [checkT] at hc
        rcases hdir : tokDir tok with _ | b
        · rw [hdir] at hc
          exact ih kids (by simp [ha1, ha2.2]) (fun t ht => hk t (by simp [ht])) _ m
            (fun d => by rw [hd d]; simp [depth, hdir]) hc
        · cases b
          · rw [hdir] at hc
            cases m with
            | zero => simp at hc
            | succ m =>
              exact ih kids (by simp [ha1, ha2.2]) (fun t ht => hk t (by simp [ht])) _ m
                (fun d => by rw [hd d, ← Nat.add_assoc]; simp [depth, hdir]) hc
          · rw [hdir] at hc
            exact ih kids (by simp [ha1, ha2.2]) (fun t ht => hk t (by simp [ht])) _ (m + 1)
              (fun d => by rw [hd d]; simp [depth, hdir]; omega) hc
    | n y =>
      cases kids with
      | nil =>
        simp only [syms, Option.map_map, rootsL, Option.map_eq_some_iff] at h
        obtain ⟨a, _, ha⟩ := h
        simp at ha
      | cons k kids =>
        simp only [syms, Option.map_map, rootsL, Option.map_eq_some_iff] at h
        obtain ⟨a, ha1, ha2⟩ := h
        simp only [Function.comp, List.map_cons, List.cons.injEq] at ha2
        have hk0 := hk k (by simp)
        simp only [TokFits, ← ha2.1] at hk0
        simp only [checkT, Bool.and_eq_true, decide_eq_true_iff] at hc
        simp only [toksL]
        rw [← List.append_assoc]
        exact ih kids (by simp [ha1, ha2.2]) (fun t ht => hk t (by simp [ht])) _ _ (hp.append hc.1 hk0) hc.2

theorem ops_items (f : Op → Option Bool) (goal n : Nat) (is : List Item) (kids : List Tree)
    (h : (syms is).map (·.map some) = some (rootsL kids)) (hk : ∀ t ∈ kids, OpFits f t) (pre : List Op) (m : Nat)
    (hp : Bal f n m pre) (hc : checkB f goal is m = true) : Bal f n goal (pre ++ opsItems is (opsL kids)) := by
  induction is generalizing kids pre m with
  | nil => simp only [checkB, beq_iff_eq] at hc; subst hc; simpa [opsItems] using hp
  | cons it is ih =>
    cases it with
    | err => simp [syms] at h
    | a act =>
      simp only [checkB] at hc
      split at hc
      · rename_i m' hm
        simp only [opsItems]
        rw [← List.append_assoc]
        refine ih kids (by simpa [syms] using h) hk _ m' ?_ hc
        simpa using hp.append (Nat.le_refl m) (Bal.of_depth hm)
      · simp at hc
    | t tok =>
      cases kids with
      | nil =>
        simp only [syms, Option.map_map, rootsL, Option.map_eq_some_iff] at h
        obtain ⟨a, _, ha⟩ := h
        simp at ha
      | cons k kids =>
        simp only [syms, Option.map_map, rootsL, Option.map_eq_some_iff] at h
        obtain ⟨a, ha1, ha2⟩ := h
        simp only [Function.comp, List.map_cons, List.cons.injEq] at ha2
        have hk0 := hk k (by simp)
        simp only [OpFits, ← ha2.1] at hk0
        simp only [opsL, opsItems, hk0, List.nil_append]
        exact ih kids (by simp [ha1, ha2.2]) (fun t ht => hk t (by simp [ht])) _ m hp hc
    | n y =>
      cases kids with
      | nil =>
        simp only [syms, Option.map_map, rootsL, Option.map_eq_some_iff] at h
        obtain ⟨a, _, ha⟩ := h
        simp at ha
      | cons k kids =>
        simp only [syms, Option.map_map, rootsL, Option.map_eq_some_iff] at h
        obtain ⟨a, ha1, ha2⟩ := h
        simp only [Function.comp, List.map_cons, List.cons.injEq] at ha2
        have hk0 := hk k (by simp)
        simp only [OpFits, ← ha2.1] at hk0
        simp only [checkB, Bool.and_eq_true, decide_eq_true_iff] at hc
        simp only [opsL, opsItems]
        rw [← List.append_assoc]
        exact ih kids (by simp [ha1, ha2.2]) (fun t ht => hk t (by simp [ht])) _ _ (hp.append hc.1 hk0) hc.2

theorem rule_brackets {r : Nat} {ρ : Rule} (h : rules[r]? = some ρ) :
    checkT (tokSum ρ.lhs).2 ρ.rhs (tokSum ρ.lhs).1 = true ∧
    checkB condDir (bitSum ρ.lhs).2 ρ.rhs (bitSum ρ.lhs).1 = true ∧
    checkB cmdDir (bitSum ρ.lhs).2 ρ.rhs (bitSum ρ.lhs).1 = true := by
  have := List.all_eq_true.mp rules_brackets _ (List.mem_of_getElem? h)
  simpa [Bool.and_eq_true, and_assoc] using this

mutual
theorem tok_fits : (t : Tree) → t.wf = true → TokFits t ∧ OpFits condDir t ∧ OpFits cmdDir t
  | .leaf tok, _ => by simp [TokFits, OpFits, Tree.root, Tree.toks, Tree.ops]
  | .node r kids, h => by
    have hk := tokL_fits kids
    unfold Tree.wf at h
    split at h
    · simp at h
    · rename_i ρ hρ
      rw [Bool.and_eq_true, decide_eq_true_iff] at h
      have hk := hk h.2
      obtain ⟨h1, h2, h3⟩ := rule_brackets hρ
      simp only [TokFits, OpFits, Tree.root, hρ, Option.map_some, Tree.toks, Tree.ops]
      refine ⟨?_, ?_, ?_⟩
      · simpa using toks_items _ _ ρ.rhs kids h.1 (fun t ht => (hk t ht).1) [] _ (Bal.nil _ _) h1
      · simpa using ops_items _ _ _ ρ.rhs kids h.1 (fun t ht => (hk t ht).2.1) [] _ (Bal.nil _ _) h2
      · simpa using ops_items _ _ _ ρ.rhs kids h.1 (fun t ht => (hk t ht).2.2) [] _ (Bal.nil _ _) h3
theorem tokL_fits : (ts : List Tree) → wfL ts = true → ∀ t ∈ ts, TokFits t ∧ OpFits condDir t ∧ OpFits cmdDir t
  | [], _ => by simp
  | t :: ts, h => by
    simp only [wfL, Bool.and_eq_true] at h
    have h1 := tok_fits t h.1
    have h2 := tokL_fits ts h.2
    intro t' ht'
    rcases List.mem_cons.mp ht' with rfl | ht'
    · exact h1
    · exact h2 t' ht'
end

/-! ### Interleavings -/

theorem push_lt {s : StackState} {k : Nat} (h : s.stack.toNat < 2 ^ k) (b : Bool) :
    (s.push b).stack.toNat < 2 ^ (k + 1) := by
  have h1 : (s.push b).stack.toNat ≤ 2 * s.stack.toNat + 1 := by
    have hb : ((if b then 1 else 0 : BitVec 64)).toNat < 2 ^ 1 := by cases b <;> decide
    have hs : (s.stack <<< 1).toNat ≤ 2 * s.stack.toNat := by
      rw [BitVec.toNat_shiftLeft, Nat.shiftLeft_eq]
      exact Nat.le_trans (Nat.mod_le _ _) (by omega)
    have he : (s.stack <<< 1).toNat % 2 = 0 := by
      rw [BitVec.toNat_shiftLeft, Nat.shiftLeft_eq]
      omega
    have : (s.push b).stack.toNat = (s.stack <<< 1).toNat ||| (if b then 1 else 0 : BitVec 64).toNat := by
      simp only [StackState.push, BitVec.toNat_or]
    rw [this]
    have h2 : (s.stack <<< 1).toNat = 2 ^ 1 * ((s.stack <<< 1).toNat / 2) := by omega
    rw [h2, ← Nat.two_pow_add_eq_or_of_lt hb]
    omega
  have : 2 ^ (k + 1) = 2 * 2 ^ k := by rw [Nat.pow_succ]; omega
  omega

theorem pop_lt {s : StackState} {k : Nat} (h : s.stack.toNat < 2 ^ (k + 1)) : s.pop.stack.toNat < 2 ^ k := by
  simp only [StackState.pop, BitVec.toNat_ushiftRight, Nat.shiftRight_eq_div_pow]
  have : 2 ^ (k + 1) = 2 * 2 ^ k := by rw [Nat.pow_succ]; omega
  omega

/-- `l` brackets are open and the actions have pushed `a` (`cond`) and `c` (`cmdarg`) times. -/
structure BInv (b : Bits) (l a c : Nat) : Prop where
  cond : b.cond.stack.toNat < 2 ^ (l + a)
  cmd : b.cmdarg.stack.toNat < 2 ^ (l + c)
  nest : b.parenNest = l
  last : opens b.last = true → 1 ≤ l

theorem run_inv (es : List Ev) (b : Bits) (l a c l' a' c' : Nat) (h : BInv b l a c)
    (hl : depth tokDir (Ev.toks es) l = some l') (ha : depth condDir (Ev.ops es) a = some a')
    (hc : depth cmdDir (Ev.ops es) c = some c') : BInv (b.run es) l' a' c' := by
  induction es generalizing b l a c with
  | nil =>
    simp only [Ev.toks, Ev.ops, List.filterMap_nil, depth, Option.some.injEq] at hl ha hc
    subst hl ha hc
    exact h
  | cons e es ih =>
    cases e with
    | read t =>
      have ht : Ev.toks (.read t :: es) = t :: Ev.toks es := rfl
      have ho : Ev.ops (.read t :: es) = Ev.ops es := rfl
      rw [ht] at hl
      rw [ho] at ha hc
      simp only [depth, tokDir] at hl
      simp only [Bits.run, Bits.read]
      by_cases h1 : opens t = true
      · simp only [h1, if_true] at hl ⊢
        refine ih _ (l + 1) a c ⟨?_, ?_, ?_, fun _ => by omega⟩ hl ha hc
        · have := push_lt h.cond false
          rwa [show l + 1 + a = l + a + 1 from by omega]
        · have := push_lt h.cmd false
          rwa [show l + 1 + c = l + c + 1 from by omega]
        · simp [h.nest]
      · by_cases h2 : closes t = true
        · simp only [h1, h2, if_true] at hl ⊢
          cases l with
          | zero => simp at hl
          | succ l =>
            refine ih _ l a c ⟨?_, ?_, ?_, fun h' => absurd h' h1⟩ hl ha hc
            · exact pop_lt (by have := h.cond; rwa [show l + 1 + a = l + a + 1 from by omega] at this)
            · exact pop_lt (by have := h.cmd; rwa [show l + 1 + c = l + c + 1 from by omega] at this)
            · simp [h.nest]
        · simp only [h1, h2] at hl ⊢
          exact ih _ l a c ⟨h.cond, h.cmd, h.nest, fun h' => absurd h' h1⟩ hl ha hc
    | op o =>
      have ht : Ev.toks (.op o :: es) = Ev.toks es := rfl
      have ho : Ev.ops (.op o :: es) = o :: Ev.ops es := rfl
      rw [ht] at hl
      rw [ho] at ha hc
      simp only [depth] at ha hc
      simp only [Bits.run]
      cases o with
      | condPush v => exact ih _ l (a + 1) c ⟨push_lt h.cond v, h.cmd, h.nest, h.last⟩ hl ha hc
      | condPop =>
        cases a with
        | zero => simp [condDir] at ha
        | succ a => exact ih _ l a c ⟨pop_lt h.cond, h.cmd, h.nest, h.last⟩ hl ha hc
      | cmdPush v => exact ih _ l a (c + 1) ⟨h.cond, push_lt h.cmd v, h.nest, h.last⟩ hl ha hc
      | cmdPop =>
        cases c with
        | zero => simp [cmdDir] at hc
        | succ c => exact ih _ l a c ⟨h.cond, pop_lt h.cmd, h.nest, h.last⟩ hl ha hc
      | cmdPushLA =>
        simp only [Bits.op]
        split
        · rename_i hla
          have h1 : 1 ≤ l := h.last (by revert hla; cases b.last <;> simp [lookaheadOpen, opens])
          refine ih _ l a (c + 1) ⟨h.cond, ?_, h.nest, h.last⟩ hl ha hc
          obtain ⟨k, rfl⟩ : ∃ k, l = k + 1 := ⟨l - 1, by omega⟩
          have h2 : b.cmdarg.stack.toNat < 2 ^ (k + c + 1) := by
            have := h.cmd; rwa [show k + 1 + c = k + c + 1 from by omega] at this
          have := push_lt (push_lt (pop_lt h2) true) false
          rwa [show k + c + 1 + 1 = k + 1 + (c + 1) from by omega] at this
        · exact ih _ l a (c + 1) ⟨h.cond, push_lt h.cmd true, h.nest, h.last⟩ hl ha hc
      | cmdPopLA =>
        cases c with
        | zero => simp [cmdDir] at hc
        | succ c =>
          simp only [Bits.op]
          split
          · rename_i hla
            have h1 : 1 ≤ l := h.last (by rw [hla]; rfl)
            refine ih _ l a c ⟨h.cond, ?_, h.nest, h.last⟩ hl ha hc
            obtain ⟨k, rfl⟩ : ∃ k, l = k + 1 := ⟨l - 1, by omega⟩
            have h2 : b.cmdarg.stack.toNat < 2 ^ (k + c + 1 + 1) := by
              have := h.cmd; rwa [show k + 1 + (c + 1) = k + c + 1 + 1 from by omega] at this
            have := push_lt (pop_lt (pop_lt h2)) false
            rwa [show k + c + 1 = k + 1 + c from by omega] at this
          · exact ih _ l a c ⟨h.cond, pop_lt h.cmd, h.nest, h.last⟩ hl ha hc
      | _ => exact ih _ l a c h hl ha hc

end Verif.Grammar
