import Verif.Model.Grammar.Run
/-!
Local variables along a derivation: what running a part of a tree does to `static_env`.
-/
namespace Verif.Grammar

/-- From `a` to `b`: `p` scopes are opened above the current one, whose variables have only been added to. `fresh`: the
innermost open one has no variable yet. `strict`: nothing was added to the current one. -/
def ET (p : Nat) (fresh strict : Bool) (a b : StaticEnv) : Prop :=
  ∃ (pre : List (List Text)) (new : List Text), b.variables :: b.stack = pre ++ (new ++ a.variables) :: a.stack ∧
    pre.length = p ∧ (fresh = true → pre.head? = some []) ∧ (strict = true → new = [])

/-- (scopes opened, fresh, strict) after two steps. -/
def etComp : Nat × Bool × Bool → Nat × Bool × Bool → Nat × Bool × Bool
  | (0, _, st), (q, fr', st') => (q, fr', st && st')
  | (p + 1, fr, st), (q, fr', st') => (p + 1 + q, if q = 0 then fr && st' else fr', st)

theorem ET.refl (a : StaticEnv) : ET 0 false true a a := ⟨[], [], rfl, rfl, by simp, by simp⟩

theorem ET.comp {x y : Nat × Bool × Bool} {a b c : StaticEnv} (h : ET x.1 x.2.1 x.2.2 a b) (h' : ET y.1 y.2.1 y.2.2 b c) :
    ET (etComp x y).1 (etComp x y).2.1 (etComp x y).2.2 a c := by
  obtain ⟨p, fr, st⟩ := x
  obtain ⟨q, fr', st'⟩ := y
  obtain ⟨pre, new, he, hl, hf, hs⟩ := h
  obtain ⟨pre', new', he', hl', hf', hs'⟩ := h'
  cases p with
  | zero =>
    obtain rfl : pre = [] := List.length_eq_zero_iff.mp hl
    simp only [List.nil_append, List.cons.injEq] at he
    refine ⟨pre', new' ++ new, ?_, hl', hf', ?_⟩
    · rw [he', he.1, he.2, List.append_assoc]
    · intro h
      simp only [etComp, Bool.and_eq_true] at h
      rw [hs h.1, hs' h.2]; rfl
  | succ p =>
    obtain ⟨v, pre, rfl⟩ : ∃ v pre1, pre = v :: pre1 := by
      cases pre with
      | nil => simp at hl
      | cons v pre => exact ⟨v, pre, rfl⟩
    simp only [List.cons_append, List.cons.injEq] at he
    refine ⟨pre' ++ (new' ++ v) :: pre, new, ?_, ?_, ?_, hs⟩
    · rw [he', he.1, he.2]; simp
    · simp only [List.length_append, List.length_cons, etComp] at hl hl' ⊢; omega
    · intro h
      simp only [etComp] at h hl'
      by_cases hq : q = 0
      · subst hq
        obtain rfl : pre' = [] := List.length_eq_zero_iff.mp hl'
        simp only [if_true, Bool.and_eq_true] at h
        have := hf h.1
        simp only [List.head?_cons, Option.some.injEq] at this
        simp [this, hs' h.2]
      · rw [if_neg hq] at h
        have := hf' h
        cases pre' with
        | nil => simp at hl'; omega
        | cons => simpa using this

/-- Closing a scope. -/
theorem ET.pop {p : Nat} {fr st : Bool} {a b c : StaticEnv} (h : ET (p + 1) fr st a b) (hp : b.unextend = .ok c) :
    ET p false st a c := by
  obtain ⟨pre, new, he, hl, hf, hs⟩ := h
  cases pre with
  | nil => simp at hl
  | cons v pre =>
    simp only [List.cons_append, List.cons.injEq] at he
    refine ⟨pre, new, ?_, by simpa using hl, by simp, hs⟩
    simp only [StaticEnv.unextend] at hp
    split at hp
    · cases hp
    · rename_i w r hr
      cases hp
      rw [← he.2, hr]

/-- What an operation does to the scopes; `none`: it closes one. -/
def opE : Op → Option (Nat × Bool × Bool)
  | .envStatic => some (1, true, true)
  | .envDynamic => some (1, false, true)
  | .envPop => none
  | .touch ds => some (0, false, !decide (Dim.env ∈ ds))
  | _ => some (0, false, true)

theorem ET.weaken {p : Nat} {fr st : Bool} {a b : StaticEnv} (h : ET p fr true a b) : ET p fr st a b := by
  obtain ⟨pre, new, he, hl, hf, hs⟩ := h
  exact ⟨pre, new, he, hl, hf, fun _ => hs rfl⟩

theorem ET.of_eq {a b : StaticEnv} (h : b = a) : ET 0 false true a b := h ▸ ET.refl a

theorem touchAll_env (ds : List Dim) (ts : List Touch) (hts : ∀ t ∈ ts, t.dim ∈ ds) (s s' : St)
    (h : touchAll s ts = .ok s') : ET 0 false (!decide (Dim.env ∈ ds)) s.env s'.env := by
  induction ts generalizing s with
  | nil => cases h; exact (ET.refl _).weaken
  | cons t ts ih =>
    simp only [touchAll, bind, Except.bind] at h
    split at h
    · cases h
    · rename_i s1 h1
      have h2 := ih (fun t' h' => hts t' (by simp [h'])) s1 h
      have h3 : ET 0 false (!decide (Dim.env ∈ ds)) s.env s1.env := by
        cases t with
        | declare n =>
          have hd : Dim.env ∈ ds := hts (.declare n) (by simp)
          simp only [Touch.run, Except.ok.injEq] at h1
          subst h1
          exact ⟨[], [n], rfl, rfl, by simp, by simp [hd]⟩
        | _ =>
          refine (ET.of_eq ?_).weaken
          simp only [Touch.run, bind, Except.bind, pure, Except.pure] at h1
          (repeat' split at h1) <;> first | (cases h1; rfl) | (simp at h1)
      have := ET.comp (x := (0, false, _)) (y := (0, false, _)) h3 h2
      simp only [etComp, Bool.and_self] at this
      exact this

theorem op_env (w : World) (i : Nat) (vals : List Val) (s s' : St) (reg reg' : Option Saved) (op : Op)
    (h : runOp w i vals s reg op = .ok (s', reg')) :
    match opE op with
    | some y => ET y.1 y.2.1 y.2.2 s.env s'.env
    | none => s.env.unextend = .ok s'.env := by
  cases op with
  | envStatic =>
    simp only [runOp, Except.ok.injEq, Prod.mk.injEq] at h
    rw [← h.1]
    exact ⟨[[]], [], rfl, rfl, by simp, by simp⟩
  | envDynamic =>
    simp only [runOp, Except.ok.injEq, Prod.mk.injEq] at h
    rw [← h.1]
    exact ⟨[s.env.variables], [], rfl, rfl, by simp, by simp⟩
  | envPop =>
    simp only [runOp, bind, Except.bind] at h
    rcases hu : s.env.unextend with p | e
    · simp [hu, lift] at h
    · simp only [hu, lift, pure, Except.pure, Except.ok.injEq, Prod.mk.injEq] at h
      rw [← h.1]
      rfl
  | touch ds =>
    simp only [runOp, bind, Except.bind] at h
    rcases hu : touchAll s ((w.touches s.clock i).filter fun t => t.dim ∈ ds) with p | e
    · simp [hu, lift] at h
    · simp only [hu, lift, pure, Except.pure, Except.ok.injEq, Prod.mk.injEq] at h
      rw [← h.1]
      exact touchAll_env ds _ (by intro t ht; simpa using (List.mem_filter.mp ht).2) s e hu
  | restore f n =>
    simp only [runOp] at h
    split at h
    · cases h; exact ET.refl _
    · cases h
  | _ =>
    simp only [runOp, Except.ok.injEq, Prod.mk.injEq] at h
    rw [← h.1]
    exact ET.refl _

/-- The operations of an action. -/
def opsE : List Op → Nat × Bool × Bool → Option (Nat × Bool × Bool)
  | [], x => some x
  | op :: ops, x =>
    match opE op with
    | some y => opsE ops (etComp x y)
    | none =>
      match x with
      | (0, _, _) => none
      | (p + 1, _, st) => opsE ops (p, false, st)

theorem ops_env (w : World) (vals : List Val) (ops : List Op) (i : Nat) (a : StaticEnv) (s s' : St)
    (reg reg' : Option Saved) (x x' : Nat × Bool × Bool) (hx : ET x.1 x.2.1 x.2.2 a s.env)
    (hc : opsE ops x = some x') (h : runOps w vals i s reg ops = .ok (s', reg')) :
    ET x'.1 x'.2.1 x'.2.2 a s'.env := by
  induction ops generalizing i s reg x with
  | nil =>
    simp only [opsE, Option.some.injEq] at hc
    simp only [runOps, Except.ok.injEq, Prod.mk.injEq] at h
    rw [← hc, ← h.1]; exact hx
  | cons op ops ih =>
    simp only [runOps, bind, Except.bind] at h
    split at h
    · cases h
    · rename_i r hr
      obtain ⟨s1, reg1⟩ := r
      have h1 := op_env w i vals s s1 reg reg1 op hr
      simp only [opsE] at hc
      split at hc
      · rename_i y hy
        rw [hy] at h1
        exact ih (i + 1) s1 reg1 _ (hx.comp h1) hc h
      · rename_i hy
        rw [hy] at h1
        obtain ⟨p, fr, st⟩ := x
        cases p with
        | zero => simp at hc
        | succ p => exact ih (i + 1) s1 reg1 (p, false, st) (hx.pop h1) hc h

/-- Summary of each nonterminal. -/
def envSum (x : NT) : Nat × Bool × Bool :=
  if x = NT.def_name ∨ x = NT.defn_head then (1, true, true)
  else if x = NT.defs_head then (1, true, false)
  else if x = NT.lambda ∨ x = NT.brace_body ∨ x = NT.do_body ∨ x = NT.brace_block ∨ x = NT.cmd_brace_block ∨
      x = NT.do_block ∨ x = NT.fname ∨ x = NT.k_def ∨ x = NT.op ∨
      x = NT.reswords ∨ x = NT.k_do_block ∨ x = NT.k_do ∨ x = NT.k_end then (0, false, true)
  else (0, false, false)

/-- A state is at least as good as the summary asks. -/
def etGe (x y : Nat × Bool × Bool) : Bool := x.1 == y.1 && (!y.2.1 || x.2.1) && (!y.2.2 || x.2.2)

/-- A right-hand side. -/
def itemsE : List Item → Nat × Bool × Bool → Option (Nat × Bool × Bool)
  | [], x => some x
  | .t _ :: is, x => itemsE is x
  | .n y :: is, x => itemsE is (etComp x (envSum y))
  | .a act :: is, x =>
    if act.fails then none else
    match opsE act.ops x with
    | some x' => itemsE is x'
    | none => none
  | .err :: _, _ => none

theorem ET.ge {x y : Nat × Bool × Bool} {a b : StaticEnv} (h : ET x.1 x.2.1 x.2.2 a b) (hge : etGe x y = true) :
    ET y.1 y.2.1 y.2.2 a b := by
  obtain ⟨p, fr, st⟩ := x
  obtain ⟨q, fr', st'⟩ := y
  obtain ⟨pre, new, he, hl, hf, hs⟩ := h
  simp only [etGe, Bool.and_eq_true, beq_iff_eq, Bool.or_eq_true, Bool.not_eq_eq_eq_not, Bool.not_true] at hge
  refine ⟨pre, new, he, by simpa [← hge.1.1] using hl, fun h => hf ?_, fun h => hs ?_⟩
  · rcases hge.1.2 with h' | h' <;> simp_all
  · rcases hge.2 with h' | h' <;> simp_all

def ruleE (ρ : Rule) : Bool :=
  match syms ρ.rhs with
  | none => true
  | some _ =>
    ρ.rhs.any (fun | .a act => act.fails | _ => false) ||
    match itemsE ρ.rhs (0, false, true) with
    | some x => etGe x (envSum ρ.lhs)
    | none => false

theorem rules_scopes : rules.all ruleE = true := by decide +kernel

/-! ### Trees -/

/-- A function that treats the scopes as `x` does. -/
def EnvOk (x : NT) (f : St → Run (St × Val)) : Prop :=
  ∀ s s' v, f s = .ok (s', v) → ET (envSum x).1 (envSum x).2.1 (envSum x).2.2 s.env s'.env

/-- The functions fit the symbols of the items. -/
def FitsE : List Item → List (St → Run (St × Val)) → Prop
  | [], _ => True
  | .a _ :: is, fs => FitsE is fs
  | .err :: _, _ => False
  | .t _ :: is, f :: fs => (∀ s, f s = .ok (s, ⟨.Token, none⟩)) ∧ FitsE is fs
  | .n x :: is, f :: fs => EnvOk x f ∧ FitsE is fs
  | .t _ :: _, [] => False
  | .n _ :: _, [] => False

theorem act_env (w : World) (act : Act) (vals vals' : List Val) (v : Val) (a : StaticEnv) (s s' : St)
    (x x' : Nat × Bool × Bool) (hx : ET x.1 x.2.1 x.2.2 a s.env) (hc : opsE act.ops x = some x')
    (h : runAct w act vals s = .ok (s', vals', v)) : ET x'.1 x'.2.1 x'.2.2 a s'.env := by
  simp only [runAct, bind, Except.bind] at h
  split at h
  · cases h
  · split at h
    · cases h
    · split at h
      · cases h
      · rename_i r hr
        obtain ⟨s1, reg1⟩ := r
        have := ops_env w vals act.ops 0 a s s1 none reg1 x x' hx hc hr
        simp only [pure, Except.pure, Except.ok.injEq, Prod.mk.injEq] at h
        rw [← h.1]
        exact this

theorem items_env (w : World) (is : List Item) (fs : List (St → Run (St × Val))) (hfit : FitsE is fs) (a : StaticEnv)
    (s s' : St) (vals vals' : List Val) (x x' : Nat × Bool × Bool) (hx : ET x.1 x.2.1 x.2.2 a s.env)
    (hc : itemsE is x = some x') (h : runItems w is fs vals s = .ok (s', vals')) : ET x'.1 x'.2.1 x'.2.2 a s'.env := by
  induction is generalizing fs s vals x with
  | nil =>
    simp only [itemsE, Option.some.injEq] at hc
    simp only [runItems, Except.ok.injEq, Prod.mk.injEq] at h
    rw [← hc, ← h.1]; exact hx
  | cons it is ih =>
    cases it with
    | err => simp [itemsE] at hc
    | t tok =>
      cases fs with
      | nil => exact absurd hfit (by simp [FitsE])
      | cons g fs =>
        obtain ⟨hg, hfit⟩ := hfit
        simp only [runItems, hg s, bind, Except.bind] at h
        exact ih fs hfit s _ x hx hc h
    | n y =>
      cases fs with
      | nil => exact absurd hfit (by simp [FitsE])
      | cons g fs =>
        obtain ⟨hg, hfit⟩ := hfit
        simp only [runItems, bind, Except.bind] at h
        split at h
        · cases h
        · rename_i r hr
          exact ih fs hfit r.1 _ _ (hx.comp (hg s r.1 r.2 hr)) hc h
    | a act =>
      simp only [itemsE] at hc
      split at hc
      · cases hc
      split at hc
      · rename_i x1 hx1
        simp only [runItems, bind, Except.bind] at h
        split at h
        · cases h
        · rename_i r hr
          obtain ⟨s1, vals1, v1⟩ := r
          exact ih fs hfit s1 _ _ (act_env w act vals vals1 v1 a s s1 x x1 hx hx1 hr) hc h
      · cases hc

/-- A right-hand side with an action that always returns `Err` never completes. -/
theorem items_fail (w : World) (is : List Item) (fs : List (St → Run (St × Val))) (s s' : St) (vals vals' : List Val)
    (hf : is.any (fun | .a act => act.fails | _ => false) = true) : runItems w is fs vals s ≠ .ok (s', vals') := by
  intro h
  induction is generalizing fs s vals with
  | nil => simp at hf
  | cons it is ih =>
    cases it with
    | err => simp [runItems] at h
    | t tok =>
      cases fs with
      | nil => simp [runItems] at h
      | cons g fs =>
        simp only [runItems, bind, Except.bind] at h
        split at h
        · cases h
        · exact ih fs _ _ (by simpa using hf) h
    | n y =>
      cases fs with
      | nil => simp [runItems] at h
      | cons g fs =>
        simp only [runItems, bind, Except.bind] at h
        split at h
        · cases h
        · exact ih fs _ _ (by simpa using hf) h
    | a act =>
      simp only [runItems, bind, Except.bind] at h
      split at h
      · cases h
      · rename_i r hr
        simp only [List.any_cons, Bool.or_eq_true] at hf
        rcases hf with hf | hf
        · simp only [runAct, bind, Except.bind, hf, Bool.true_or, if_true] at hr
          split at hr <;> cases hr
        · exact ih fs _ _ hf h

/-- The function of a tree fits its root. -/
def FitsRootE (w : World) (t : Tree) : Prop :=
  match t.root with
  | none => False
  | some (.t _) => ∀ s, exec w t s = .ok (s, ⟨.Token, none⟩)
  | some (.n x) => EnvOk x (exec w t)

theorem fitsE_of (w : World) (is : List Item) (kids : List Tree)
    (h : (syms is).map (·.map some) = some (rootsL kids)) (hk : ∀ t ∈ kids, FitsRootE w t) :
    FitsE is (execL w kids) := by
  induction is generalizing kids with
  | nil => trivial
  | cons it is ih =>
    cases it with
    | err => simp [syms] at h
    | a act => exact ih kids (by simpa [syms] using h) hk
    | t tok =>
      cases kids with
      | nil =>
        simp only [syms, Option.map_map, rootsL, Option.map_eq_some_iff] at h
        obtain ⟨a, _, ha⟩ := h
        simp at ha
      | cons k kids =>
        simp only [syms, Option.map_map, rootsL, Option.map_eq_some_iff] at h
        obtain ⟨a, ha1, ha2⟩ := h
        simp only [Function.comp, List.map_cons, List.cons.injEq] at ha2
        have hk0 := hk k (by simp)
        simp only [FitsRootE, ← ha2.1] at hk0
        exact ⟨hk0, ih kids (by simp [ha1, ha2.2]) (fun t ht => hk t (by simp [ht]))⟩
    | n y =>
      cases kids with
      | nil =>
        simp only [syms, Option.map_map, rootsL, Option.map_eq_some_iff] at h
        obtain ⟨a, _, ha⟩ := h
        simp at ha
      | cons k kids =>
        simp only [syms, Option.map_map, rootsL, Option.map_eq_some_iff] at h
        obtain ⟨a, ha1, ha2⟩ := h
        simp only [Function.comp, List.map_cons, List.cons.injEq] at ha2
        have hk0 := hk k (by simp)
        simp only [FitsRootE, ← ha2.1] at hk0
        exact ⟨hk0, ih kids (by simp [ha1, ha2.2]) (fun t ht => hk t (by simp [ht]))⟩

theorem runRule_items {w : World} {r : Nat} {ρ : Rule} (hρ : rules[r]? = some ρ) {fs : List (St → Run (St × Val))}
    {s s' : St} {v : Val} (h : runRule w r fs s = .ok (s', v)) :
    ∃ vals', runItems w ρ.rhs fs [] s = .ok (s', vals') ∧ vals'.getLast? = some v := by
  simp only [runRule, hρ, bind, Except.bind] at h
  split at h
  · cases h
  · rename_i r hr
    obtain ⟨s1, vals1⟩ := r
    split at h
    · rename_i v1 hv1
      simp only [pure, Except.pure, Except.ok.injEq, Prod.mk.injEq] at h
      refine ⟨vals1, ?_, ?_⟩
      · rw [hr, h.1]
      · simpa [h.2] using hv1
    · cases h

theorem runRule_env (w : World) {r : Nat} {ρ : Rule} (hρ : rules[r]? = some ρ) (fs : List (St → Run (St × Val)))
    (hfit : FitsE ρ.rhs fs) (hs : syms ρ.rhs ≠ none) : EnvOk ρ.lhs (runRule w r fs) := by
  intro s s' v h
  obtain ⟨vals', hi, _⟩ := runRule_items hρ h
  have hc := List.all_eq_true.mp rules_scopes _ (List.mem_of_getElem? hρ)
  simp only [ruleE] at hc
  split at hc
  · rename_i h0; exact absurd h0 hs
  · simp only [Bool.or_eq_true] at hc
    rcases hc with hc | hc
    · exact absurd hi (items_fail w ρ.rhs fs s s' [] vals' hc)
    · split at hc
      · rename_i x hx
        exact (items_env w ρ.rhs fs hfit s.env s s' [] vals' _ x (ET.refl _) hx hi).ge hc
      · cases hc

mutual
theorem exec_env (w : World) : (t : Tree) → t.wf = true → FitsRootE w t
  | .leaf tok, _ => by simp [FitsRootE, Tree.root, exec]
  | .node r kids, h => by
    have hk := execL_env w kids
    unfold Tree.wf at h
    split at h
    · simp at h
    · rename_i ρ hρ
      rw [Bool.and_eq_true, decide_eq_true_iff] at h
      have hk := hk h.2
      simp only [FitsRootE, Tree.root, hρ, Option.map_some]
      have := runRule_env w hρ (execL w kids) (fitsE_of w _ kids h.1 hk) (by intro h0; simp [h0] at h)
      simpa only [exec] using this
theorem execL_env (w : World) : (ts : List Tree) → wfL ts = true → ∀ t ∈ ts, FitsRootE w t
  | [], _ => by simp
  | t :: ts, h => by
    simp only [wfL, Bool.and_eq_true] at h
    have h1 := exec_env w t h.1
    have h2 := execL_env w ts h.2
    intro t' ht'
    rcases List.mem_cons.mp ht' with rfl | ht'
    · exact h1
    · exact h2 t' ht'
end

/-! ### Splitting a right-hand side -/

/-- The functions left for the items after `is`. -/
def rest : List Item → List (St → Run (St × Val)) → List (St → Run (St × Val))
  | [], fs => fs
  | .a _ :: is, fs => rest is fs
  | .err :: is, fs => rest is fs
  | .t _ :: is, fs => rest is fs.tail
  | .n _ :: is, fs => rest is fs.tail

theorem runItems_append (w : World) (is js : List Item) (fs : List (St → Run (St × Val))) (vals : List Val) (s : St) :
    runItems w (is ++ js) fs vals s =
      (runItems w is fs vals s).bind fun r => runItems w js (rest is fs) r.2 r.1 := by
  induction is generalizing fs vals s with
  | nil => rfl
  | cons it is ih =>
    cases it with
    | err => rfl
    | t tok =>
      cases fs with
      | nil => rfl
      | cons g fs =>
        simp only [List.cons_append, runItems, bind, Except.bind]
        split
        · rfl
        · rw [ih]; rfl
    | n y =>
      cases fs with
      | nil => rfl
      | cons g fs =>
        simp only [List.cons_append, runItems, bind, Except.bind]
        split
        · rfl
        · rw [ih]; rfl
    | a act =>
      simp only [List.cons_append, runItems, bind, Except.bind]
      split
      · rfl
      · rw [ih]; rfl

theorem FitsE.split {is js : List Item} {fs : List (St → Run (St × Val))} (h : FitsE (is ++ js) fs) :
    FitsE js (rest is fs) := by
  induction is generalizing fs with
  | nil => exact h
  | cons it is ih =>
    cases it with
    | err => exact absurd h (by simp [FitsE])
    | a act => exact ih h
    | t tok =>
      cases fs with
      | nil => exact absurd h (by simp [FitsE])
      | cons g fs => exact ih h.2
    | n y =>
      cases fs with
      | nil => exact absurd h (by simp [FitsE])
      | cons g fs => exact ih h.2

theorem FitsE.left {is js : List Item} {fs : List (St → Run (St × Val))} (h : FitsE (is ++ js) fs) : FitsE is fs := by
  induction is generalizing fs with
  | nil => trivial
  | cons it is ih =>
    cases it with
    | err => exact absurd h (by simp [FitsE])
    | a act => exact ih h
    | t tok =>
      cases fs with
      | nil => exact absurd h (by simp [FitsE])
      | cons g fs => exact ⟨h.1, ih h.2⟩
    | n y =>
      cases fs with
      | nil => exact absurd h (by simp [FitsE])
      | cons g fs => exact ⟨h.1, ih h.2⟩

/-- A right-hand side whose first part opens a scope that its second part closes again. -/
theorem close_scope (w : World) (is js : List Item) (fs : List (St → Run (St × Val))) (hfit : FitsE (is ++ js) fs)
    (s s' : St) (vals vals' : List Val) (fresh strict : Bool) (hx : itemsE is (0, false, true) = some (1, fresh, strict))
    (hc : (itemsE js (1, false, true)).any (fun y => etGe y (0, false, true)) = true)
    (h : runItems w (is ++ js) fs vals s = .ok (s', vals')) :
    ∃ s1 vals1, runItems w is fs vals s = .ok (s1, vals1) ∧ s1.env.stack = s'.env.variables :: s'.env.stack ∧
      (fresh = true → s1.env.variables = []) ∧ (strict = true → s'.env = s.env) := by
  rw [runItems_append] at h
  rcases hr : runItems w is fs vals s with e | ⟨s1, vals1⟩
  · rw [hr] at h; cases h
  · rw [hr] at h
    have h1 := items_env w is fs hfit.left s.env s s1 vals vals1 _ _ (ET.refl _) hx hr
    obtain ⟨pre, new, he, hl, hf, hs⟩ := h1
    obtain ⟨v, rfl⟩ := List.length_eq_one_iff.mp hl
    simp only [List.cons_append, List.nil_append, List.cons.injEq] at he
    rcases hy : itemsE js (1, false, true) with _ | y
    · rw [hy] at hc; cases hc
    · rw [hy] at hc
      have h2 := (items_env w js _ hfit.split ⟨new ++ s.env.variables, s.env.stack⟩ s1 s' vals1 vals' (1, false, true) y
        ⟨[s1.env.variables], [], by simp [he.2], rfl, by simp, by simp⟩ hy h).ge hc
      obtain ⟨pre', new', he', hl', _, hs'⟩ := h2
      obtain rfl : pre' = [] := List.length_eq_zero_iff.mp hl'
      have := hs' rfl
      subst this
      simp only [List.nil_append, List.cons.injEq] at he'
      refine ⟨s1, vals1, rfl, by rw [he.2, he'.1, he'.2], fun h => ?_, fun h => ?_⟩
      · have := hf h
        simp only [List.head?_cons, Option.some.injEq] at this
        rw [he.1, this]
      · have := hs h
        subst this
        cases hE : s'.env
        cases hE2 : s.env
        rw [hE, hE2] at he'
        simpa using he'

end Verif.Grammar
