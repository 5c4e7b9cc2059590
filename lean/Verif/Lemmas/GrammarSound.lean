import Verif.Lemmas.GrammarCheck
/-!
Every run of a derivation tree agrees with the summary of its root.
-/
namespace Verif.Grammar

/-! ### Operations and stacks -/

/-- A change of the tops keeps everything below the top. -/
theorem touch_track {s s' : St} {t : Touch} (h : t.run s = .ok s') (d : Dim)
    (hl : d = t.dim → 1 ≤ (stk d s).length) :
    Track (if d = t.dim then 1 else 0) (if d = t.dim then 1 else 0) (stk d s) (stk d s') := by
  by_cases hd : d = t.dim
  · simp only [hd, if_true]
    have hl := hl hd
    subst hd
    refine ⟨hl, ?_⟩
    cases t with
    | declare n =>
      simp [Touch.run] at h; subst h
      exact ⟨[.names (n :: s.env.variables)], rfl, by simp [stk, Touch.dim, StaticEnv.declare]⟩
    | argSet v =>
      simp [Touch.run] at h; subst h
      exact ⟨[.arg v], rfl, by simp [stk, Touch.dim, CurArgStack.set, CurArgStack.push, CurArgStack.pop]⟩
    | ordinary =>
      rcases hs : s.num.stack with _ | ⟨i, r⟩
      · simp [stk, Touch.dim, hs] at hl
      · simp [Touch.run, NumStack.setHasOrdinaryParams, NumStack.set, hs, bind, Except.bind, pure, Except.pure] at h
        subst h
        exact ⟨[_], rfl, by simp [stk, Touch.dim, hs]; rfl⟩
    | register n =>
      rcases hs : s.num.stack with _ | ⟨i, r⟩
      · simp [stk, Touch.dim, hs] at hl
      · simp [Touch.run, NumStack.register, NumStack.set, hs, bind, Except.bind, pure, Except.pure] at h
        subst h
        exact ⟨[_], rfl, by simp [stk, Touch.dim, hs]; rfl⟩
    | declPv n =>
      rcases hs : s.pv.stack with _ | ⟨i, r⟩
      · simp [stk, Touch.dim, hs] at hl
      · simp [Touch.run, VarStack.isDeclared, VarStack.declare, hs, bind, Except.bind, pure, Except.pure] at h
        split at h
        · cases h
          exact ⟨[.names i], rfl, by simp [stk, Touch.dim, hs]⟩
        · cases h
          exact ⟨[_], rfl, by simp [stk, Touch.dim, hs]; rfl⟩
    | declPk n =>
      rcases hs : s.pk.stack with _ | ⟨i, r⟩
      · simp [stk, Touch.dim, hs] at hl
      · simp [Touch.run, VarStack.isDeclared, VarStack.declare, hs, bind, Except.bind, pure, Except.pure] at h
        split at h
        · cases h
          exact ⟨[.names i], rfl, by simp [stk, Touch.dim, hs]⟩
        · cases h
          exact ⟨[_], rfl, by simp [stk, Touch.dim, hs]; rfl⟩
  · simp only [hd, if_false]
    have : stk d s' = stk d s := by
      cases t <;> cases d <;> simp [Touch.dim] at hd <;>
        simp only [Touch.run, bind, Except.bind, pure, Except.pure] at h <;>
        (repeat' split at h) <;> (first | (cases h; rfl) | (simp at h))
    rw [this]
    exact Track.refl (by simp)

theorem touch_ok {s : St} {t : Touch} (hl : 1 ≤ (stk t.dim s).length) : ∃ s', t.run s = .ok s' := by
  cases t with
  | declare n => exact ⟨_, rfl⟩
  | argSet v => exact ⟨_, rfl⟩
  | ordinary =>
    rcases hs : s.num.stack with _ | ⟨i, r⟩
    · simp [stk, Touch.dim, hs] at hl
    · simp [Touch.run, NumStack.setHasOrdinaryParams, NumStack.set, hs, bind, Except.bind, pure, Except.pure]
  | register n =>
    rcases hs : s.num.stack with _ | ⟨i, r⟩
    · simp [stk, Touch.dim, hs] at hl
    · simp [Touch.run, NumStack.register, NumStack.set, hs, bind, Except.bind, pure, Except.pure]
  | declPv n =>
    rcases hs : s.pv.stack with _ | ⟨i, r⟩
    · simp [stk, Touch.dim, hs] at hl
    · simp [Touch.run, VarStack.isDeclared, VarStack.declare, hs, bind, Except.bind, pure, Except.pure]
      split <;> exact ⟨_, rfl⟩
  | declPk n =>
    rcases hs : s.pk.stack with _ | ⟨i, r⟩
    · simp [stk, Touch.dim, hs] at hl
    · simp [Touch.run, VarStack.isDeclared, VarStack.declare, hs, bind, Except.bind, pure, Except.pure]
      split <;> exact ⟨_, rfl⟩

theorem touch_rest {s s' : St} {t : Touch} (h : t.run s = .ok s') : s'.ctx = s.ctx ∧ s'.clock = s.clock := by
  cases t <;> simp only [Touch.run, bind, Except.bind, pure, Except.pure] at h <;>
    (repeat' split at h) <;> (first | (cases h; exact ⟨rfl, rfl⟩) | (simp at h))

theorem touchAll_spec (ds : List Dim) (ts : List Touch) (hts : ∀ t ∈ ts, t.dim ∈ ds) (s : St)
    (hl : ∀ d ∈ ds, 1 ≤ (stk d s).length) :
    ∃ s', touchAll s ts = .ok s' ∧ s'.ctx = s.ctx ∧ s'.clock = s.clock ∧
      ∀ d, Track (if d ∈ ds then 1 else 0) (if d ∈ ds then 1 else 0) (stk d s) (stk d s') := by
  induction ts generalizing s with
  | nil =>
    refine ⟨s, rfl, rfl, rfl, fun d => Track.refl ?_⟩
    split
    · exact hl d ‹_›
    · simp
  | cons t ts ih =>
    obtain ⟨s1, h1⟩ := touch_ok (hl t.dim (hts t (by simp)))
    have htr : ∀ d, Track (if d ∈ ds then 1 else 0) (if d ∈ ds then 1 else 0) (stk d s) (stk d s1) := by
      intro d
      have := touch_track h1 d (fun e => hl d (e ▸ hts t (by simp)))
      by_cases hd : d = t.dim
      · have hm : d ∈ ds := hd ▸ hts t (by simp)
        simpa [hd, hm, hts t (by simp)] using this
      · simp only [hd, if_false] at this
        obtain ⟨_, pre, hp, he⟩ := this
        have : stk d s1 = stk d s := by
          cases pre with
          | nil => simpa using he
          | cons => simp at hp
        rw [this]
        refine Track.refl ?_
        split
        · exact hl d ‹_›
        · simp
    obtain ⟨s2, h2, hc, hk, ht⟩ := ih (fun t' h' => hts t' (by simp [h'])) s1 (by
      intro d hd
      have := (htr d).length
      simpa [hd] using this)
    obtain ⟨hc1, hk1⟩ := touch_rest h1
    refine ⟨s2, by simp [touchAll, h1, bind, Except.bind, h2], by rw [hc, hc1], by rw [hk, hk1], fun d => ?_⟩
    have := (htr d).trans (Nat.le_refl _) (ht d)
    simpa using this

theorem set_high (c : Context) (f : CtxFlag) (v : Bool) (j : Nat) (hj : 7 ≤ j) :
    (c.set f v).value.getLsbD j = c.value.getLsbD j := by
  by_cases h64 : j < 64
  · have hne : j ≠ Props.bitOf f := by cases f <;> simp [Props.bitOf] <;> omega
    cases v
    · simp only [Context.set, Bool.false_eq_true, if_false, BitVec.getLsbD_and, BitVec.getLsbD_not, h64,
        Props.mask_bit f j h64, hne, decide_true, decide_false, Bool.not_false, Bool.and_true]
    · simp only [Context.set, if_true, BitVec.getLsbD_or, Props.mask_bit f j h64, hne, decide_false, Bool.or_false]
  · rw [BitVec.getLsbD_of_ge _ _ (by omega), BitVec.getLsbD_of_ge _ _ (by omega)]

theorem flag_at (vals : List Val) (f : CtxFlag) (n : Nat) :
    ((vals.map (Val.flag f))[n]?).join = (vals[n]?).bind (Val.flag f) := by
  rw [List.getElem?_map]
  cases vals[n]? <;> rfl

theorem Track.push {c : Cell} {a : List Cell} : Track 0 1 a (c :: a) := ⟨by simp, [c], rfl, by simp⟩
theorem Track.same {a : List Cell} : Track 0 0 a a := Track.refl (by simp)
theorem Track.pop {c : Cell} {a : List Cell} : Track 1 0 (c :: a) a := ⟨by simp, [], rfl, by simp⟩

/-- One operation moves each stack as `opEff` says and does not panic when its stacks are high enough. -/
theorem op_spec (w : World) (i : Nat) (vals : List Val) (s : St) (reg : Option Saved) (op : Op)
    (hS : ∀ d, (opEff d op).1 ≤ (stk d s).length)
    (hF : ∀ f, opF f (vals.map (Val.flag f)) (s.ctx.get f) (reg.bind (Saved.get f)) op ≠ none) :
    ∃ s' reg', runOp w i vals s reg op = .ok (s', reg') ∧ s'.clock = s.clock ∧
      (∀ d, Track (opEff d op).2.1 (opEff d op).2.2 (stk d s) (stk d s')) ∧
      (∀ f, opF f (vals.map (Val.flag f)) (s.ctx.get f) (reg.bind (Saved.get f)) op =
        some (s'.ctx.get f, reg'.bind (Saved.get f))) ∧
      (∀ j, 7 ≤ j → s'.ctx.value.getLsbD j = s.ctx.value.getLsbD j) := by
  cases op with
  | envStatic =>
    refine ⟨_, _, rfl, rfl, fun d => ?_, fun f => rfl, fun _ _ => rfl⟩
    cases d <;> first | exact Track.push | exact Track.same
  | envDynamic =>
    refine ⟨_, _, rfl, rfl, fun d => ?_, fun f => rfl, fun _ _ => rfl⟩
    cases d <;> first | exact Track.push | exact Track.same
  | envPop =>
    have h := hS .env
    rcases hs : s.env.stack with _ | ⟨v, r⟩
    · simp [opEff, stk, hs] at h
    · refine ⟨{ s with env := ⟨v, r⟩ }, reg, by simp [runOp, StaticEnv.unextend, hs, lift, bind, Except.bind, pure,
        Except.pure], rfl, fun d => ?_, fun f => rfl, fun _ _ => rfl⟩
      cases d
      · simp only [opEff, if_true, stk, hs, List.map_cons]; exact Track.pop
      all_goals exact Track.same
  | argPush =>
    refine ⟨_, _, rfl, rfl, fun d => ?_, fun f => rfl, fun _ _ => rfl⟩
    cases d <;> first | exact Track.push | exact Track.same
  | argPop =>
    have h := hS .arg
    rcases hs : s.arg.stack with _ | ⟨v, r⟩
    · simp [opEff, stk, hs] at h
    · refine ⟨_, _, rfl, rfl, fun d => ?_, fun f => rfl, fun _ _ => rfl⟩
      cases d
      case arg => simp only [opEff, if_true, stk, hs, List.map_cons, CurArgStack.pop, List.tail_cons]; exact Track.pop
      all_goals exact Track.same
  | numPush b =>
    refine ⟨_, _, rfl, rfl, fun d => ?_, fun f => rfl, fun _ _ => rfl⟩
    cases d <;> first | exact Track.push | exact Track.same
  | numPop =>
    have h := hS .num
    rcases hs : s.num.stack with _ | ⟨v, r⟩
    · simp [opEff, stk, hs] at h
    · refine ⟨_, _, rfl, rfl, fun d => ?_, fun f => rfl, fun _ _ => rfl⟩
      cases d
      case num => simp only [opEff, if_true, stk, hs, List.map_cons, NumStack.pop, List.tail_cons]; exact Track.pop
      all_goals exact Track.same
  | pvPush =>
    refine ⟨_, _, rfl, rfl, fun d => ?_, fun f => rfl, fun _ _ => rfl⟩
    cases d <;> first | exact Track.push | exact Track.same
  | pvPop =>
    have h := hS .pv
    rcases hs : s.pv.stack with _ | ⟨v, r⟩
    · simp [opEff, stk, hs] at h
    · refine ⟨_, _, rfl, rfl, fun d => ?_, fun f => rfl, fun _ _ => rfl⟩
      cases d
      case pv => simp only [opEff, if_true, stk, hs, List.map_cons, VarStack.pop, List.tail_cons]; exact Track.pop
      all_goals exact Track.same
  | pkPush =>
    refine ⟨_, _, rfl, rfl, fun d => ?_, fun f => rfl, fun _ _ => rfl⟩
    cases d <;> first | exact Track.push | exact Track.same
  | pkPop =>
    have h := hS .pk
    rcases hs : s.pk.stack with _ | ⟨v, r⟩
    · simp [opEff, stk, hs] at h
    · refine ⟨_, _, rfl, rfl, fun d => ?_, fun f => rfl, fun _ _ => rfl⟩
      cases d
      case pk => simp only [opEff, if_true, stk, hs, List.map_cons, VarStack.pop, List.tail_cons]; exact Track.pop
      all_goals exact Track.same
  | touch ds =>
    obtain ⟨s', h1, hc, hk, ht⟩ := touchAll_spec ds ((w.touches s.clock i).filter fun t => t.dim ∈ ds)
      (by intro t ht; simpa using (List.mem_filter.mp ht).2) s (by
        intro d hd
        have := hS d
        simpa [opEff, hd] using this)
    refine ⟨s', reg, by simp [runOp, h1, lift, bind, Except.bind, pure, Except.pure], hk, fun d => ?_, fun f => ?_,
      fun _ _ => by rw [hc]⟩
    · have := ht d
      by_cases hd : d ∈ ds
      · simpa [opEff, hd] using this
      · simpa [opEff, hd] using this
    · rw [hc]; rfl
  | flag g v =>
    refine ⟨_, _, rfl, rfl, fun d => ?_, fun f => ?_, fun j hj => set_high _ _ _ _ hj⟩
    · cases d <;> exact Track.same
    · simp only [opF, Props.C14_set_get, @eq_comm _ f g]
  | restore g n =>
    have hg := hF g
    simp only [opF, if_true, flag_at] at hg
    rcases hv : (vals[n - 1]?).bind (Val.flag g) with _ | b
    · simp [hv] at hg
    · refine ⟨{ s with ctx := s.ctx.set g b }, reg, by simp [runOp, valAt, hv], rfl, fun d => ?_, fun f => ?_,
        fun j hj => set_high _ _ _ _ hj⟩
      · cases d <;> exact Track.same
      · by_cases hfg : g = f
        · subst hfg; simp only [opF, flag_at, hv, Props.C14_set_get, if_true]
        · have : ¬ f = g := fun e => hfg e.symm
          simp [opF, hfg, Props.C14_set_get, this]
  | dump =>
    refine ⟨_, _, rfl, rfl, fun d => ?_, fun f => rfl, fun _ _ => rfl⟩
    cases d <;> exact Track.same
  | saveBool g =>
    refine ⟨_, _, rfl, rfl, fun d => ?_, fun f => ?_, fun _ _ => rfl⟩
    · cases d <;> exact Track.same
    · simp only [opF, Option.bind_some, Saved.get]
      by_cases h : f = g
      · subst h; rfl
      · simp [h]
  | carry n =>
    refine ⟨_, _, rfl, rfl, fun d => ?_, fun f => ?_, fun _ _ => rfl⟩
    · cases d <;> exact Track.same
    · simp only [opF, flag_at, valAt]
      cases vals[n - 1]? <;> rfl
  | condPush b => exact ⟨_, _, rfl, rfl, fun d => Track.same, fun f => rfl, fun _ _ => rfl⟩
  | condPop => exact ⟨_, _, rfl, rfl, fun d => Track.same, fun f => rfl, fun _ _ => rfl⟩
  | cmdPush b => exact ⟨_, _, rfl, rfl, fun d => Track.same, fun f => rfl, fun _ _ => rfl⟩
  | cmdPop => exact ⟨_, _, rfl, rfl, fun d => Track.same, fun f => rfl, fun _ _ => rfl⟩
  | cmdPushLA => exact ⟨_, _, rfl, rfl, fun d => Track.same, fun f => rfl, fun _ _ => rfl⟩
  | cmdPopLA => exact ⟨_, _, rfl, rfl, fun d => Track.same, fun f => rfl, fun _ _ => rfl⟩

/-- The operations of an action. -/
theorem ops_spec (w : World) (vals : List Val) (ops : List Op) (i : Nat) (s0 s : St) (reg : Option Saved)
    (n m m' : Dim → Nat) (c' : CtxFlag → Bool) (r' : CtxFlag → Option Bool)
    (hT : ∀ d, Track (n d) (m d) (stk d s0) (stk d s))
    (hS : ∀ d, opsS d ops (m d) = some (m' d))
    (hF : ∀ f, opsF f (vals.map (Val.flag f)) ops (s.ctx.get f) (reg.bind (Saved.get f)) = some (c' f, r' f)) :
    ∃ s' reg', runOps w vals i s reg ops = .ok (s', reg') ∧
      (∀ d, Track (n d) (m' d) (stk d s0) (stk d s')) ∧
      (∀ f, s'.ctx.get f = c' f ∧ reg'.bind (Saved.get f) = r' f) ∧
      (∀ j, 7 ≤ j → s'.ctx.value.getLsbD j = s.ctx.value.getLsbD j) := by
  induction ops generalizing i s reg m with
  | nil =>
    simp only [opsS, Option.some.injEq] at hS
    simp only [opsF, Option.some.injEq, Prod.mk.injEq] at hF
    exact ⟨s, reg, rfl, fun d => by rw [← hS d]; exact hT d, hF, fun _ _ => rfl⟩
  | cons op ops ih =>
    simp only [opsS] at hS
    have hS1 : ∀ d, (opEff d op).1 ≤ m d ∧ (opEff d op).2.1 ≤ m d := by
      intro d
      have := hS d
      split at this
      · assumption
      · simp at this
    obtain ⟨s1, reg1, h1, hk1, ht1, hf1, hj1⟩ := op_spec w i vals s reg op
      (fun d => Nat.le_trans (hS1 d).1 (hT d).length) (by
        intro f h
        have := hF f
        simp [opsF, h] at this)
    obtain ⟨s2, reg2, h2, ht2, hf2, hj2⟩ := ih (i + 1) s1 reg1 (fun d => m d - (opEff d op).2.1 + (opEff d op).2.2)
      (fun d => (hT d).trans (hS1 d).2 (ht1 d))
      (fun d => by
        have := hS d
        rw [if_pos (hS1 d)] at this
        exact this)
      (fun f => by
        have := hF f
        simpa [opsF, hf1 f] using this)
    refine ⟨s2, reg2, by simp [runOps, h1, bind, Except.bind, h2], ht2, hf2, fun j hj => by rw [hj2 j hj, hj1 j hj]⟩

/-! ### Casts -/

/-- `vals` has kinds allowed by `K`. -/
def KOk (K : List (List Kind)) (vals : List Val) : Prop :=
  List.Forall₂ (fun ks v => v.kind ∈ ks) K vals

theorem KOk.get {K vals} (h : KOk K vals) (n : Nat) {ks : List Kind} (hk : K[n]? = some ks) :
    ∃ v, vals[n]? = some v ∧ v.kind ∈ ks := by
  induction h generalizing n with
  | nil => simp at hk
  | cons hd _ ih =>
    cases n with
    | zero => simp at hk; subst hk; exact ⟨_, rfl, hd⟩
    | succ n => exact ih n (by simpa using hk)

theorem KOk.set {K vals} (h : KOk K vals) (n : Nat) {ks : List Kind} {v : Val} (hv : v.kind ∈ ks) :
    KOk (K.set n ks) (vals.set n v) := by
  induction h generalizing n with
  | nil => exact .nil
  | cons hd tl ih =>
    cases n with
    | zero => exact .cons hv tl
    | succ n => exact .cons hd (ih n)

theorem KOk.snoc {K vals} (h : KOk K vals) {ks : List Kind} {v : Val} (hv : v.kind ∈ ks) :
    KOk (K ++ [ks]) (vals ++ [v]) := by
  induction h with
  | nil => exact .cons hv .nil
  | cons hd _ ih => exact .cons hd ih

theorem KOk.last {K vals} (h : KOk K vals) {ks : List Kind} (hl : K.getLast? = some ks) :
    ∃ v, vals.getLast? = some v ∧ v.kind ∈ ks := by
  rw [List.getLast?_eq_getElem?] at hl ⊢
  have : K.length = vals.length := by
    clear hl
    induction h with
    | nil => rfl
    | cons _ _ ih => simp [ih]
  rw [← this]
  exact h.get _ hl

/-- The casts succeed and leave the slots as computed. -/
theorem cast_spec (us : List (Cast × Nat)) (vals : List Val) (K K' : List (List Kind)) (hK : KOk K vals)
    (h : castK K us = some K') :
    ∃ vals', castAll vals us = .ok vals' ∧ KOk K' vals' ∧
      ∀ f, vals'.map (Val.flag f) = stealF (vals.map (Val.flag f)) us := by
  induction us generalizing vals K with
  | nil =>
    simp only [castK, Option.some.injEq] at h
    subst h
    exact ⟨vals, rfl, hK, fun _ => rfl⟩
  | cons u us ih =>
    obtain ⟨c, n⟩ := u
    simp only [castK] at h
    split at h
    · simp at h
    · rename_i ks hks
      split at h
      · rename_i hall
        obtain ⟨v, hv, hkv⟩ := hK.get _ hks
        have hacc : c.accepts v.kind = true := List.all_eq_true.mp hall _ hkv
        by_cases hp : c = .peekNode
        · simp only [hp, if_true] at h
          obtain ⟨vals', h1, h2, h3⟩ := ih vals K hK h
          refine ⟨vals', ?_, h2, fun f => ?_⟩
          · subst hp
            simp only [castAll, valAt, hv, hacc, if_true, h1]
          · rw [h3 f]; simp [stealF, hp]
        · simp only [hp, if_false] at h
          obtain ⟨vals', h1, h2, h3⟩ := ih (vals.set (n - 1) ⟨.Stolen, none⟩) (K.set (n - 1) [.Stolen])
            (hK.set _ (by simp)) h
          refine ⟨vals', ?_, h2, fun f => ?_⟩
          · simp [castAll, valAt, hv, hacc, hp, h1]
          · rw [h3 f]; simp [stealF, hp, List.map_set, Val.flag]
      · simp at h

/-! ### Actions and right-hand sides -/

theorem pick_mem (o : Out) (os : List Out) (k : Nat) : (o :: os).getD k o ∈ o :: os := by
  rw [List.getD_eq_getElem?_getD]
  rcases h : (o :: os)[k]? with _ | x
  · simp
  · simpa using List.mem_of_getElem? h

/-- The assignment a run performs is among the possible ones. -/
def pickOut (w : World) (a : Act) (clock : Nat) : Option Out :=
  match a.outs with
  | [] => none
  | o :: os => some ((o :: os).getD (w.pick clock) o)

theorem pickOut_mem (w : World) (a : Act) (clock : Nat) : pickOut w a clock ∈ outChoices a.outs := by
  unfold pickOut outChoices
  rcases a.outs with _ | ⟨o, os⟩
  · simp
  · exact List.mem_map.mpr ⟨_, pick_mem o os _, rfl⟩

theorem outVal_flag (vals : List Val) (reg : Option Saved) (o : Option Out) (f : CtxFlag) :
    (outVal vals reg o).flag f = outF (vals.map (Val.flag f)) (reg.bind (Saved.get f)) o := by
  rcases o with _ | o
  · rfl
  · cases o with
    | new k => rfl
    | copy n =>
      simp only [outVal, outF, flag_at, valAt]
      cases vals[n - 1]? <;> rfl

theorem outVal_kind (vals : List Val) (reg : Option Saved) (K : List (List Kind)) (hK : KOk K vals) (o : Option Out) :
    (outVal vals reg o).kind ∈ outK K o := by
  rcases o with _ | o
  · simp [outVal, outK]
  · cases o with
    | new k => simp [outVal, outK]
    | copy n =>
      simp only [outVal, outK, valAt]
      rcases h : K[n - 1]? with _ | ks
      · have : vals[n - 1]? = none := by
          have hl : K.length = vals.length := by
            clear h
            induction hK with
            | nil => rfl
            | cons _ _ ih => simp [ih]
          rw [List.getElem?_eq_none_iff] at h ⊢
          omega
        simp [this]
      · obtain ⟨v, hv, hkv⟩ := hK.get _ h
        simpa [hv] using hkv

theorem act_spec (w : World) (a : Act) (vals : List Val) (s0 s : St) (n m m' : Dim → Nat)
    (c' : CtxFlag → Bool) (r' : CtxFlag → Option Bool) (K K' : List (List Kind))
    (hT : ∀ d, Track (n d) (m d) (stk d s0) (stk d s)) (hK : KOk K vals) (hC : castK K a.uses = some K')
    (hS : a.fails = false → ∀ d, opsS d a.ops (m d) = some (m' d))
    (hF : a.fails = false → ∀ f, opsF f (vals.map (Val.flag f)) a.ops (s.ctx.get f) none = some (c' f, r' f)) :
    runAct w a vals s = .error .err ∨ (a.fails = false ∧ ∃ s' vals' v o, runAct w a vals s = .ok (s', vals', v) ∧
      o ∈ outChoices a.outs ∧
      (∀ d, Track (n d) (m' d) (stk d s0) (stk d s')) ∧ (∀ f, s'.ctx.get f = c' f) ∧
      (∀ j, 7 ≤ j → s'.ctx.value.getLsbD j = s.ctx.value.getLsbD j) ∧
      KOk (K' ++ [(outChoices a.outs).flatMap (outK K)]) (vals' ++ [v]) ∧
      ∀ f, (vals' ++ [v]).map (Val.flag f) =
        stealF (vals.map (Val.flag f)) a.uses ++ [outF (vals.map (Val.flag f)) (r' f) o]) := by
  obtain ⟨vals', h1, h2, h3⟩ := cast_spec a.uses vals K K' hK hC
  by_cases hf : a.fails = true
  · left; simp [runAct, h1, bind, Except.bind, hf]
  · rw [Bool.not_eq_true] at hf
    by_cases hw : w.fails s.clock = true
    · left; simp [runAct, h1, bind, Except.bind, hw]
    · right
      obtain ⟨s', reg', h4, h5, h6, h7⟩ := ops_spec w vals a.ops 0 s0 s none n m m' c' r' hT (hS hf) (hF hf)
      refine ⟨hf, { s' with clock := s.clock + 1 }, vals', outVal vals reg' (pickOut w a s.clock),
        pickOut w a s.clock, ?_, pickOut_mem .., fun d => ?_, fun f => (h6 f).1, h7, ?_, fun f => ?_⟩
      · simp only [runAct, h1, bind, Except.bind, hf, Bool.false_or, hw, h4, pure, Except.pure]
        rfl
      · have := h5 d
        cases d <;> exact this
      · exact h2.snoc (List.mem_flatMap.mpr ⟨_, pickOut_mem w a s.clock, outVal_kind vals reg' K hK _⟩)
      · rw [List.map_append, h3 f, List.map_cons, List.map_nil, outVal_flag, (h6 f).2]

/-- What running something of nonterminal `x` from `s` may lead to. -/
def Post (x : NT) (s : St) : Run (St × Val) → Prop
  | .error .err => True
  | .error _ => False
  | .ok (s', v) =>
    (∀ d, Track ((stackOf x).1.get d) ((stackOf x).2.get d) (stk d s) (stk d s')) ∧
    (∀ f, (s.ctx.get f, s'.ctx.get f, v.flag f) ∈ rel f x) ∧
    v.kind ∈ kindsOf x ∧ ∀ j, 7 ≤ j → s'.ctx.value.getLsbD j = s.ctx.value.getLsbD j

/-- A function that behaves like nonterminal `x`. -/
def NTOk (x : NT) (f : St → Run (St × Val)) : Prop :=
  ∀ s, (∀ d, (stackOf x).1.get d ≤ (stk d s).length) → Post x s (f s)

/-- The functions fit the symbols of the items. -/
def Fits : List Item → List (St → Run (St × Val)) → Prop
  | [], fs => fs = []
  | .a _ :: is, fs => Fits is fs
  | .err :: _, _ => False
  | .t _ :: is, f :: fs => (∀ s, f s = .ok (s, ⟨.Token, none⟩)) ∧ Fits is fs
  | .n x :: is, f :: fs => NTOk x f ∧ Fits is fs
  | .t _ :: _, [] => False
  | .n _ :: _, [] => False

theorem items_spec (w : World) (x : NT) (s0 : St) (is : List Item) (fs : List (St → Run (St × Val))) (hfit : Fits is fs)
    (s : St) (vals : List Val) (m : Dim → Nat) (K : List (List Kind))
    (hT : ∀ d, Track ((stackOf x).1.get d) (m d) (stk d s0) (stk d s))
    (hj : ∀ j, 7 ≤ j → s.ctx.value.getLsbD j = s0.ctx.value.getLsbD j)
    (hK : KOk K vals)
    (hS : ∀ d, checkS d ((stackOf x).2.get d) is (m d) = true)
    (hF : ∀ f, checkF f (s0.ctx.get f) (rel f x) is (s.ctx.get f) (vals.map (Val.flag f)) = true)
    (hC : checkK (kindsOf x) is K = true) :
    match runItems w is fs vals s with
    | .error .err => True
    | .error _ => False
    | .ok (s', vals') => ∃ v, vals'.getLast? = some v ∧ Post x s0 (.ok (s', v)) := by
  induction is generalizing fs s vals m K with
  | nil =>
    simp only [checkK] at hC
    split at hC
    · rename_i ks hks
      obtain ⟨v, hv, hkv⟩ := hK.last hks
      refine ⟨v, hv, fun d => ?_, fun f => ?_, ?_, hj⟩
      · have := hS d
        simp only [checkS, beq_iff_eq] at this
        rw [← this]
        exact hT d
      · have := hF f
        simp only [checkF, List.getLast?_map, hv, Option.map_some] at this
        simpa using this
      · have := List.all_eq_true.mp hC _ hkv
        simpa using this
    · simp at hC
  | cons it is ih =>
    cases it with
    | err => exact absurd hfit (by simp [Fits])
    | t tok =>
      cases fs with
      | nil => exact absurd hfit (by simp [Fits])
      | cons g fs =>
        obtain ⟨hg, hfit⟩ := hfit
        simp only [runItems, hg s, bind, Except.bind]
        exact ih fs hfit s _ m (K ++ [[.Token]]) hT hj (hK.snoc (by simp)) hS
          (fun f => by
            have := hF f
            simpa [checkF, Val.flag] using this) (by simpa [checkK] using hC)
    | n y =>
      cases fs with
      | nil => exact absurd hfit (by simp [Fits])
      | cons g fs =>
        obtain ⟨hg, hfit⟩ := hfit
        have hS1 : ∀ d, (stackOf y).1.get d ≤ m d ∧
            checkS d ((stackOf x).2.get d) is (m d - (stackOf y).1.get d + (stackOf y).2.get d) = true := by
          intro d
          simpa [checkS] using hS d
        have hp := hg s (fun d => Nat.le_trans (hS1 d).1 (hT d).length)
        simp only [runItems]
        rcases hr : g s with e | ⟨s1, v⟩
        · rw [hr] at hp
          cases e with
          | err => simp [bind, Except.bind]
          | panic p => exact absurd hp (by simp [Post])
          | badTree => exact absurd hp (by simp [Post])
        · rw [hr] at hp
          obtain ⟨hp1, hp2, hp3, hp4⟩ := hp
          simp only [bind, Except.bind]
          refine ih fs hfit s1 _ (fun d => m d - (stackOf y).1.get d + (stackOf y).2.get d) (K ++ [kindsOf y])
            (fun d => (hT d).trans (hS1 d).1 (hp1 d)) (fun j h => by rw [hp4 j h, hj j h]) (hK.snoc hp3)
            (fun d => (hS1 d).2) (fun f => ?_) ?_
          · have := hF f
            simp only [checkF] at this
            have := List.all_eq_true.mp this _ (hp2 f)
            simpa using this
          · simp only [checkK, Bool.or_eq_true] at hC
            rcases hC with h | h
            · have : kindsOf y = [] := by simpa using h
              rw [this] at hp3
              simp at hp3
            · exact h
    | a act =>
      simp only [checkK] at hC
      split at hC
      · simp at hC
      rename_i K' hK'
      have hS1 : act.fails = false → ∀ d, opsS d act.ops (m d) = some ((opsS d act.ops (m d)).getD 0) := by
        intro hf d
        have := hS d
        simp only [checkS, hf, Bool.false_or] at this
        split at this
        · rename_i h; rw [h]; rfl
        · simp at this
      have hF1 : act.fails = false → ∀ f, opsF f (vals.map (Val.flag f)) act.ops (s.ctx.get f) none =
          some (((opsF f (vals.map (Val.flag f)) act.ops (s.ctx.get f) none).getD (false, none)).1,
            ((opsF f (vals.map (Val.flag f)) act.ops (s.ctx.get f) none).getD (false, none)).2) := by
        intro hf f
        have := hF f
        simp only [checkF, hf, Bool.false_or] at this
        split at this
        · rename_i h; rw [h]; rfl
        · simp at this
      rcases act_spec w act vals s0 s _ m _ _ _ K K' hT hK hK' hS1 hF1 with h | ⟨hf, s', vals', v, o, h, ho, h1, h2, h3, h4, h5⟩
      · simp [runItems, h, bind, Except.bind]
      · simp only [runItems, h, bind, Except.bind]
        refine ih fs hfit s' _ _ _ h1 (fun j hj7 => by rw [h3 j hj7, hj j hj7]) h4 (fun d => ?_) (fun f => ?_) ?_
        · have := hS d
          simp only [checkS, hf, Bool.false_or] at this
          rw [hS1 hf d] at this
          exact this
        · have := hF f
          simp only [checkF, hf, Bool.false_or] at this
          rw [hF1 hf f] at this
          rw [h2 f, h5 f]
          exact List.all_eq_true.mp this _ ho
        · simpa [hf] using hC

theorem rule_checked {r : Nat} {ρ : Rule} (h : rules[r]? = some ρ) :
    (∀ d, checkS d ((stackOf ρ.lhs).2.get d) ρ.rhs ((stackOf ρ.lhs).1.get d) = true) ∧
    (∀ f b, checkF f b (rel f ρ.lhs) ρ.rhs b [] = true) ∧ checkK (kindsOf ρ.lhs) ρ.rhs [] = true := by
  have := List.all_eq_true.mp rules_checked _ (List.mem_of_getElem? h)
  simp only [checkRule, Bool.and_eq_true, List.all_eq_true] at this
  obtain ⟨⟨h1, h2⟩, h3⟩ := this
  exact ⟨fun d => h1 d (by cases d <;> simp), fun f b => h2 f (by cases f <;> simp) b (by cases b <;> simp), h3⟩

theorem runRule_spec (w : World) {r : Nat} {ρ : Rule} (h : rules[r]? = some ρ) (fs : List (St → Run (St × Val)))
    (hfit : Fits ρ.rhs fs) : NTOk ρ.lhs (runRule w r fs) := by
  intro s hs
  obtain ⟨h1, h2, h3⟩ := rule_checked h
  have := items_spec w ρ.lhs s ρ.rhs fs hfit s [] (fun d => (stackOf ρ.lhs).1.get d) []
    (fun d => Track.refl (hs d)) (fun _ _ => rfl) .nil h1 (fun f => h2 f _) h3
  simp only [runRule, h]
  rcases hr : runItems w ρ.rhs fs [] s with e | ⟨s', vals'⟩
  · rw [hr] at this
    cases e with
    | err => simp [bind, Except.bind, Post]
    | panic p => exact absurd this (by simp)
    | badTree => exact absurd this (by simp)
  · rw [hr] at this
    obtain ⟨v, hv, hp⟩ := this
    simpa [bind, Except.bind, hv, pure, Except.pure] using hp

/-! ### Trees -/

/-- The function of a tree fits its root. -/
def FitsRoot (w : World) (t : Tree) : Prop :=
  match t.root with
  | none => False
  | some (.t _) => ∀ s, exec w t s = .ok (s, ⟨.Token, none⟩)
  | some (.n x) => NTOk x (exec w t)

theorem fits_of (w : World) (is : List Item) (kids : List Tree)
    (h : (syms is).map (·.map some) = some (rootsL kids)) (hk : ∀ t ∈ kids, FitsRoot w t) :
    Fits is (execL w kids) := by
  induction is generalizing kids with
  | nil =>
    cases kids with
    | nil => simp [Fits, execL]
    | cons => simp [syms, rootsL] at h
  | cons it is ih =>
    cases it with
    | err => simp [syms] at h
    | a act => exact ih kids (by simpa [syms] using h) hk
    | t tok =>
      cases kids with
      | nil =>
        simp only [syms, Option.map_map, rootsL, Option.map_eq_some_iff] at h
        obtain ⟨a, _, ha⟩ := h
        simp at ha
      | cons k kids =>
        simp only [syms, Option.map_map, rootsL, Option.map_eq_some_iff] at h
        obtain ⟨a, ha1, ha2⟩ := h
        simp only [Function.comp, List.map_cons, List.cons.injEq] at ha2
        have hk0 := hk k (by simp)
        simp only [FitsRoot, ← ha2.1] at hk0
        exact ⟨hk0, ih kids (by simp [ha1, ha2.2]) (fun t ht => hk t (by simp [ht]))⟩
    | n y =>
      cases kids with
      | nil =>
        simp only [syms, Option.map_map, rootsL, Option.map_eq_some_iff] at h
        obtain ⟨a, _, ha⟩ := h
        simp at ha
      | cons k kids =>
        simp only [syms, Option.map_map, rootsL, Option.map_eq_some_iff] at h
        obtain ⟨a, ha1, ha2⟩ := h
        simp only [Function.comp, List.map_cons, List.cons.injEq] at ha2
        have hk0 := hk k (by simp)
        simp only [FitsRoot, ← ha2.1] at hk0
        exact ⟨hk0, ih kids (by simp [ha1, ha2.2]) (fun t ht => hk t (by simp [ht]))⟩

mutual
/-- Every derivation tree behaves as the summary of its root says. -/
theorem exec_fits (w : World) : (t : Tree) → t.wf = true → FitsRoot w t
  | .leaf tok, _ => fun _ => by simp [exec]
  | .node r kids, h => by
    have hk := execL_fits w kids
    unfold Tree.wf at h
    unfold FitsRoot Tree.root
    split at h
    · simp at h
    · rename_i ρ hρ
      rw [Bool.and_eq_true, decide_eq_true_iff] at h
      simp only [hρ, Option.map_some]
      have := runRule_spec w hρ _ (fits_of w ρ.rhs kids h.1 (hk h.2))
      intro s hs
      simpa [exec] using this s hs
theorem execL_fits (w : World) : (ts : List Tree) → wfL ts = true → ∀ t ∈ ts, FitsRoot w t
  | [], _ => by simp
  | t :: ts, h => by
    simp only [wfL, Bool.and_eq_true] at h
    have h1 := exec_fits w t h.1
    have h2 := execL_fits w ts h.2
    intro t' ht'
    rcases List.mem_cons.mp ht' with rfl | ht'
    · exact h1
    · exact h2 t' ht'
end

end Verif.Grammar
