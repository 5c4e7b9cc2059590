import Verif.Lemmas.ScopeApply2
/-!
The tables along a production are as the checker says.
-/
namespace Verif
open Builder Grammar ScopeSpec

section
variable {ext : BldExt} {x : Text} {V : List (List Atom)} {d0 dp : Prop} {dedent : List Atom → Int} {st st' : SS}
  {vals : List PVal} {s s' : BState} {v : List Atom}

/-! ### One more value -/

theorem get_append {i : Nat} {w : List Atom} (h : V[i]? = some w) : (V ++ [v])[i]? = some w := by
  rw [List.getElem?_append_left (List.getElem?_eq_some_iff.mp h).1]; exact h
theorem Bat.append {p : Pos} (h : Bat ext x V p) : Bat ext x (V ++ [v]) p := by
  obtain ⟨a, h1, h2⟩ := h
  obtain ⟨w, hw, h3⟩ := Option.bind_eq_some_iff.mp h1
  exact ⟨a, by rw [get_append hw]; exact h3, h2⟩
theorem Bat.of_append {p : Pos} (hp : (V[p.1 - 1]?).isSome = true) (h : Bat ext x (V ++ [v]) p) : Bat ext x V p := by
  obtain ⟨a, h1, h2⟩ := h
  obtain ⟨w, hw⟩ := Option.isSome_iff_exists.mp hp
  rw [get_append hw] at h1
  exact ⟨a, by rw [hw]; exact h1, h2⟩
theorem holds_append {l : Lv} (h : l.holds ext x V d0) : l.holds ext x (V ++ [v]) d0 :=
  h.imp_right fun ⟨p, h1, h2⟩ => ⟨p, h1, h2.append⟩
theorem NmOk.append {nm : Nm} {n : NumStack} (h : NmOk ext x V nm n) : NmOk ext x (V ++ [v]) nm n :=
  ⟨h.1, fun p hp => by
    obtain ⟨h1, h2⟩ := h.2 p hp
    refine ⟨?_, fun e => h2 (e.of_append h1)⟩
    obtain ⟨w, hw⟩ := Option.isSome_iff_exists.mp h1
    rw [get_append hw]; rfl⟩
theorem FdOk.append {fd : Fd} {w : List Atom} (h : FdOk ext x V d0 fd w) : FdOk ext x (V ++ [v]) d0 fd w :=
  { h with uses := fun hr a ha hu => holds_append (h.uses hr a ha hu) }
theorem fds_append {K : List Fd} {W : List (List Atom)} {fd : Fd} (h : List.Forall₂ (FdOk ext x V d0) K W) (g : FdOk ext x (V ++ [v]) d0 fd v) :
    List.Forall₂ (FdOk ext x (V ++ [v]) d0) (K ++ [fd]) (W ++ [v]) :=
  List.rel_append (List.Forall₂.imp (fun _ _ h => h.append) h) (.cons g .nil)

/-! ### Tables -/

/-- Levels of numbered parameters above the level at the start. -/
def NumInv (ext : BldExt) (x : Text) (V : List (List Atom)) (n0 : NumStack) : List Nm → List NumItem → Prop
  | [], _ => False
  | [nm], l => NumStep n0 ⟨l⟩ ∧ NmOk ext x V nm ⟨l⟩
  | nm :: nm' :: r, l => ∃ c l', l = c :: l' ∧ NmOk ext x V nm ⟨l⟩ ∧ NumInv ext x V n0 (nm' :: r) l'

theorem NumInv.append {n0 : NumStack} : ∀ {N : List Nm} {l : List NumItem}, NumInv ext x V n0 N l → NumInv ext x (V ++ [v]) n0 N l
  | [], _, h => h
  | [_], _, h => ⟨h.1, h.2.append⟩
  | _ :: _ :: _, _, ⟨c, l', h1, h2, h3⟩ => ⟨c, l', h1, h2.append, NumInv.append h3⟩
/-- The top is replaced. -/
theorem NumInv.set {n0 : NumStack} {nm nm' : Nm} : ∀ {N : List Nm} {l l' : List NumItem}, NumInv ext x V n0 (nm :: N) l →
    l'.tail = l.tail → l'.length = l.length → (NumStack.hasOrdinaryParams ⟨l⟩ = true → NumStack.hasOrdinaryParams ⟨l'⟩ = true) →
    NmOk ext x V nm' ⟨l'⟩ → NumInv ext x V n0 (nm' :: N) l'
  | [], _, _, ⟨h1, _⟩, g1, g2, g3, g4 => ⟨h1.trans ⟨g1, g2, g3⟩, g4⟩
  | _ :: _, _, l', ⟨c, l1, h1, h2, h3⟩, g1, g2, g3, g4 => by
    subst h1
    cases l' with
    | nil => cases g2
    | cons c' l2 =>
      cases g1
      exact ⟨c', _, rfl, g4, h3⟩
theorem NumInv.step {n0 a b : NumStack} : ∀ {N : List Nm}, NumInv ext x V n0 N a.stack → NumStep a b → NumInv ext x V n0 N b.stack
  | [], h, _ => h
  | _ :: N, h, g => h.set g.tail g.len g.ord (by
      cases N with
      | nil => exact h.2.step g
      | cons => obtain ⟨_, _, _, h2, _⟩ := h; exact h2.step g)
theorem NumInv.top {n0 : NumStack} {nm : Nm} : ∀ {N : List Nm} {l : List NumItem}, NumInv ext x V n0 (nm :: N) l → NmOk ext x V nm ⟨l⟩
  | [], _, h => h.2
  | _ :: _, _, ⟨_, _, _, h2, _⟩ => h2

/-- The tables `e`, `n` above the tables at the start. -/
structure Tabs (ext : BldExt) (x : Text) (V : List (List Atom)) (d0 : Prop) (e0 : StaticEnv) (n0 : NumStack) (E : List Lv) (N : List Nm)
    (e : StaticEnv) (n : NumStack) : Prop where
  env : ∃ vs, e.variables :: e.stack = vs ++ e0.stack ∧ List.Forall₂ (fun (l : Lv) w => x ∈ w → l.holds ext x V d0) E vs
  num : NumInv ext x V n0 N n.stack
  ne : E ≠ []

variable {e0 e e' : StaticEnv} {n0 n n' : NumStack} {env : List Lv} {num : List Nm}

theorem Tabs.append (h : Tabs ext x V d0 e0 n0 env num e n) : Tabs ext x (V ++ [v]) d0 e0 n0 env num e n :=
  ⟨by
    obtain ⟨vs, h1, h2⟩ := h.env
    exact ⟨vs, h1, h2.imp fun _ _ g hx => holds_append (g hx)⟩, h.num.append, h.ne⟩
theorem Tabs.numOk (h : Tabs ext x V d0 e0 n0 st.env st.num s.staticEnv s.numparams) : NumOk ext x V st s := by
  intro nm r' e
  have := h.num
  rw [e] at this
  exact this.top
/-- The first level is replaced. -/
theorem Tabs.setEnv {l l' : Lv} {r : List Lv} (h : Tabs ext x V d0 e0 n0 (l :: r) num e n) (hs : e'.stack = e.stack)
    (hx : x ∈ e'.variables → l'.holds ext x V d0) : Tabs ext x V d0 e0 n0 (l' :: r) num e' n := by
  refine ⟨?_, h.num, nofun⟩
  obtain ⟨vs, h1, h2⟩ := h.env
  cases h2 with | cons g gs =>
  rename_i w ws
  refine ⟨e'.variables :: ws, ?_, .cons hx gs⟩
  rw [hs]
  simp only [List.cons_append, List.cons.injEq] at h1 ⊢
  exact ⟨trivial, h1.2⟩
theorem Tabs.setNum {N : List Nm} (h : Tabs ext x V d0 e0 n0 env num e n) (hn : NumInv ext x V n0 N n'.stack) : Tabs ext x V d0 e0 n0 env N e n' :=
  ⟨h.env, hn, h.ne⟩
theorem Tabs.head {l : Lv} {r : List Lv} (h : Tabs ext x V d0 e0 n0 (l :: r) num e n) (hx : x ∈ e.variables) : l.holds ext x V d0 := by
  obtain ⟨vs, h1, h2⟩ := h.env
  cases h2 with | cons g gs =>
  rename_i w ws
  simp only [List.cons_append, List.cons.injEq] at h1
  exact g (h1.1 ▸ hx)
/-! ### Writes -/

/-- What is written is not `x` under another name. -/
def Plain (x : Text) : Prop := isNumparamName x = false ∧ x ≠ StaticEnv.FORWARD_ARGS ∧ x ≠ StaticEnv.ANONYMOUS_BLOCKARG

theorem ordinary_num {nm : Nm} {N : List Nm} (h : NumInv ext x V n0 (nm :: N) n.stack) (hn : n.setHasOrdinaryParams = .ok n')
    {nm' : Nm} (hk : ∀ p ∈ nm'.G, (V[p.1 - 1]?).isSome = true) : NumInv ext x V n0 (nm' :: N) n'.stack := by
  obtain ⟨h1, h2, h3⟩ := set_step hn
  have ho : n'.hasOrdinaryParams = true := by unfold NumStack.hasOrdinaryParams; rw [h3]; rfl
  exact h.set h1 h2 (fun _ => ho) ⟨fun _ => ho, fun p hp => ⟨hk p hp, fun _ => ho⟩⟩

/-- The tables of a state. -/
abbrev TabsS (ext : BldExt) (x : Text) (V : List (List Atom)) (s0 : BState) (st : SS) (s : BState) : Prop :=
  Tabs ext x V (Dcl x s0) s0.staticEnv s0.numparams st.env st.num s.staticEnv s.numparams

variable {s0 : BState}

theorem lift_run {m : Res α} {b : α} (h : lift m = .ok b) : m = .ok b := by
  cases m with
  | error => cases h
  | ok a => cases h; rfl

theorem nodes_bat {k : Nat} {sv : Option Saved} {l : List Node} {as : List Atom} (hv : vals[k - 1]? = some ⟨.nodes l :: as, sv⟩) :
    ((vals.map (·.atoms))[k - 1]?).isSome = true ∧ (Bat ext x (vals.map (·.atoms)) (k, 0) → l ≠ []) := by
  have hg : (vals.map (·.atoms))[k - 1]? = some (.nodes l :: as) := by rw [List.getElem?_map, hv]; rfl
  refine ⟨by rw [hg]; rfl, fun ⟨a, h1, h2⟩ => ?_⟩
  rw [hg] at h1
  cases h1
  rintro rfl
  simp [BA, Atom.trees] at h2

theorem write_sound (hx : Plain x) (h : TabsS ext x (vals.map (·.atoms)) s0 st s) {w : Write} (hw : w.run vals s = .ok s') :
    TabsS ext x (vals.map (·.atoms)) s0 (writeS st w) s' ∧ s'.diagnostics = s.diagnostics := by
  unfold TabsS at h ⊢
  obtain ⟨l, r, henv⟩ := List.exists_cons_of_ne_nil h.ne
  obtain ⟨nm, N, hnum⟩ : ∃ nm N, st.num = nm :: N := by
    cases hn : st.num with
    | nil => have := h.num; rw [hn] at this; exact this.elim
    | cons nm N => exact ⟨nm, N, rfl⟩
  rw [henv, hnum] at h
  have hdecl : ∀ name, x ≠ name → Tabs ext x (vals.map (·.atoms)) (Dcl x s0) s0.staticEnv s0.numparams st.env st.num (s.staticEnv.declare name) s.numparams := by
    intro name hn
    rw [henv, hnum]
    exact h.setEnv rfl fun hm => by
      rcases List.mem_cons.mp hm with hm | hm
      · exact absurd hm hn
      · exact h.head hm
  cases w with
  | declare k =>
    rw [Write.run] at hw
    split at hw
    case h_2 => cases hw
    rename_i name hname
    cases hw
    refine ⟨?_, rfl⟩
    dsimp only [writeS]
    rw [henv, hnum]
    refine h.setEnv rfl fun hm => ?_
    rcases List.mem_cons.mp hm with hm | hm
    · refine .inr ⟨(k, 0), by simp [Lv.add], ?_⟩
      unfold nameAt at hname
      split at hname
      case h_2 => cases hname
      rename_i t as sv hv
      cases hname
      exact ⟨.tok t, by rw [List.getElem?_map, hv]; rfl, hm.symm⟩
    · exact (h.head hm).imp_right fun ⟨p, h1, h2⟩ => ⟨p, by simp [Lv.add, h1], h2⟩
  | forward => cases hw; exact ⟨hdecl _ hx.2.1, rfl⟩
  | anonBlock => cases hw; exact ⟨hdecl _ hx.2.2, rfl⟩
  | ordinary =>
    rw [Write.run] at hw
    obtain ⟨n', h1, hw⟩ := run_bind_ok hw
    cases hw
    refine ⟨?_, rfl⟩
    dsimp only [writeS]
    rw [henv, hnum]
    exact h.setNum (ordinary_num h.num (lift_run h1) (by simp))
  | ordinaryIf k =>
    rw [Write.run] at hw
    split at hw
    · rename_i as sv hv
      cases hw
      refine ⟨?_, rfl⟩
      dsimp only [writeS]
      rw [henv, hnum]
      obtain ⟨g1, g2⟩ := nodes_bat (ext := ext) (x := x) hv
      refine h.setNum (h.num.set rfl rfl id ⟨h.num.top.1, fun p hp => ?_⟩)
      rcases List.mem_cons.mp hp with rfl | hp
      · exact ⟨g1, fun e => absurd rfl (g2 e)⟩
      · exact h.num.top.2 p hp
    · rename_i l' as sv hne hv
      obtain ⟨n', h1, hw⟩ := run_bind_ok hw
      cases hw
      refine ⟨?_, rfl⟩
      dsimp only [writeS]
      rw [henv, hnum]
      refine h.setNum (ordinary_num h.num (lift_run h1) fun p hp => ?_)
      rcases List.mem_cons.mp hp with rfl | hp
      · exact (nodes_bat (ext := ext) (x := x) hv).1
      · exact (h.num.top.2 p hp).1
    · cases hw
  | argName k =>
    rw [Write.run] at hw
    split at hw
    · cases hw; rw [← henv, ← hnum] at h; exact ⟨h, rfl⟩
    · cases hw
  | argNone => cases hw; rw [← henv, ← hnum] at h; exact ⟨h, rfl⟩

theorem writes_sound (hx : Plain x) : ∀ {ws : List Write} {st : SS} {s s' : BState}, TabsS ext x (vals.map (·.atoms)) s0 st s →
    writeAll vals s ws = .ok s' → TabsS ext x (vals.map (·.atoms)) s0 (ws.foldl writeS st) s' ∧ s'.diagnostics = s.diagnostics
  | [], st, s, s', h, hw => by cases hw; exact ⟨h, rfl⟩
  | w :: ws, st, s, s', h, hw => by
    rw [writeAll] at hw
    obtain ⟨s1, h1, hw⟩ := run_bind_ok hw
    obtain ⟨g1, g2⟩ := write_sound hx h h1
    obtain ⟨g3, g4⟩ := writes_sound hx g1 hw
    exact ⟨g3, g4.trans g2⟩
theorem writes_clash : ∀ {ws : List Write} {s s' : BState}, writeAll vals s ws = .ok s' → Clash s → Clash s'
  | [], s, s', hw, h => by cases hw; exact h
  | w :: ws, s, s', hw, h => by
    rw [writeAll] at hw
    obtain ⟨s1, h1, hw⟩ := run_bind_ok hw
    refine writes_clash hw ?_
    have : s1.diagnostics = s.diagnostics := by
      cases w <;> rw [Write.run] at h1
      case declare => split at h1 <;> first | (cases h1; done) | (cases h1; rfl)
      case ordinary => obtain ⟨n', _, h1⟩ := run_bind_ok h1; cases h1; rfl
      case ordinaryIf => split at h1 <;> first | (cases h1; done) | (cases h1; rfl) | (obtain ⟨n', _, h1⟩ := run_bind_ok h1; cases h1; rfl)
      case argName => split at h1 <;> first | (cases h1; done) | (cases h1; rfl)
      all_goals (cases h1; rfl)
    unfold Clash; rw [this]; exact h
theorem writeS_K (ws : List Write) (st : SS) : (ws.foldl writeS st).K = st.K := by
  induction ws generalizing st with
  | nil => rfl
  | cons w ws ih => rw [List.foldl_cons, ih]; cases w <;> rfl

/-! ### Operations -/

theorem op_sound {w : World} {i : Nat} {vs : List Val} {b b' : St} {reg reg' : Option Saved} {op : Op}
    (hw : ∀ c j, w.touches c j = []) (h : Tabs ext x V d0 e0 n0 st.env st.num b.env b.num) (hs : opSc st op = some st')
    (hr : runOp w i vs b reg op = .ok (b', reg')) : Tabs ext x V d0 e0 n0 st'.env st'.num b'.env b'.num ∧ st'.K = st.K := by
  cases op
  case envStatic =>
    cases hr; cases hs
    obtain ⟨vs, h1, h2⟩ := h.env
    exact ⟨⟨⟨[] :: vs, by simp [StaticEnv.extendStatic, h1], .cons (by simp) h2⟩, h.num, nofun⟩, rfl⟩
  case envDynamic =>
    cases hr
    simp only [opSc] at hs
    split at hs
    case h_2 => cases hs
    rename_i l r henv
    cases hs
    obtain ⟨vs, h1, h2⟩ := h.env
    rw [henv] at h2 h
    exact ⟨⟨⟨b.env.variables :: vs, by simp [StaticEnv.extendDynamic, h1], .cons h.head h2⟩, h.num, nofun⟩, rfl⟩
  case envPop =>
    rw [runOp] at hr
    obtain ⟨env, h1, hr⟩ := run_bind_ok hr
    cases hr
    have h1 := lift_run h1
    simp only [opSc] at hs
    split at hs
    case h_2 => cases hs
    rename_i l0 l r henv
    cases hs
    obtain ⟨vs, h3, h2⟩ := h.env
    rw [henv] at h2
    cases h2 with | cons g gs =>
    cases gs with | cons g' gs' =>
    rename_i w ws
    unfold StaticEnv.unextend at h1
    split at h1
    · cases h1
    · rename_i v0 rest hst
      cases h1
      rw [hst] at h3
      simp only [List.cons_append, List.cons.injEq] at h3
      exact ⟨⟨⟨w :: ws, by simp [h3.2.1, h3.2.2], .cons g' gs'⟩, h.num, nofun⟩, rfl⟩
  case numPush =>
    cases hr; cases hs
    refine ⟨⟨h.env, ?_, h.ne⟩, rfl⟩
    dsimp only
    cases hn : st.num with
    | nil => have := h.num; rw [hn] at this; exact this.elim
    | cons nm N =>
      rw [← hn]
      have := h.num
      rw [hn] at this ⊢
      exact ⟨_, _, rfl, ⟨nofun, nofun⟩, this⟩
  case numPop =>
    cases hr
    simp only [opSc] at hs
    split at hs
    case h_2 => cases hs
    rename_i l0 l r hn
    cases hs
    have := h.num
    rw [hn] at this
    obtain ⟨c, l', h1, -, h3⟩ := this
    refine ⟨⟨h.env, ?_, h.ne⟩, rfl⟩
    simpa [NumStack.pop, h1] using h3
  case touch ds =>
    rw [runOp] at hr
    obtain ⟨b1, h1, hr⟩ := run_bind_ok hr
    cases hr; cases hs
    rw [hw] at h1
    cases h1
    exact ⟨h, rfl⟩
  case restore f n =>
    rw [runOp] at hr
    cases hs
    split at hr
    · cases hr; exact ⟨h, rfl⟩
    · cases hr
  all_goals
    cases hr; cases hs
    exact ⟨h, rfl⟩

theorem ops_sound {w : World} {vs : List Val} (hw : ∀ c j, w.touches c j = []) : ∀ {ops : List Op} {i : Nat} {st st' : SS} {b b' : St} {reg reg' : Option Saved},
    Tabs ext x V d0 e0 n0 st.env st.num b.env b.num → opsSc st ops = some st' → runOps w vs i b reg ops = .ok (b', reg') →
    Tabs ext x V d0 e0 n0 st'.env st'.num b'.env b'.num ∧ st'.K = st.K
  | [], _, _, _, _, _, _, _, h, hs, hr => by cases hs; cases hr; exact ⟨h, rfl⟩
  | op :: ops, i, st, st', b, b', reg, reg', h, hs, hr => by
    rw [runOps] at hr
    obtain ⟨⟨b1, reg1⟩, h1, hr⟩ := run_bind_ok hr
    rw [opsSc] at hs
    split at hs
    case h_2 => cases hs
    rename_i st1 hst1
    obtain ⟨g1, g2⟩ := op_sound hw h hst1 h1
    obtain ⟨g3, g4⟩ := ops_sound hw g1 hs hr
    exact ⟨g3, g4.trans g2⟩
theorem opsOn_sound {ops : List Op} {reg : Option Saved} (h : TabsS ext x V s0 st s) (hs : opsSc st ops = some st')
    (hr : opsOn vals ops s = .ok (reg, s')) : TabsS ext x V s0 st' s' ∧ st'.K = st.K ∧ s'.diagnostics = s.diagnostics := by
  unfold opsOn at hr
  obtain ⟨⟨b, reg1⟩, h1, hr⟩ := run_bind_ok hr
  cases hr
  obtain ⟨g1, g2⟩ := ops_sound (b := s.book) (fun _ _ => rfl) h hs h1
  exact ⟨g1, g2, rfl⟩

/-! ### Conditions -/

/-- The tables are the same. -/
structure Still (s s' : BState) : Prop where
  env : s'.staticEnv = s.staticEnv
  num : s'.numparams = s.numparams
  clash : Clash s → Clash s'
instance : Frame Still where
  refl s := ⟨rfl, rfl, id⟩
  trans h g := ⟨g.env.trans h.env, g.num.trans h.num, g.clash ∘ h.clash⟩
  diag s d := ⟨rfl, rfl, fun ⟨l, h⟩ => ⟨l, List.mem_append_left _ h⟩⟩

theorem guard_still {g : Guard} (h : g.check vals s = .ok s') : Still s s' := by
  cases g with
  | value k =>
    rw [Guard.check] at h
    split at h
    · obtain ⟨⟨_, s1⟩, h1, h⟩ := run_bind_ok h
      cases h
      exact valueExpr_steps _ _ _ (runB_ok h1)
    · cases h
  | declared k =>
    rw [Guard.check] at h
    split at h
    · split at h
      · cases h; exact Frame.refl _
      · cases h
    · cases h
  | _ =>
    rw [Guard.check] at h
    split at h
    all_goals first | (cases h; done) | (cases h; exact Frame.refl _)
theorem guards_still : ∀ {gs : List Guard} {s s' : BState}, checkAll vals s gs = .ok s' → Still s s'
  | [], _, _, h => by cases h; exact Frame.refl _
  | g :: gs, s, s', h => by
    rw [checkAll] at h
    obtain ⟨s1, h1, h⟩ := run_bind_ok h
    exact Frame.trans (guard_still h1) (guards_still h)
theorem Still.tabs (k : Still s s') (h : TabsS ext x V s0 st s) : TabsS ext x V s0 st s' := by
  unfold TabsS; rw [k.env, k.num]; exact h

/-! ### The end of a production -/

/-- A value binds `x`; tokens count only in a name. -/
def BV (ext : BldExt) (x : Text) (k : SK) (v : List Atom) : Prop := ∃ a ∈ v, (k = .name ∨ a.isTok = false) ∧ BA ext x a

/-- What a nonterminal of kind `k` with value `v` does to the tables. -/
structure NTOk (ext : BldExt) (x : Text) (k : SK) (s s' : BState) (v : List Atom) : Prop where
  loose : ∀ a ∈ v, ¬ LA ext x a
  uses : k ≠ .raw → ∀ a ∈ v, UA ext x a → Dcl x s ∨ BV ext x k v
  raw : k = .raw → ∀ a ∈ v, (∃ y l, a = .node (.Lvar y l)) ∨ ¬ UA ext x a
  bare : k = .bare → ∀ a ∈ v, bareAtom a
  head : k = .head → ¬ Dcl x s' ∧ (∃ w, s'.staticEnv.stack = w :: s.staticEnv.stack ∧ (x ∈ w → Dcl x s ∨ BV ext x k v)) ∧
    ∃ c l, s'.numparams.stack = c :: l ∧ NumStep s.numparams ⟨l⟩
  flat : k ≠ .head → s'.staticEnv.stack = s.staticEnv.stack ∧ NumStep s.numparams s'.numparams ∧
    (Dcl x s' → Dcl x s ∨ (k ≠ .sealed ∧ k ≠ .raw ∧ BV ext x k v))
  params : k = .params → BV ext x k v → s'.numparams.hasOrdinaryParams = true

theorem some_trees {Q : Node → Prop} {xs : List Atom} : Some_ Q (treesOf xs) ↔ ∃ a ∈ xs, Some_ Q a.trees := by
  induction xs with
  | nil => simp [treesOf]
  | cons a xs ih => simp [treesOf] at ih ⊢; exact or_congr_right ih
theorem ba_tree {a : Atom} (h : a.isTok = false) : BA ext x a ↔ Some_ (Binds ext x) a.trees := by
  cases a <;> first | (cases h; done) | rfl
theorem bv_some {k : SK} (h : Some_ (Binds ext x) (treesOf v)) : BV ext x k v := by
  obtain ⟨a, h1, h2⟩ := some_trees.mp h
  have : a.isTok = false := by
    cases a <;> first | rfl | (simp [Atom.trees] at h2; done)
  exact ⟨a, h1, .inr this, (ba_tree this).mpr h2⟩
theorem some_bv {k : SK} (hk : k ≠ .name) (h : BV ext x k v) : Some_ (Binds ext x) (treesOf v) := by
  obtain ⟨a, h1, h2, h3⟩ := h
  exact some_trees.mpr ⟨a, h1, (ba_tree (h2.resolve_left hk)).mp h3⟩

theorem forall_left {R : α → β → Prop} : ∀ {l : List α} {m : List β}, List.Forall₂ R l m → ∀ {a}, a ∈ l → ∃ b ∈ m, R a b
  | _, _, .nil, _, h => by cases h
  | _, _, .cons g gs, a, h => by
    rcases List.mem_cons.mp h with rfl | h
    · exact ⟨_, List.mem_cons_self, g⟩
    · obtain ⟨b, h1, h2⟩ := forall_left gs h
      exact ⟨b, List.mem_cons_of_mem _ h1, h2⟩
theorem forall_right {R : α → β → Prop} : ∀ {l : List α} {m : List β}, List.Forall₂ R l m → ∀ {b}, b ∈ m → ∃ a ∈ l, R a b
  | _, _, .nil, _, h => by cases h
  | _, _, .cons g gs, a, h => by
    rcases List.mem_cons.mp h with rfl | h
    · exact ⟨_, List.mem_cons_self, g⟩
    · obtain ⟨b, h1, h2⟩ := forall_right gs h
      exact ⟨b, List.mem_cons_of_mem _ h1, h2⟩

/-- The value, given where it was computed (`s1`) and the tables as they are left. -/
theorem finish_sound {k : SK} {ev en : SS} {late : Bool} {rs : List ER} {s1 s2 s3 : BState}
    (hc : finishS k ev en late rs = true) (ha : List.Forall₂ (AtomOk ext x V (Dcl x s0) (Dcl x s1)) rs v)
    (h1 : TabsS ext x V s0 ev s1) (h2 : TabsS ext x V s0 en s2) (hs : s3.staticEnv.stack = s2.staticEnv.stack)
    (hd : Dcl x s3 → Dcl x s2 ∨ ((joinN rs).grow = true ∧ Some_ (Binds ext x) (treesOf v))) (hn : NumStep s2.numparams s3.numparams) :
    NTOk ext x k s0 s3 v := by
  unfold finishS at hc
  simp only [Bool.and_eq_true] at hc
  obtain ⟨⟨-, hr⟩, he⟩ := hc
  have hj : k ≠ .raw → rs.any (·.raw) = false := by
    intro hk
    rw [if_neg hk] at hr
    simp only [Bool.and_eq_true, Bool.not_eq_true'] at hr
    exact hr.1.1
  have hB : k ≠ .raw → ∀ p, ((if k = .name then rs.flatMap (·.cov) else (joinN rs).cov).contains p) = true → Bat ext x V p → BV ext x k v := by
    intro hk p hp hb
    rw [List.contains_iff_mem] at hp
    split at hp
    · rename_i hk'
      obtain ⟨r, g1, g2⟩ := List.mem_flatMap.mp hp
      obtain ⟨a, g3, g4⟩ := forall_left ha g1
      exact ⟨a, g3, .inl hk', g4.cov p g2 hb⟩
    · exact bv_some ((joined ha (hj hk)).cov p hp hb)
  have hl : k ≠ .raw → ∀ l : Lv, (l.S.all fun p => (if k = .name then rs.flatMap (·.cov) else (joinN rs).cov).contains p) = true →
      l.holds ext x V (Dcl x s0) → Dcl x s0 ∨ BV ext x k v := by
    intro hk l hl h
    rcases h with h | ⟨p, g1, g2⟩
    · exact .inl h.2
    · exact .inr (hB hk p (List.all_eq_true.mp hl p g1) g2)
  have hnum := h2.num.step hn
  refine ⟨fun a hav => ?_, fun hk a hav hu => ?_, fun hk a hav => ?_, ?_, ?_, ?_, ?_⟩
  · obtain ⟨r, -, g⟩ := forall_right ha hav
    exact g.loose
  · have := (joined ha (hj hk)).uses (some_trees.mpr ⟨a, hav, hu⟩)
    rw [if_neg hk] at hr
    simp only [Bool.and_eq_true] at hr
    rcases this with h | ⟨g1, g2⟩
    · exact hl hk _ hr.1.2 h
    · have hr := hr.2
      rw [g1] at hr
      cases hev : ev.env with
      | nil => exact absurd hev h1.ne
      | cons l r =>
        rw [hev] at hr
        unfold TabsS at h1
        rw [hev] at h1
        exact hl hk l (by simpa using hr) (h1.head g2)
  · rw [if_pos hk] at hr
    obtain ⟨r, g1, g2⟩ := forall_right ha hav
    have := List.all_eq_true.mp hr r g1
    simp only [Bool.or_eq_true, Bool.and_eq_true, beq_iff_eq, Bool.not_eq_true'] at this
    cases hrr : r.raw with
    | true => exact g2.raw hrr
    | false =>
      rw [hrr] at this
      obtain ⟨t1, t2⟩ := this.resolve_left (by simp)
      refine .inr fun hu => ?_
      rcases g2.uses hrr hu with h | h
      · rw [t1] at h; simp [Lv.holds, Lv.none] at h
      · rw [t2] at h; exact absurd h.1 (by simp)
  · intro hk a hav
    subst hk
    dsimp only at he
    split at he
    · simp only [Bool.and_eq_true, Bool.or_eq_true] at he
      have := he.1.2.resolve_left (by decide)
      obtain ⟨r, g1, g2⟩ := forall_right ha hav
      exact g2.bare (List.all_eq_true.mp this r g1)
    · cases he
  · intro hk
    subst hk
    dsimp only at he
    split at he
    · rename_i a b c d e1 e2
      simp only [Bool.and_eq_true, Bool.not_eq_true', beq_iff_eq] at he
      obtain ⟨⟨t1, t2⟩, t3⟩ := he
      unfold TabsS at h2
      rw [e1, e2] at h2
      rw [e2] at hnum
      have hno : Dcl x s2 → False := fun g => by
        have := h2.head g
        rw [t1] at this; simp [Lv.holds, Lv.none] at this
      refine ⟨fun g => ?_, ?_, ?_⟩
      · rcases hd g with g | g
        · exact hno g
        · rw [t2] at g; exact absurd g.1 (by simp)
      · obtain ⟨vs, g1, g2⟩ := h2.env
        cases g2 with | cons _ g2 =>
        cases g2 with | cons g3 g2 =>
        cases g2
        rename_i w w'
        simp only [List.cons_append, List.nil_append, List.cons.injEq] at g1
        exact ⟨w', hs.trans g1.2, fun g => hl (by decide) b t3 (g3 g)⟩
      · obtain ⟨c, l, g1, -, g2⟩ := hnum
        exact ⟨c, l, g1, g2.1⟩
    · cases he
  · intro hk
    have he' : ∃ a nm, en.env = [a] ∧ en.num = [nm] ∧ (match k with
        | .sealed | .raw => a.S.isEmpty && !(joinN rs).grow
        | _ => a.S.all fun p => (if k = .name then rs.flatMap (·.cov) else (joinN rs).cov).contains p) = true := by
      cases k <;> first | (exact absurd rfl hk) | (
        dsimp only at he
        split at he
        · rename_i a nm e1 e2
          simp only [Bool.and_eq_true] at he
          exact ⟨a, nm, e1, e2, by simpa using he.1.1⟩
        · cases he)
    obtain ⟨a, nm, e1, e2, e3⟩ := he'
    unfold TabsS at h2
    rw [e1, e2] at h2
    rw [e2] at hnum
    refine ⟨?_, hnum.1, fun g => ?_⟩
    · obtain ⟨vs, g1, g2⟩ := h2.env
      cases g2 with | cons _ g2 =>
      cases g2
      simp only [List.cons_append, List.nil_append, List.cons.injEq] at g1
      exact hs.trans g1.2
    · by_cases hk2 : k = .sealed ∨ k = .raw
      · have e3 : (a.S.isEmpty && !(joinN rs).grow) = true := by
          rcases hk2 with rfl | rfl <;> exact e3
        simp only [Bool.and_eq_true, Bool.not_eq_true', List.isEmpty_iff] at e3
        rcases hd g with g | g
        · rcases h2.head g with g | ⟨p, g, -⟩
          · exact .inl g.2
          · rw [e3.1] at g; cases g
        · rw [e3.2] at g; exact absurd g.1 (by simp)
      · rw [not_or] at hk2
        have e3 : (a.S.all fun p => (if k = .name then rs.flatMap (·.cov) else (joinN rs).cov).contains p) = true := by
          cases k <;> first | exact e3 | exact absurd rfl hk2.1 | exact absurd rfl hk2.2
        rcases hd g with g | g
        · exact (hl hk2.2 a e3 (h2.head g)).imp_right fun g => ⟨hk2.1, hk2.2, g⟩
        · exact .inr ⟨hk2.1, hk2.2, bv_some g.2⟩
  · intro hk hb
    subst hk
    dsimp only at he
    split at he
    · rename_i a nm e1 e2
      simp only [Bool.and_eq_true, Bool.or_eq_true, Bool.not_eq_true'] at he
      have he := he.2
      rw [e2] at hnum
      have ht := hnum.top
      rcases he with (he | he) | he
      · exact absurd he (by decide)
      · exact ht.1 he
      · obtain ⟨p, g1, g2⟩ := (joined ha (hj (by decide))).used he.1 (some_bv (by decide) hb)
        exact (ht.2 p (List.contains_iff_mem.mp (List.all_eq_true.mp he.2 p g1))).2 g2
    · cases he

/-! ### An action -/

theorem fields_parse {n : Nat} {w : List Atom} (hw : V[n - 1]? = some w) : ∀ (is : List Nat) (as : List Atom),
    List.Forall₂ (fun i a => w[i]? = some a) is as → exParse ext dedent V (is.map (Ex.fld n)) s = .ok (as, s)
  | _, _, .nil => rfl
  | i :: is, a :: as, .cons h hs => by
    rw [List.map_cons, exParse, Ex.parse, hw]
    simp only [Option.bind_some, h]
    have := fields_parse hw is as hs
    change (exParse ext dedent V (is.map (Ex.fld n)) s >>= fun p => pure (a :: p.1, p.2)) = _
    rw [this]; rfl
theorem range_forall (w : List α) : List.Forall₂ (fun i a => w[i]? = some a) (List.range w.length) w := by
  rw [List.forall₂_iff_get]
  refine ⟨by simp, fun i h1 h2 => ?_⟩
  simp [List.getElem?_eq_getElem h2]
/-- The value given to `$$` is a list of expressions. -/
theorem out_parse {o : ValOut} {rs : List ER} {q : List Atom × BState} (hK : List.Forall₂ (FdOk ext x V d0) st.K V) (hs : outScan st o = some rs)
    (hp : o.parse ext dedent V s = .ok q) : ∃ es, exScan st es = some rs ∧ exParse ext dedent V es s = .ok q := by
  cases o with
  | mk es => exact ⟨es, hs, hp⟩
  | copy n =>
    rw [outScan] at hs
    rw [ValOut.parse] at hp
    split at hs
    · rename_i fd hfd
      split at hp
      · rename_i w hw
        cases hp
        refine ⟨_, hs, ?_⟩
        have hok := forall_get hK hfd hw
        have : fd.ak.length = w.length := by rw [← hok.ak, List.length_map]
        rw [this]
        exact fields_parse hw _ _ (range_forall w)
      · cases hp
    · cases hs

/-- What an action does to the tables. -/
theorem last_sound (hx : Plain x) {k : SK} {o : ValOut} {act : Act} {q : PVal × BState} (hK : List.Forall₂ (FdOk ext x (vals.map (·.atoms)) (Dcl x s0)) st.K (vals.map (·.atoms)))
    (hc : lastS k o act st = true) (h : TabsS ext x (vals.map (·.atoms)) s0 st s) (hp : perform ext dedent act o vals s = .ok q) (hq : ¬ Clash q.2) :
    NTOk ext x k s0 q.2 q.1.atoms := by
  unfold perform at hp
  obtain ⟨s1, h1, hp⟩ := run_bind_ok hp
  split at hp
  · cases hp
  obtain ⟨s2, h2, hp⟩ := run_bind_ok hp
  have h := (guards_still h1).tabs h
  obtain ⟨h, -⟩ := writes_sound hx h h2
  unfold lastS at hc
  have hK' := writeS_K (extra act.line).writes st
  generalize (extra act.line).writes.foldl writeS st = st2 at h hc hK'
  rw [← hK'] at hK
  dsimp only at hc
  split at hc
  · cases hc
  rename_i en hen
  split at hp
  · rename_i hl
    rw [if_pos hl] at hc
    split at hc
    case h_2 => cases hc
    rename_i rs hrs
    obtain ⟨⟨xs, s3⟩, h3, hp⟩ := run_bind_ok hp
    obtain ⟨⟨reg, s4⟩, h4, hp⟩ := run_bind_ok hp
    cases hp
    obtain ⟨es, h5, h6⟩ := out_parse hK hrs h3
    have hc' := hc
    unfold finishS at hc'
    simp only [Bool.and_eq_true, Bool.not_eq_true', hl, Bool.true_and, Bool.or_eq_false_iff] at hc'
    obtain ⟨⟨⟨g1, g2, g3⟩, -⟩, -⟩ := hc'
    have hk := exs_keeps h6
    -- the tables after the value
    have key : ¬ Clash s3 → List.Forall₂ (AtomOk ext x (vals.map (·.atoms)) (Dcl x s0) (Dcl x s2)) rs xs ∧ TabsS ext x (vals.map (·.atoms)) s0 st2 s3 := by
      intro hn
      obtain ⟨k1, k2⟩ := exs_sound hx.1 hK h5 g1 h6 h.numOk hn
      refine ⟨k1, ?_⟩
      obtain ⟨l, r, e⟩ := List.exists_cons_of_ne_nil h.ne
      unfold TabsS at h ⊢
      rw [e] at h ⊢
      have := h.setEnv (l' := l) (e' := s3.staticEnv) hk.stack fun g => by
        rcases k2 g with g | g
        · exact h.head g
        · rw [g2] at g; exact absurd g.1 (by simp)
      exact this.setNum (this.num.step (hk.num hn))
    have hd : s4.diagnostics = s3.diagnostics := by
      unfold opsOn at h4
      obtain ⟨⟨b, reg1⟩, -, h4⟩ := run_bind_ok h4
      cases h4; rfl
    have hn : ¬ Clash s3 := by unfold Clash at hq ⊢; rwa [← hd]
    obtain ⟨k1, k2⟩ := key hn
    obtain ⟨k3, -, -⟩ := opsOn_sound k2 hen h4
    exact finish_sound hc k1 h k3 rfl .inl (.refl _)
  · rename_i hl
    rw [if_neg hl] at hc
    split at hc
    case h_2 => cases hc
    rename_i rs hrs
    obtain ⟨⟨reg, s3⟩, h4, hp⟩ := run_bind_ok hp
    obtain ⟨⟨xs, s4⟩, h3, hp⟩ := run_bind_ok hp
    cases hp
    obtain ⟨h', hK2, -⟩ := opsOn_sound h hen h4
    rw [← hK2] at hK
    obtain ⟨es, h5, h6⟩ := out_parse hK hrs h3
    have hc' := hc
    unfold finishS at hc'
    simp only [Bool.and_eq_true] at hc'
    have g1 := hc'.1.1.1
    have hk := exs_keeps h6
    obtain ⟨k1, k2⟩ := exs_sound hx.1 hK h5 (by simpa only [Bool.not_eq_true'] using g1) h6 h'.numOk hq
    exact finish_sound hc k1 h' h' hk.stack k2 (hk.num hq)
/-- One in the middle. -/
theorem mid_sound (hx : Plain x) {act : Act} {q : PVal × BState} (hs : opsSc ((extra act.line).writes.foldl writeS st) act.ops = some st')
    (h : TabsS ext x (vals.map (·.atoms)) s0 st s) (hp : perform ext dedent act (.mk []) vals s = .ok q) :
    TabsS ext x (vals.map (·.atoms)) s0 st' q.2 ∧ st'.K = st.K ∧ q.1.atoms = [] := by
  unfold perform at hp
  obtain ⟨s1, h1, hp⟩ := run_bind_ok hp
  split at hp
  · cases hp
  obtain ⟨s2, h2, hp⟩ := run_bind_ok hp
  have h := (guards_still h1).tabs h
  obtain ⟨h, -⟩ := writes_sound hx h h2
  have hK' := writeS_K (extra act.line).writes st
  split at hp
  · obtain ⟨⟨xs, s3⟩, h3, hp⟩ := run_bind_ok hp
    obtain ⟨⟨reg, s4⟩, h4, hp⟩ := run_bind_ok hp
    cases hp
    cases h3
    obtain ⟨k1, k2, -⟩ := opsOn_sound h hs h4
    exact ⟨k1, k2.trans hK', rfl⟩
  · obtain ⟨⟨reg, s4⟩, h4, hp⟩ := run_bind_ok hp
    obtain ⟨⟨xs, s3⟩, h3, hp⟩ := run_bind_ok hp
    cases hp
    cases h3
    obtain ⟨k1, k2, -⟩ := opsOn_sound h hs h4
    exact ⟨k1, k2.trans hK', rfl⟩

theorem perform_clash {act : Act} {o : ValOut} {q : PVal × BState} (hp : perform ext dedent act o vals s = .ok q) (h : Clash s) : Clash q.2 := by
  have hop : ∀ {ops : List Op} {s s' : BState} {reg}, opsOn vals ops s = .ok (reg, s') → Clash s → Clash s' := by
    intro ops s s' reg h4 h
    unfold opsOn at h4
    obtain ⟨⟨b, reg1⟩, -, h4⟩ := run_bind_ok h4
    cases h4; exact h
  have hpa : ∀ {s} {q : List Atom × BState}, o.parse ext dedent (vals.map (·.atoms)) s = .ok q → Clash s → Clash q.2 := by
    intro s q h3 h
    cases o with
    | mk es => exact (exs_keeps h3).clash h
    | copy n =>
      rw [ValOut.parse] at h3
      split at h3
      · cases h3; exact h
      · cases h3
  unfold perform at hp
  obtain ⟨s1, h1, hp⟩ := run_bind_ok hp
  split at hp
  · cases hp
  obtain ⟨s2, h2, hp⟩ := run_bind_ok hp
  have h := (guards_still h1).clash h
  have hw : Clash s2 := writes_clash h2 h
  split at hp
  · obtain ⟨⟨xs, s3⟩, h3, hp⟩ := run_bind_ok hp
    obtain ⟨⟨reg, s4⟩, h4, hp⟩ := run_bind_ok hp
    cases hp
    exact hop h4 (hpa h3 hw)
  · obtain ⟨⟨reg, s4⟩, h4, hp⟩ := run_bind_ok hp
    obtain ⟨⟨xs, s3⟩, h3, hp⟩ := run_bind_ok hp
    cases hp
    exact hpa h3 (hop h4 hw)

end
end Verif
