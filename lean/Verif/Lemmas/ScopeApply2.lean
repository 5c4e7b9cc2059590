import Verif.Lemmas.ScopeApply
/-!
The functions with rules of their own, and whole expressions.
-/
namespace Verif
open Builder Grammar ScopeSpec

section
variable {ext : BldExt} {x : Text} {V : List (List Atom)} {d0 dp : Prop} {indent : Int} {dedent : List Atom → Int}
  {st : SS} {f : BFn} {es : List Ex} {rs : List ER} {r : ER} {xs : List Atom} {a : Atom} {s s1 s' : BState}

/-- A function that keeps all its parts. -/
theorem flat_sound (h : Called ext x V d0 indent dedent st f es rs xs s s1 s' a) (hf : growFn f = false) (hraw : rs.any (·.raw) = false)
    (ht : a.isTok = false) (hb : Some_ (Binds ext x) a.trees ↔ Some_ (Binds ext x) (treesOf xs))
    (hu : Some_ (Uses ext x) a.trees → Some_ (Uses ext x) (treesOf xs)) (hl : Some_ (Loose ext x) a.trees → Some_ (Loose ext x) (treesOf xs)) :
    Results ext x V d0 s s' (joinN rs) a := by
  obtain ⟨f1, f2, f3, f4, f5⟩ := joinN_flags rs
  refine ⟨AtomOk.of_joined (joined h.args hraw) ht hb hu hl rfl rfl rfl rfl rfl f1 f2 ?_ ?_ ?_,
    fun d => (h.same hf d).imp_right fun ⟨g1, g2⟩ => ⟨f2, g1, (BA_node ht).mpr (hb.mpr g2)⟩⟩
  · rw [f3]; nofun
  · rw [f4]; nofun
  · rw [f5]; nofun
/-- A function that declares what it binds. -/
theorem grown_sound (h : Called ext x V d0 indent dedent st f es rs xs s s1 s' a) (hraw : rs.any (·.raw) = false)
    (ht : a.isTok = false) (hb : Some_ (Binds ext x) (treesOf xs) → Some_ (Binds ext x) a.trees)
    (hu : Some_ (Uses ext x) a.trees → Some_ (Uses ext x) (treesOf xs)) (hl : Some_ (Loose ext x) a.trees → Some_ (Loose ext x) (treesOf xs))
    (hg : Dcl x s' → Dcl x s1 ∨ Some_ (Binds ext x) a.trees) :
    Results ext x V d0 s s' { joinN rs with grow := true, own := true } a := by
  obtain ⟨f1, f2, f3, f4, f5⟩ := joinN_flags rs
  have hJ := joined h.args hraw
  have hn := BA_node (ext := ext) (x := x) ht
  refine ⟨⟨ht.trans f2.symm, fun p hp e => hn.mpr (hb (hJ.cov p hp e)), nofun, fun _ e => hJ.uses (hu e), ?_, fun e => hJ.loose (hl e), ?_, ?_, ?_⟩,
    fun d => ?_⟩
  · change (joinN rs).raw = true → _; rw [f1]; nofun
  · change (joinN rs).bare = true → _; rw [f3]; nofun
  · change (joinN rs).fits = true → _; rw [f4]; nofun
  · change (joinN rs).one = true → _; rw [f5]; nofun
  · rcases hg d with d | e
    · exact (h.grown d).imp_right fun ⟨_, g2⟩ => ⟨f2, rfl, hn.mpr (hb g2)⟩
    · exact .inr ⟨f2, rfl, hn.mpr e⟩

theorem illTyped_run {P : Prop} (e : illTyped.run s = .ok (.ok a, s')) : P := by cases e
theorem outR_run {c : α → Atom} {m : Res α} (e : (outR c m).run s = .ok (.ok a, s')) : ∃ b, m = .ok b ∧ a = c b ∧ s' = s := by
  unfold outR at e
  obtain ⟨b, s1, e1, e2⟩ := BldR.bind_ok e
  have e1 := BldR.run_lift_ok e1
  cases e2
  rcases m with p | b'
  · cases e1
  · cases e1; exact ⟨_, rfl, rfl, rfl⟩
theorem outM_run {c : α → Atom} {m : BldM α} (e : (outM c m).run s = .ok (.ok a, s')) : ∃ b, m s = .ok (b, s') ∧ a = c b := by
  unfold outM at e
  obtain ⟨b, s1, e1, e2⟩ := BldR.bind_ok e
  have e1 := BldR.run_lift_ok e1
  cases e2
  exact ⟨b, e1, rfl⟩
theorem outB_run {c : α → Atom} {m : BldR α} (e : (outB c m).run s = .ok (.ok a, s')) : ∃ b, m.run s = .ok (.ok b, s') ∧ a = c b := by
  unfold outB at e
  obtain ⟨b, s1, e1, e2⟩ := BldR.bind_ok e
  cases e2
  exact ⟨b, e1, rfl⟩

theorem BldR.Yields.run {m : BldR α} {P : α → Prop} (h : BldR.Yields m P) {b : α} (e : m.run s = .ok (.ok b, s')) : P b :=
  BldR.yields_iff.mp h s b s' e

theorem Res.Yields.run {m : Res α} {P : α → Prop} (h : Res.Yields m P) {b : α} (e : m = .ok b) : P b := by
  subst e; exact h

theorem accessible_sound (h : Called ext x V d0 indent dedent st .accessible es rs xs s s1 s' a) (hr : fnScan st .accessible es rs = some r) :
    Results ext x V d0 s s' r a := by
  unfold fnScan at hr
  dsimp only at hr
  split at hr
  · cases hr
  split at hr
  case h_2 => cases hr
  rename_i r0 _
  split at hr
  · cases hr
  rename_i hc
  simp only [Bool.or_eq_true, not_or, Bool.not_eq_true] at hc
  cases hr
  have hrun := h.run
  have hargs := h.args
  cases hargs with | cons h0 hn0 =>
  cases hn0
  rename_i y
  dsimp only [applyFn] at hrun
  unfold withN at hrun
  split at hrun
  case h_2 => exact illTyped_run hrun
  rename_i n hxs
  cases hxs
  obtain ⟨m, e, rfl⟩ := outM_run hrun
  obtain ⟨k1, k2, k3⟩ := accessible_run (ext := ext) h.hx e
  have hd : Dcl x s1 → Dcl x s := fun d => (h.grown d).elim id fun g => by
    have g := g.1
    rw [joinN, if_neg (by rw [hc.1]; nofun)] at g
    simp [ER.join, joinN, hc.2] at g
  have hs : Dcl x s' → Dcl x s := fun d => hd (fn_same h.hx (f := .accessible) rfl s1 _ s' h.run d)
  refine ⟨⟨rfl, fun p hp e => ?_, fun o e => ?_, fun _ e => ?_, nofun, fun e => ?_, nofun, nofun, nofun⟩, fun d => .inl (hs d)⟩
  · have := h0.cov p hp e
    simp only [BA, Atom.trees, some_cons, some_nil, or_false] at this ⊢
    exact k1.mpr this
  · refine h0.used o ?_
    simp only [BA, Atom.trees, some_cons, some_nil, or_false] at e ⊢
    exact k1.mp e
  · simp only [UA, Atom.trees, some_cons, some_nil, or_false] at e
    rcases k2 e with e | ⟨e, hv⟩
    · exact .inr ⟨rfl, hd e⟩
    · have hu : UA ext x (.node n) := by simpa [UA, Atom.trees] using e
      rcases hw : r0.raw with _ | _
      · rcases h0.uses hw hu with e | e
        · exact .inl e
        · exact .inr ⟨rfl, e.2⟩
      · rcases h0.raw hw with ⟨y, l, e⟩ | e
        · cases e; exact absurd rfl (hv y l)
        · exact absurd hu e
  · refine h0.loose ?_
    simp only [LA, Atom.trees, some_cons, some_nil, or_false] at e ⊢
    exact k3.mp e

theorem assignable_sound (h : Called ext x V d0 indent dedent st .assignable es rs xs s s1 s' a) (hr : fnScan st .assignable es rs = some r) :
    Results ext x V d0 s s' r a := by
  unfold fnScan at hr
  dsimp only at hr
  split at hr
  · cases hr
  split at hr
  case h_2 => cases hr
  rename_i r0 _
  split at hr
  · cases hr
  rename_i hc
  simp only [Bool.or_eq_true, not_or, Bool.not_eq_true] at hc
  cases hr
  have hrun := h.run
  have hargs := h.args
  cases hargs with | cons h0 hn0 =>
  cases hn0
  rename_i y
  dsimp only [applyFn] at hrun
  unfold withN at hrun
  split at hrun
  case h_2 => exact illTyped_run hrun
  rename_i n hxs
  cases hxs
  obtain ⟨m, e, rfl⟩ := outB_run hrun
  obtain ⟨k0, k1, k2, k3⟩ := BldR.Yields.run (assignable_made (ext := ext) (x := x)) e
  have kg := assignable_grows (ext := ext) (x := x) s1 m s' e
  have hm : BA ext x (.node m) ↔ Binds ext x m := by simp [BA, Atom.trees]
  have hn : BA ext x (.node n) ↔ Binds ext x n := by simp [BA, Atom.trees]
  refine ⟨⟨rfl, fun p hp e => ?_, nofun, fun _ e => ?_, nofun, fun e => ?_, fun _ => bareAtom_node k0, nofun, nofun⟩, fun d => ?_⟩
  · exact hm.mpr (k1 (hn.mp (h0.cov p hp e)))
  · simp only [UA, Atom.trees, some_cons, some_nil, or_false] at e
    obtain ⟨e, hv⟩ := k2 e
    have hu : UA ext x (.node n) := by simpa [UA, Atom.trees] using e
    rcases hw : r0.raw with _ | _
    · rcases h0.uses hw hu with e | e
      · exact .inl e
      · rw [hc.2] at e; cases e.1
    · rcases h0.raw hw with ⟨y, l, e⟩ | e
      · cases e; exact absurd rfl (hv y l)
      · exact absurd hu e
  · refine h0.loose ?_
    simp only [LA, Atom.trees, some_cons, some_nil, or_false] at e ⊢
    exact k3 e
  · rcases kg d with d | e
    · refine (h.grown d).imp_right fun ⟨_, g⟩ => ⟨rfl, rfl, hm.mpr (k1 ?_)⟩
      simpa [treesOf, Atom.trees] using g
    · exact .inr ⟨rfl, rfl, hm.mpr e⟩

/-- Tokens stay tokens. -/
theorem token_sound (hx : isNumparamName x = false) {y : Atom} {r0 : ER} (h0 : AtomOk ext x V d0 (Dcl x s) r0 y) (ht : a.isTok = true)
    (hb : BA ext x a ↔ BA ext x y) (hd : Dcl x s' → Dcl x s) :
    Results ext x V d0 s s' { cov := r0.cov, used := r0.used, own := r0.own, tok := true } a := by
  have htr := tok_trees ht
  refine ⟨⟨ht, fun p hp e => hb.mpr (h0.cov p hp e), fun o e => h0.used o (hb.mp e), fun _ e => ?_, nofun, fun e => ?_, nofun, nofun, nofun⟩,
    fun d => .inl (hd d)⟩
  · rw [UA, htr] at e; simp at e
  · rw [LA, htr] at e; simp at e

theorem tokenFn_sound (hf : f = .someT ∨ f = .endlessName ∨ f = .kwargName) (h : Called ext x V d0 indent dedent st f es rs xs s s1 s' a)
    (hr : fnScan st f es rs = some r) : Results ext x V d0 s s' r a := by
  have key : ∃ r0, rs = [r0] ∧ r0.tok = true ∧ r = { cov := r0.cov, used := r0.used, own := r0.own, tok := true } := by
    rcases hf with rfl | rfl | rfl
    all_goals
      unfold fnScan at hr
      dsimp only [inside, bound] at hr
      split at hr
      · cases hr
      split at hr
      · cases hr
      split at hr
      case h_2 => cases hr
      split at hr
      case isFalse => cases hr
      rename_i hc
      cases hr
      exact ⟨_, rfl, hc, rfl⟩
  obtain ⟨r0, rfl, hc, rfl⟩ := key
  have hargs := h.args
  cases hargs with | cons h0 hn0 =>
  cases hn0
  rename_i y
  have hg : growFn f = false := by rcases hf with rfl | rfl | rfl <;> rfl
  have hs : Dcl x s' → Dcl x s := fun d => (h.same hg d).elim id fun ⟨g, _⟩ => by
    rw [joinN, if_pos hc] at g; cases g
  have hrun := h.run
  have hy : ∃ t, y = .tok t ∧ (a = .tok t ∨ a = .otok (some t)) := by
    rcases hf with rfl | rfl | rfl
    · dsimp only [applyFn] at hrun
      unfold withT at hrun
      split at hrun
      case h_2 => exact illTyped_run hrun
      rename_i t hxs
      cases hxs
      cases hrun
      exact ⟨t, rfl, .inr rfl⟩
    · dsimp only [applyFn] at hrun
      unfold withT at hrun
      split at hrun
      case h_2 => exact illTyped_run hrun
      rename_i t hxs
      cases hxs
      obtain ⟨m, e, rfl⟩ := outB_run hrun
      unfold endlessName at e
      dsimp only at e
      split at e
      · cases e; exact ⟨t, rfl, .inl rfl⟩
      split at e
      · cases e
      · cases e; exact ⟨t, rfl, .inl rfl⟩
    · dsimp only [applyFn] at hrun
      unfold withT at hrun
      split at hrun
      case h_2 => exact illTyped_run hrun
      rename_i t hxs
      cases hxs
      obtain ⟨m, e, rfl⟩ := outB_run hrun
      unfold kwargName at e
      split at e
      · cases e
      split at e
      · cases e; exact ⟨t, rfl, .inl rfl⟩
      · cases e
  obtain ⟨t, rfl, ha⟩ := hy
  refine token_sound h.hx h0 ?_ ?_ hs
  · rcases ha with rfl | rfl <;> rfl
  · rcases ha with rfl | rfl <;> simp [BA]

theorem scan_rest (h : fnScan st f es rs = some r) (h1 : f ≠ .accessible) (h2 : f ≠ .assignable) : rs.any (·.raw) = false := by
  unfold fnScan at h
  dsimp only at h
  split at h
  · cases h
  split at h
  · exact absurd rfl h1
  · exact absurd rfl h2
  split at h
  · cases h
  rename_i hc
  simpa using hc

theorem noneT_sound (h : Called ext x V d0 indent dedent st .noneT es rs xs s s1 s' a)
    (hr : fnScan st .noneT es rs = some r) : Results ext x V d0 s s' r a := by
  have hraw := scan_rest hr nofun nofun
  have key : r = { tok := true } := by
    unfold fnScan at hr
    dsimp only [inside, bound] at hr
    rw [hraw] at hr
    split at hr
    · cases hr
    · cases hr; rfl
  subst key
  have hs := h.same rfl
  have hrun := h.run
  dsimp only [applyFn] at hrun
  unfold withNone at hrun
  split at hrun
  case h_2 => exact illTyped_run hrun
  cases hrun
  refine ⟨⟨rfl, nofun, fun _ e => ?_, fun _ e => ?_, nofun, fun e => ?_, nofun, nofun, nofun⟩, fun d => ?_⟩
  · simp [BA] at e
  · simp [UA, Atom.trees] at e
  · simp [LA, Atom.trees] at e
  · refine (hs d).imp_right fun g => ?_
    simp [treesOf] at g

theorem lvar_sound (h : Called ext x V d0 indent dedent st .lvar es rs xs s s1 s' a)
    (hr : fnScan st .lvar es rs = some r) : Results ext x V d0 s s' r a := by
  have hraw := scan_rest hr nofun nofun
  have key : r = { raw := true } := by
    unfold fnScan at hr
    dsimp only [inside, bound] at hr
    rw [hraw] at hr
    split at hr
    · cases hr
    · cases hr; rfl
  subst key
  have hs := h.same rfl
  have hrun := h.run
  dsimp only [applyFn] at hrun
  unfold withT at hrun
  split at hrun
  case h_2 => exact illTyped_run hrun
  obtain ⟨b, e, rfl, -⟩ := outR_run hrun
  unfold lvar at e
  obtain ⟨n, e1, e2⟩ : ∃ n l, b = .Lvar n l := by
    rename_i t
    rcases hv : value t with p | n
    · rw [hv] at e; cases e
    · rw [hv] at e; cases e; exact ⟨_, _, rfl⟩
  subst e2
  refine ⟨⟨rfl, nofun, fun _ e => ?_, nofun, fun _ => .inl ⟨_, _, rfl⟩, fun e => ?_, nofun, nofun, nofun⟩, fun d => ?_⟩
  · simp only [BA, Atom.trees, some_cons, some_nil, or_false, binds_Lvar] at e
  · simp only [LA, Atom.trees, some_cons, some_nil, or_false, loose_Lvar] at e
  · refine (hs d).imp_right fun g => ?_
    simp [treesOf, Atom.trees] at g

theorem pairLabel_sound (h : Called ext x V d0 indent dedent st .pairLabel es rs xs s s1 s' a)
    (hr : fnScan st .pairLabel es rs = some r) : Results ext x V d0 s s' r a := by
  have hraw := scan_rest hr nofun nofun
  have key : r = { acc := true } := by
    unfold fnScan at hr
    dsimp only [inside, bound] at hr
    rw [hraw] at hr
    split at hr
    · cases hr
    · cases hr; rfl
  subst key
  have hrun := h.run
  dsimp only [applyFn] at hrun
  unfold withT at hrun
  split at hrun
  case h_2 => exact illTyped_run hrun
  rename_i t
  have hs : Dcl x s1 → Dcl x s := fun d => (h.grown d).elim id fun g => by
    have := g.2
    simp [treesOf, Atom.trees] at this
  obtain ⟨b, e, rfl⟩ := outM_run hrun
  obtain ⟨k1, k2, k3⟩ := pairLabel_run (ext := ext) h.hx e
  refine ⟨⟨rfl, nofun, fun _ e => ?_, fun _ e => ?_, nofun, fun e => ?_, nofun, nofun, nofun⟩, fun d => ?_⟩
  · simp only [BA, Atom.trees, some_cons, some_nil, or_false] at e
    exact absurd e k1
  · simp only [UA, Atom.trees, some_cons, some_nil, or_false] at e
    exact .inr ⟨rfl, hs (k2 e)⟩
  · simp only [LA, Atom.trees, some_cons, some_nil, or_false] at e
    exact k3 e
  · exact .inl (hs (fn_same h.hx (f := .pairLabel) rfl s1 _ s' h.run d))

theorem match_sound (hf : f = .matchVar ∨ f = .matchRest ∨ f = .matchLabel ∨ f = .matchOp)
    (h : Called ext x V d0 indent dedent st f es rs xs s s1 s' a)
    (hr : fnScan st f es rs = some r) : Results ext x V d0 s s' r a := by
  have hraw : rs.any (·.raw) = false := by rcases hf with rfl | rfl | rfl | rfl <;> exact scan_rest hr nofun nofun
  have key : r = { joinN rs with grow := true, own := true } := by
    rcases hf with rfl | rfl | rfl | rfl
    all_goals
      unfold fnScan at hr
      dsimp only [inside, bound] at hr
      rw [hraw] at hr
      split at hr
      · cases hr
      simp only [Bool.false_eq_true, if_false] at hr
      split at hr
      · cases hr
      · cases hr; rfl
  subst key
  have hrun := h.run
  rcases hf with rfl | rfl | rfl | rfl
  · dsimp only [applyFn] at hrun
    unfold withT at hrun
    split at hrun
    case h_2 => exact illTyped_run hrun
    rename_i t
    obtain ⟨m, e, rfl⟩ := outB_run hrun
    obtain ⟨l, l', rfl⟩ := BldR.Yields.run matchVar_gives e
    obtain ⟨k1, k2, k3⟩ := patMade_var (ext := ext) (x := x) (n := cloneValue t) (l := l) (l' := l')
    have kg := matchVar_grows s1 _ s' e (x := x)
    refine grown_sound h hraw rfl ?_ ?_ ?_ ?_
    · simp [treesOf, Atom.trees]
    · simp [Atom.trees, k2]
    · simp [Atom.trees, k3]
    · intro d
      refine (kg d).imp_right fun e => ?_
      simpa [Atom.trees, k1] using e.symm
  · dsimp only [applyFn] at hrun
    unfold withTO at hrun
    split at hrun
    case h_2 => exact illTyped_run hrun
    rename_i t
    obtain ⟨m, e, rfl⟩ := outB_run hrun
    obtain ⟨k1, k2, k3⟩ := BldR.Yields.run (matchRest_made (ext := ext) (x := x)) e
    have kg := matchRest_grows s1 _ s' e (x := x)
    refine grown_sound h hraw rfl ?_ ?_ ?_ ?_
    · simp [treesOf, Atom.trees]
    · simp [Atom.trees, k2]
    · simp [Atom.trees, k3]
    · intro d
      refine (kg d).imp_right fun e => ?_
      simp only [Atom.trees, some_cons, some_nil, or_false]
      exact k1.mpr e
  · dsimp only [applyFn] at hrun
    unfold withK at hrun
    split at hrun
    case h_2 => exact illTyped_run hrun
    rename_i t
    obtain ⟨m, e, rfl⟩ := outB_run hrun
    obtain ⟨k1, k2, k3⟩ := BldR.Yields.run (matchLabel_made (ext := ext) (x := x)) e
    have kg := matchLabel_grows (ext := ext) s1 _ s' e (x := x)
    refine grown_sound h hraw rfl ?_ ?_ ?_ ?_
    · intro e
      exact absurd (by simpa [treesOf] using e) k1
    · simp [Atom.trees, k2]
    · simp [Atom.trees, k3]
    · intro d
      refine (kg d).imp_right fun e => ?_
      simpa [Atom.trees] using e
  · dsimp only [applyFn] at hrun
    unfold withNTN at hrun
    split at hrun
    case h_2 => exact illTyped_run hrun
    obtain ⟨m, e, rfl⟩ := outB_run hrun
    obtain ⟨k1, k2, k3⟩ := BldR.Yields.run (matchOp_made (ext := ext) (x := x)) e
    have kg := matchOp_grows s1 _ s' e (x := x)
    refine grown_sound h hraw rfl ?_ ?_ ?_ ?_
    · simpa [treesOf, Atom.trees] using k1
    · simpa [treesOf, Atom.trees] using k2
    · simpa [treesOf, Atom.trees] using k3
    · intro d
      refine (kg d).imp_right fun e => ?_
      simpa [Atom.trees] using e

theorem assign_sound (h : Called ext x V d0 indent dedent st .assign es rs xs s s1 s' a)
    (hr : fnScan st .assign es rs = some r) : Results ext x V d0 s s' r a := by
  have hraw := scan_rest hr nofun nofun
  have key : ∃ r0 rest, rs = r0 :: rest ∧ r0.bare = true ∧ r = joinN rs := by
    unfold fnScan at hr
    dsimp only [inside, bound] at hr
    rw [hraw] at hr
    split at hr
    · cases hr
    simp only [Bool.false_eq_true, if_false] at hr
    split at hr
    case h_2 => cases hr
    split at hr
    case isFalse => cases hr
    cases hr
    exact ⟨_, _, rfl, by assumption, rfl⟩
  obtain ⟨r0, rest, rfl, hb, rfl⟩ := key
  have hrun := h.run
  dsimp only [applyFn] at hrun
  unfold withNTN at hrun
  split at hrun
  case h_2 => exact illTyped_run hrun
  obtain ⟨m, e, rfl, -⟩ := outR_run hrun
  have hargs := h.args
  cases hargs with | cons h0 _ =>
  obtain ⟨-, k1, k2, k3⟩ := Res.Yields.run (assign_made (ext := ext) (x := x) (h0.bare hb _ rfl)) e
  refine flat_sound h rfl hraw rfl ?_ ?_ ?_
  · rw [k1]; simp [treesOf, Atom.trees]
  · rw [k2]; simp [treesOf, Atom.trees]
  · rw [k3]; simp [treesOf, Atom.trees]

theorem argsType_sound (h : Called ext x V d0 indent dedent st .argsType es rs xs s s1 s' a) (hnum : ∀ nm r', st.num = nm :: r' → NmOk ext x V nm s1.numparams)
    (hr : fnScan st .argsType es rs = some r) : Results ext x V d0 s s' r a := by
  have hraw := scan_rest hr nofun nofun
  have key : ∃ n i nm rest, es = [.fld n i] ∧ st.num = nm :: rest ∧ (nm.ord = true ∨ (n, i) ∈ nm.G) ∧ r = joinN rs := by
    unfold fnScan at hr
    dsimp only [inside, bound] at hr
    rw [hraw] at hr
    split at hr
    · cases hr
    simp only [Bool.false_eq_true, if_false] at hr
    split at hr
    case h_2 => cases hr
    split at hr
    case isFalse => cases hr
    rename_i hc
    cases hr
    exact ⟨_, _, _, _, rfl, by assumption, by simpa using hc, rfl⟩
  obtain ⟨n, i, nm, rest, rfl, hst, hc, rfl⟩ := key
  have hscan := h.scan
  have hrun := h.run
  dsimp only [applyFn] at hrun
  unfold withP at hrun
  split at hrun
  case h_2 => exact illTyped_run hrun
  rename_i o
  obtain ⟨m, e, rfl⟩ := outB_run hrun
  unfold argsType at e
  obtain ⟨s2, s3, e1, e2⟩ := BldR.bind_ok e
  have e1 := BldR.run_lift_ok e1
  cases e1
  split at e2
  · rename_i hnp
    cases e2
    have hno : s1.numparams.hasOrdinaryParams = false := by
      unfold NumStack.hasNumparams at hnp
      unfold NumStack.hasOrdinaryParams NumStack.ORDINARY_PARAMS
      simp only [beq_eq_false_iff_ne]
      simp only [gt_iff_lt, decide_eq_true_eq] at hnp
      omega
    obtain ⟨g1, g2⟩ := hnum _ _ hst
    have hno' : ¬ Bat ext x V (n, i) := by
      intro e
      rcases hc with hc | hc
      · rw [g1 hc] at hno; cases hno
      · rw [(g2 _ hc).2 e] at hno; cases hno
    have hargs := h.args
    cases hargs with | cons h0 hn0 =>
    cases hn0
    rename_i r0
    have hr0 : r0.own = false ∧ r0.used = [(n, i)] := by
      rw [exScan, Ex.scan, fldScan] at hscan
      split at hscan
      case h_2 => cases hscan
      rename_i heq
      split at heq
      case h_2 => cases heq
      split at heq
      case h_2 => cases heq
      cases heq
      rw [exScan] at hscan
      cases hscan
      exact ⟨rfl, rfl⟩
    have hnb : ¬ Some_ (Binds ext x) (treesOf [.onode o]) := by
      intro e
      obtain ⟨p, hp, e⟩ := h0.used hr0.1 (by simpa [BA, treesOf] using e)
      rw [hr0.2, List.mem_singleton] at hp
      subst hp
      exact hno' e
    refine flat_sound h rfl hraw rfl ?_ ?_ ?_
    · simp only [Atom.trees]
      exact ⟨fun e => by simp at e, fun e => absurd e hnb⟩
    · simp [Atom.trees]
    · simp [Atom.trees]
  · cases e2
    refine flat_sound h rfl hraw rfl ?_ ?_ ?_
    all_goals simp [Atom.trees, treesOf]

/-- The commands of which the builder drops the arguments. -/
def idle (k : KeywordCmd) : Bool := k = .Redo || k = .Retry || k = .Zsuper

theorem keyword_gives {k : KeywordCmd} {l : List Node} {t : Token} {b e : Option Token} (hi : idle k = false) (hd : k = .Defined → ∃ n, l = [n]) :
    BldR.Yields (keywordCmd k t b l e) fun m => (Binds ext x m ↔ Some_ (Binds ext x) l) ∧ (Uses ext x m ↔ Some_ (Uses ext x) l) ∧
      (Loose ext x m ↔ Some_ (Loose ext x) l) := by
  by_cases hk : k = .Defined
  · obtain ⟨n, rfl⟩ := hd hk
    subst hk
    refine BldR.yields_iff.mpr fun s a s' h => ⟨?_, ?_, ?_⟩
    · simpa using BldR.Yields.run (keyword_defined binds_additive) h
    · simpa using BldR.Yields.run (keyword_defined uses_additive) h
    · simpa using BldR.Yields.run (keyword_defined loose_additive) h
  · simp only [idle, Bool.or_eq_false_iff, decide_eq_false_iff_not] at hi
    have hk' : k ≠ .Redo ∧ k ≠ .Retry ∧ k ≠ .Zsuper ∧ k ≠ .Defined := ⟨hi.1.1, hi.1.2, hi.2, hk⟩
    refine BldR.yields_iff.mpr fun s a s' h => ⟨?_, ?_, ?_⟩
    · exact BldR.Yields.run (keyword_plain binds_additive hk') h
    · exact BldR.Yields.run (keyword_plain uses_additive hk') h
    · exact BldR.Yields.run (keyword_plain loose_additive hk') h

theorem keyword_idle {k : KeywordCmd} (hk : idle k = true) {l : List Node} {t : Token} {b e : Option Token} {m : Node}
    (h : Called ext x V d0 indent dedent st f es rs xs s s1 s' (.node m)) (hf : growFn f = false)
    (hg : (joinN rs).grow = false) (hm : (keywordCmd k t b l e).run s1 = .ok (.ok m, s')) :
    Results ext x V d0 s s' { joinN rs with cov := [], req := Lv.none } (.node m) := by
  have hk : k = .Redo ∨ k = .Retry ∨ k = .Zsuper := by
    simp only [idle, Bool.or_eq_true, decide_eq_true_eq] at hk; tauto
  obtain ⟨f1, f2, f3, f4, f5⟩ := joinN_flags rs
  obtain ⟨-, k1, k2, k3⟩ := BldR.Yields.run (keyword_none (ext := ext) (x := x) hk) hm
  refine ⟨⟨f2.symm, nofun, fun _ e => absurd e k1.mp, fun _ e => absurd e k2.mp, ?_, fun e => k3.mp e, ?_, ?_, ?_⟩,
    fun d => (h.same hf d).imp_right fun g => by rw [hg] at g; cases g.1⟩
  · change (joinN rs).raw = true → _; rw [f1]; nofun
  · change (joinN rs).bare = true → _; rw [f3]; nofun
  · change (joinN rs).fits = true → _; rw [f4]; nofun
  · change (joinN rs).one = true → _; rw [f5]; nofun

theorem keyword_sound {k : KeywordCmd} (h : Called ext x V d0 indent dedent st (.keyword k) es rs xs s s1 s' a)
    (hr : fnScan st (.keyword k) es rs = some r) : Results ext x V d0 s s' r a := by
  have hraw := scan_rest hr nofun nofun
  have key : (idle k = true ∧ (joinN rs).grow = false ∧ r = { joinN rs with cov := [], req := Lv.none }) ∨
      (idle k = false ∧ (k = .Defined → ∃ r0 r1, rs = [r0, r1] ∧ r1.one = true) ∧ r = joinN rs) := by
    unfold fnScan at hr
    dsimp only [inside, bound] at hr
    rw [hraw] at hr
    split at hr
    · cases hr
    simp only [Bool.false_eq_true, if_false] at hr
    cases k
    case Defined =>
      dsimp only at hr
      split at hr
      case h_2 => cases hr
      split at hr
      case isFalse => cases hr
      cases hr
      exact .inr ⟨rfl, fun _ => ⟨_, _, rfl, by assumption⟩, rfl⟩
    case Redo | Retry | Zsuper =>
      dsimp only at hr
      split at hr
      · cases hr
      rename_i hg
      cases hr
      exact .inl ⟨rfl, by simpa using hg, rfl⟩
    all_goals
      cases hr
      exact .inr ⟨rfl, nofun, rfl⟩
  have hrun := h.run
  dsimp only [applyFn] at hrun
  unfold withTL at hrun
  split at hrun
  case h_2 => exact illTyped_run hrun
  rename_i t l
  obtain ⟨m, e, rfl⟩ := outB_run hrun
  rcases key with ⟨hk, hg, rfl⟩ | ⟨hk, hd, rfl⟩
  · exact keyword_idle hk h rfl hg e
  · obtain ⟨k1, k2, k3⟩ := BldR.Yields.run (keyword_gives (ext := ext) (x := x) hk fun hk' => by
      obtain ⟨r0, r1, rfl, ho⟩ := hd hk'
      have hargs := h.args
      cases hargs with | cons h0 hn0 =>
      cases hn0 with | cons h1 _ =>
      obtain ⟨n, e⟩ := h1.one ho
      cases e
      exact ⟨n, rfl⟩) e
    refine flat_sound h rfl hraw rfl ?_ ?_ ?_
    · simpa [Atom.trees, treesOf] using k1
    · simpa [Atom.trees, treesOf] using k2.mp
    · simpa [Atom.trees, treesOf] using k3.mp

theorem keywordParen_sound {k : KeywordCmd} (h : Called ext x V d0 indent dedent st (.keywordParen k) es rs xs s s1 s' a)
    (hr : fnScan st (.keywordParen k) es rs = some r) : Results ext x V d0 s s' r a := by
  have hraw := scan_rest hr nofun nofun
  have key : (idle k = true ∧ (joinN rs).grow = false ∧ r = { joinN rs with cov := [], req := Lv.none }) ∨
      (idle k = false ∧ (k = .Defined → ∃ r0 r1 r2 r3, rs = [r0, r1, r2, r3] ∧ r2.one = true) ∧ r = joinN rs) := by
    unfold fnScan at hr
    dsimp only [inside, bound] at hr
    rw [hraw] at hr
    split at hr
    · cases hr
    simp only [Bool.false_eq_true, if_false] at hr
    cases k
    case Defined =>
      dsimp only at hr
      split at hr
      case h_2 => cases hr
      split at hr
      case isFalse => cases hr
      cases hr
      exact .inr ⟨rfl, fun _ => ⟨_, _, _, _, rfl, by assumption⟩, rfl⟩
    case Redo | Retry | Zsuper =>
      dsimp only at hr
      split at hr
      · cases hr
      rename_i hg
      cases hr
      exact .inl ⟨rfl, by simpa using hg, rfl⟩
    all_goals
      cases hr
      exact .inr ⟨rfl, nofun, rfl⟩
  have hrun := h.run
  dsimp only [applyFn] at hrun
  unfold withTTLT at hrun
  split at hrun
  case h_2 => exact illTyped_run hrun
  rename_i t l
  obtain ⟨m, e, rfl⟩ := outB_run hrun
  rcases key with ⟨hk, hg, rfl⟩ | ⟨hk, hd, rfl⟩
  · exact keyword_idle hk h rfl hg e
  · obtain ⟨k1, k2, k3⟩ := BldR.Yields.run (keyword_gives (ext := ext) (x := x) hk fun hk' => by
      obtain ⟨r0, r1, r2, r3, rfl, ho⟩ := hd hk'
      have hargs := h.args
      cases hargs with | cons h0 hn0 =>
      cases hn0 with | cons h1 hn1 =>
      cases hn1 with | cons h2 _ =>
      obtain ⟨n, e⟩ := h2.one ho
      cases e
      exact ⟨n, rfl⟩) e
    refine flat_sound h rfl hraw rfl ?_ ?_ ?_
    · simpa [Atom.trees, treesOf] using k1
    · simpa [Atom.trees, treesOf] using k2.mp
    · simpa [Atom.trees, treesOf] using k3.mp

theorem exParse_get : ∀ {es : List Ex} {s s1 : BState} {xs : List Atom} {k n i : Nat}, exParse ext dedent V es s = .ok (xs, s1) → es[k]? = some (.fld n i) →
    ∃ v a, V[n - 1]? = some v ∧ v[i]? = some a ∧ xs[k]? = some a
  | [], _, _, _, _, _, _, _, h => by simp at h
  | e :: es, s, s1, xs, k, n, i, hp, h => by
    rw [exParse] at hp
    obtain ⟨q, h1, hp⟩ := run_bind_ok hp
    obtain ⟨q', h2, hp⟩ := run_bind_ok hp
    cases hp
    cases k with
    | zero =>
      simp only [List.getElem?_cons_zero, Option.some.injEq] at h
      subst h
      rw [Ex.parse] at h1
      split at h1
      · rename_i a ha
        cases h1
        obtain ⟨v, hv, ha⟩ := Option.bind_eq_some_iff.mp ha
        exact ⟨v, a, hv, ha, rfl⟩
      · cases h1
    | succ k =>
      obtain ⟨v, a, h3, h4, h5⟩ := exParse_get h2 (by simpa using h)
      exact ⟨v, a, h3, h4, by simpa using h5⟩

/-- The second part is absent with the first. -/
theorem pair_none {e e' : Ex} (hp : pairAt st.K e e' = true) (hK : List.Forall₂ (FdOk ext x V d0) st.K V) {k : Nat}
    (hparse : exParse ext dedent V es s = .ok (xs, s1)) (he : es[k]? = some e) (he' : es[k + 1]? = some e')
    (h1 : xs[k]? = some (.otok none)) {o : Atom} (h2 : xs[k + 1]? = some o) : o.trees = [] := by
  unfold pairAt at hp
  split at hp
  case h_2 => cases hp
  rename_i n m
  simp only [Bool.and_eq_true, beq_iff_eq] at hp
  obtain ⟨rfl, hp⟩ := hp
  split at hp
  case h_2 => cases hp
  rename_i fd hfd
  obtain ⟨v, a, hv, ha, hx⟩ := exParse_get hparse he
  obtain ⟨v', a', hv', ha', hx'⟩ := exParse_get hparse he'
  rw [hv] at hv'; cases hv'
  rw [h1] at hx; cases hx
  rw [h2] at hx'; cases hx'
  exact (forall_get hK hfd hv).pair hp ha _ ha'

theorem bodystmt_sound (h : Called ext x V d0 indent dedent st .bodystmt es rs xs s s1 s' a) (hK : List.Forall₂ (FdOk ext x V d0) st.K V)
    (hr : fnScan st .bodystmt es rs = some r) : Results ext x V d0 s s' r a := by
  have hraw := scan_rest hr nofun nofun
  have key : ∃ e1 e2 e e', es = [e1, e2, e, e'] ∧ pairAt st.K e e' = true ∧ r = joinN rs := by
    unfold fnScan at hr
    dsimp only [inside, bound] at hr
    rw [hraw] at hr
    split at hr
    · cases hr
    simp only [Bool.false_eq_true, if_false] at hr
    split at hr
    case h_2 => cases hr
    split at hr
    case isFalse => cases hr
    cases hr
    exact ⟨_, _, _, _, rfl, by assumption, rfl⟩
  obtain ⟨e1, e2, e, e', rfl, hp, rfl⟩ := key
  have hrun := h.run
  dsimp only [applyFn] at hrun
  unfold withPLOP at hrun
  split at hrun
  case h_2 => exact illTyped_run hrun
  rename_i x0 x1 x2 x3
  obtain ⟨m, e, rfl, -⟩ := outR_run hrun
  have hn : x2 = none → x3 = none := fun hx2 => by
    subst hx2
    simpa [Atom.trees] using pair_none (k := 2) hp hK h.parse rfl rfl rfl (o := .onode x3) rfl
  have key : ∀ Q : Node → Prop, Some_ Q ((x2.map fun t => (t, x3)).bind (·.2)).toList ↔ Some_ Q x3.toList := by
    intro Q
    cases x2 with
    | none => rw [hn rfl]; simp
    | some t => simp
  have hb := Res.Yields.run (beginBody_adds (binds_additive (ext := ext) (x := x))) e
  have hu := Res.Yields.run (beginBody_adds (uses_additive (ext := ext) (x := x))) e
  have hl := Res.Yields.run (beginBody_adds (loose_additive (ext := ext) (x := x))) e
  rw [key] at hb hu hl
  refine flat_sound h rfl hraw rfl ?_ ?_ ?_
  · simpa [Atom.trees, treesOf] using hb
  · simpa [Atom.trees, treesOf] using hu.mp
  · simpa [Atom.trees, treesOf] using hl.mp

theorem bodystmtElse_sound (h : Called ext x V d0 indent dedent st .bodystmtElse es rs xs s s1 s' a) (hK : List.Forall₂ (FdOk ext x V d0) st.K V)
    (hr : fnScan st .bodystmtElse es rs = some r) : Results ext x V d0 s s' r a := by
  have hraw := scan_rest hr nofun nofun
  have key : ∃ e1 e2 e3 e4 e e', es = [e1, e2, e3, e4, e, e'] ∧ pairAt st.K e e' = true ∧ r = joinN rs := by
    unfold fnScan at hr
    dsimp only [inside, bound] at hr
    rw [hraw] at hr
    split at hr
    · cases hr
    simp only [Bool.false_eq_true, if_false] at hr
    split at hr
    case h_2 => cases hr
    split at hr
    case isFalse => cases hr
    cases hr
    exact ⟨_, _, _, _, _, _, rfl, by assumption, rfl⟩
  obtain ⟨e1, e2, e3, e4, e, e', rfl, hp, rfl⟩ := key
  have hrun := h.run
  dsimp only [applyFn] at hrun
  unfold withPLTPOP at hrun
  split at hrun
  case h_2 => exact illTyped_run hrun
  rename_i x0 x1 t x3 x4 x5
  obtain ⟨m, e, rfl⟩ := outB_run hrun
  unfold bodystmtElse at e
  split at e
  · cases e
  have e := BldR.run_lift_ok e
  have e : beginBody x0 x1 (some (t, x3)) (x4.map fun t => (t, x5)) = .ok m := by
    rcases hb : beginBody x0 x1 (some (t, x3)) (x4.map fun t => (t, x5)) with p | q
    · rw [hb] at e; cases e
    · rw [hb] at e; cases e; rfl
  have hn : x4 = none → x5 = none := fun hx2 => by
    subst hx2
    simpa [Atom.trees] using pair_none (k := 4) hp hK h.parse rfl rfl rfl (o := .onode x5) rfl
  have key : ∀ Q : Node → Prop, Some_ Q ((x4.map fun t => (t, x5)).bind (·.2)).toList ↔ Some_ Q x5.toList := by
    intro Q
    cases x4 with
    | none => rw [hn rfl]; simp
    | some t => simp
  have hb := Res.Yields.run (beginBody_adds (binds_additive (ext := ext) (x := x))) e
  have hu := Res.Yields.run (beginBody_adds (uses_additive (ext := ext) (x := x))) e
  have hl := Res.Yields.run (beginBody_adds (loose_additive (ext := ext) (x := x))) e
  rw [key] at hb hu hl
  refine flat_sound h rfl hraw rfl ?_ ?_ ?_
  · simpa [Atom.trees, treesOf] using hb
  · simpa [Atom.trees, treesOf] using hu.mp
  · simpa [Atom.trees, treesOf] using hl.mp

/-- Every function of the table. -/
theorem fn_sound (h : Called ext x V d0 indent dedent st f es rs xs s s1 s' a) (hK : List.Forall₂ (FdOk ext x V d0) st.K V)
    (hnum : ∀ nm r', st.num = nm :: r' → NmOk ext x V nm s1.numparams) (hr : fnScan st f es rs = some r) : Results ext x V d0 s s' r a := by
  rcases hp : wideFn f with _ | _
  case true => exact plain_sound h hp hr
  rcases hi : inside f with _ | ⟨is, static⟩
  case some => exact inside_sound h hi hr
  rcases hb : bound f with _ | k
  case some => exact bound_sound h hb hr
  cases f
  case accessible => exact accessible_sound h hr
  case assignable => exact assignable_sound h hr
  case someT => exact tokenFn_sound (.inl rfl) h hr
  case endlessName => exact tokenFn_sound (.inr (.inl rfl)) h hr
  case kwargName => exact tokenFn_sound (.inr (.inr rfl)) h hr
  case noneT => exact noneT_sound h hr
  case lvar => exact lvar_sound h hr
  case pairLabel => exact pairLabel_sound h hr
  case matchVar => exact match_sound (.inl rfl) h hr
  case matchRest => exact match_sound (.inr (.inl rfl)) h hr
  case matchLabel => exact match_sound (.inr (.inr (.inl rfl))) h hr
  case matchOp => exact match_sound (.inr (.inr (.inr rfl))) h hr
  case argsType => exact argsType_sound h hnum hr
  case assign => exact assign_sound h hr
  case keyword => exact keyword_sound h hr
  case keywordParen => exact keywordParen_sound h hr
  case bodystmt => exact bodystmt_sound h hK hr
  case bodystmtElse => exact bodystmtElse_sound h hK hr
  all_goals first | (cases hi; done) | (cases hb; done) | (cases hp; done)

/-! ### Expressions -/

theorem fld_sound (hK : List.Forall₂ (FdOk ext x V d0) st.K V) {n i : Nat} (hr : fldScan st n i = some r)
    (ha : (V[n - 1]?).bind (·[i]?) = some a) : AtomOk ext x V d0 dp r a := by
  unfold fldScan at hr
  split at hr
  case h_2 => cases hr
  rename_i fd hfd
  split at hr
  case h_2 => cases hr
  rename_i k hk
  cases hr
  obtain ⟨v, hv, hi⟩ := Option.bind_eq_some_iff.mp ha
  have h := forall_get hK hfd hv
  have hak : k = a.ak := by
    rw [← h.ak, List.getElem?_map, hi] at hk
    simpa using hk.symm
  have hm : a ∈ v := List.mem_of_getElem? hi
  subst hak
  refine ⟨isTok_ak, fun p hp e => ?_, fun _ e => ⟨_, List.mem_singleton.mpr rfl, a, ha, e⟩, fun hraw e => .inl ?_, fun hraw => h.raw hraw a hm, h.loose a hm,
    fun e => h.bare e a hm, fun e => h.fits e a hm, nofun⟩
  · rw [List.mem_singleton] at hp
    subst hp
    obtain ⟨b, hb, e⟩ := e
    rw [ha] at hb
    cases hb
    exact e
  · dsimp only
    rw [if_neg]
    · exact h.uses hraw a hm e
    · intro hc
      rw [Bool.or_eq_true] at hc
      rcases hc with hc | hc
      · rw [UA, tok_trees (isTok_ak.trans hc)] at e; simp at e
      · exact absurd (hraw.symm.trans hc) nofun

theorem scan_ga (h : fnScan st f es rs = some r) : ((joinN rs).grow && (joinN rs).acc) = false := by
  unfold fnScan at h
  dsimp only at h
  split at h
  · cases h
  · rename_i hc; simpa using hc

theorem forall_imp_mem {P Q : α → β → Prop} : ∀ {l : List α} {m : List β}, List.Forall₂ P l m → (∀ a b, a ∈ l → P a b → Q a b) → List.Forall₂ Q l m
  | _, _, .nil, _ => .nil
  | _, _, .cons h hs, g => .cons (g _ _ (by simp) h) (forall_imp_mem hs fun a b ha => g a b (by simp [ha]))
theorem joinN_cons (h : r.tok = false) : joinN (r :: rs) = r.join (joinN rs) := by rw [joinN, if_neg (by rw [h]; nofun)]
theorem joinN_grow (h : (joinN rs).grow = true) : (joinN (r :: rs)).grow = true := by
  rw [joinN]; split
  · exact h
  · simp [ER.join, h]
theorem joinN_acc (h : (joinN rs).acc = true) : (joinN (r :: rs)).acc = true := by
  rw [joinN]; split
  · exact h
  · simp [ER.join, h]
theorem joinN_mem_acc : ∀ {rs : List ER}, r ∈ rs → r.tok = false → r.acc = true → (joinN rs).acc = true
  | r0 :: rs, hm, ht, ha => by
    rcases List.mem_cons.mp hm with rfl | hm
    · rw [joinN_cons ht]; simp [ER.join, ha]
    · exact joinN_acc (joinN_mem_acc hm ht ha)

mutual
theorem ex_keeps : ∀ {e : Ex} {s : BState} {q : Atom × BState}, e.parse ext dedent V s = .ok q → Keeps s q.2
  | .fld n i, s, q, h => by
    rw [Ex.parse] at h
    split at h
    · cases h; exact Frame.refl _
    · cases h
  | .call f es, s, q, h => by
    rw [Ex.parse] at h
    obtain ⟨p, h1, h2⟩ := run_bind_ok h
    exact Frame.trans (exs_keeps h1) (fn_keeps _ _ _ (runB_ok h2))
theorem exs_keeps : ∀ {es : List Ex} {s : BState} {q : List Atom × BState}, exParse ext dedent V es s = .ok q → Keeps s q.2
  | [], s, q, h => by
    rw [exParse] at h
    cases h
    exact Frame.refl _
  | e :: es, s, q, h => by
    rw [exParse] at h
    obtain ⟨p, h1, h⟩ := run_bind_ok h
    obtain ⟨p', h2, h⟩ := run_bind_ok h
    cases h
    have k := exs_keeps h2
    exact Frame.trans (ex_keeps h1) k
end

/-- The top level of numbered parameters is as the checker says. -/
def NumOk (ext : BldExt) (x : Text) (V : List (List Atom)) (st : SS) (s : BState) : Prop :=
  ∀ nm r', st.num = nm :: r' → NmOk ext x V nm s.numparams

theorem NumOk.keeps (h : NumOk ext x V st s) (k : Keeps s s') (hc : ¬ Clash s') : NumOk ext x V st s' :=
  fun nm r' e => (h nm r' e).step (k.num hc)

mutual
theorem ex_sound (hx : isNumparamName x = false) (hK : List.Forall₂ (FdOk ext x V d0) st.K V) :
    ∀ {e : Ex} {r : ER} {s s' : BState} {a : Atom}, e.scan st = some r → e.parse ext dedent V s = .ok (a, s') → NumOk ext x V st s → ¬ Clash s' →
    Results ext x V d0 s s' r a
  | .fld n i, r, s, s', a, hr, h, _, _ => by
    rw [Ex.parse] at h
    rw [Ex.scan] at hr
    split at h
    · rename_i b hb
      cases h
      exact ⟨fld_sound hK hr hb, .inl⟩
    · cases h
  | .call f es, r, s, s', a, hr, h, hn, hc => by
    rw [Ex.parse] at h
    obtain ⟨⟨xs, s1⟩, h1, h2⟩ := run_bind_ok h
    have h2 := runB_ok h2
    rw [Ex.scan] at hr
    split at hr
    case h_2 => cases hr
    rename_i rs hrs
    have hc1 : ¬ Clash s1 := fun c => hc ((fn_keeps _ _ _ h2).clash c)
    obtain ⟨g1, g2⟩ := exs_sound hx hK hrs (scan_ga hr) h1 hn hc1
    exact fn_sound ⟨hx, hrs, h1, g1, g2, h2⟩ hK (hn.keeps (exs_keeps h1) hc1) hr
theorem exs_sound (hx : isNumparamName x = false) (hK : List.Forall₂ (FdOk ext x V d0) st.K V) :
    ∀ {es : List Ex} {rs : List ER} {s s' : BState} {xs : List Atom}, exScan st es = some rs → ((joinN rs).grow && (joinN rs).acc) = false →
    exParse ext dedent V es s = .ok (xs, s') → NumOk ext x V st s → ¬ Clash s' →
    List.Forall₂ (AtomOk ext x V d0 (Dcl x s)) rs xs ∧ (Dcl x s' → Dcl x s ∨ ((joinN rs).grow = true ∧ Some_ (Binds ext x) (treesOf xs)))
  | [], rs, s, s', xs, hr, _, h, _, _ => by
    rw [exParse] at h
    rw [exScan] at hr
    cases h
    cases hr
    exact ⟨.nil, .inl⟩
  | e :: es, rs, s, s', xs, hr, hg, h, hn, hc => by
    rw [exParse] at h
    obtain ⟨⟨a, s1⟩, h1, h⟩ := run_bind_ok h
    obtain ⟨⟨ys, s2⟩, h2, h⟩ := run_bind_ok h
    cases h
    rw [exScan] at hr
    split at hr
    case h_2 => cases hr
    rename_i r hr1
    split at hr
    case h_2 => cases hr
    rename_i rs hr2
    cases hr
    have hc1 : ¬ Clash s1 := fun c => hc ((exs_keeps h2).clash c)
    obtain ⟨g1, g2⟩ := ex_sound hx hK hr1 h1 hn hc1
    have hg' : ((joinN rs).grow && (joinN rs).acc) = false := by
      rcases h3 : (joinN rs).grow with _ | _
      · rfl
      rcases h4 : (joinN rs).acc with _ | _
      · rfl
      rw [joinN_grow h3, joinN_acc h4] at hg
      cases hg
    obtain ⟨g3, g4⟩ := exs_sound hx hK hr2 hg' h2 (hn.keeps (ex_keeps h1) hc1) hc
    have key : Dcl x s1 → Dcl x s ∨ ((joinN (r :: rs)).grow = true ∧ Some_ (Binds ext x) (treesOf (a :: ys))) := fun d =>
      (g2 d).imp_right fun ⟨t, g, b⟩ => by
        refine ⟨by rw [joinN_cons t]; simp [ER.join, g], ?_⟩
        rw [treesOf, List.flatMap_cons, some_append, ← BA_node (g1.tok.trans t)]
        exact .inl b
    refine ⟨.cons g1 ?_, fun d => ?_⟩
    · refine forall_imp_mem g3 fun r' y hr' hy => hy.later fun ht ha d => (key d).elim id fun ⟨g, _⟩ => ?_
      rw [g, joinN_acc (joinN_mem_acc hr' ht ha)] at hg
      cases hg
    · rcases g4 d with d | ⟨g, b⟩
      · exact key d
      · refine .inr ⟨joinN_grow g, ?_⟩
        rw [treesOf, List.flatMap_cons, some_append]
        exact .inr b
end

end
end Verif
