import Verif.Lemmas.ParseTable
/-!
What performing one action does in a parse.
-/
namespace Verif.Grammar
open Builder

/-! ### Results -/

/-- A result of a parse: a value as described, an `Err(())`, or a panic with a cause. -/
def Fine (ok : α → Prop) (bad : Panic → Prop) : Run α → Prop
  | .ok a => ok a
  | .error .err => True
  | .error (.panic p) => bad p
  | .error .badTree => False

theorem Fine.bind {ok : α → Prop} {ok' : β → Prop} {bad : Panic → Prop} {m : Run α} {f : α → Run β} (h : Fine ok bad m)
    (hf : ∀ a, ok a → Fine ok' bad (f a)) : Fine ok' bad (m >>= f) := by
  rcases m with e | a
  · rcases e with _ | p | _ <;> exact h
  · exact hf a h
theorem Fine.mono {ok ok' : α → Prop} {bad bad' : Panic → Prop} {m : Run α} (h : Fine ok bad m) (h1 : ∀ a, ok a → ok' a)
    (h2 : ∀ p, bad p → bad' p) : Fine ok' bad' m := by
  rcases m with e | a
  · rcases e with _ | p | _
    · exact h
    · exact h2 p h
    · exact h
  · exact h1 a h

/-! ### Changes of the tops of some stacks -/

/-- Only the tops of these stacks are replaced. -/
def Moved (ds : List Dim) (s s' : BState) : Prop :=
  s'.context = s.context ∧ ∀ d, (d ∉ ds → stk d s'.book = stk d s.book) ∧
    ∀ c r, stk d s.book = c :: r → ∃ c', stk d s'.book = c' :: r

instance (ds : List Dim) : Frame (Moved ds) where
  refl s := ⟨rfl, fun d => ⟨fun _ => rfl, fun c _ h => ⟨c, h⟩⟩⟩
  trans h1 h2 := ⟨h2.1.trans h1.1, fun d => ⟨fun hd => ((h2.2 d).1 hd).trans ((h1.2 d).1 hd), fun c r h => by
    obtain ⟨c1, h1⟩ := (h1.2 d).2 c r h
    exact (h2.2 d).2 c1 r h1⟩⟩
  diag s d := ⟨rfl, fun d => by cases d <;> exact ⟨fun _ => rfl, fun c _ h => ⟨c, h⟩⟩⟩

theorem Moved.mono {ds ds' : List Dim} (h : Moved ds s s') (hd : ∀ d ∈ ds, d ∈ ds') : Moved ds' s s' :=
  ⟨h.1, fun d => ⟨fun hn => (h.2 d).1 fun hm => hn (hd d hm), (h.2 d).2⟩⟩

theorem Moved.track {ds : List Dim} {s s' : BState} {d : Dim} {n m : Nat} {a : List Cell} (h : Moved ds s s')
    (hT : Track n m a (stk d s.book)) (hm : d ∈ ds → 1 ≤ m) : Track n m a (stk d s'.book) := by
  by_cases hd : d ∈ ds
  · obtain ⟨ha, pre, hp, he⟩ := hT
    cases pre with
    | nil => have := hm hd; simp at hp; omega
    | cons c pre =>
      obtain ⟨c', h'⟩ := (h.2 d).2 c _ he
      exact ⟨ha, c' :: pre, by simpa using hp, h'⟩
  · rw [(h.2 d).1 hd]; exact hT

theorem Moved.height {ds : List Dim} {s s' : BState} {d : Dim} (h : Moved ds s s') (hl : 1 ≤ (stk d s.book).length) :
    1 ≤ (stk d s'.book).length := by
  rcases hs : stk d s.book with _ | ⟨c, r⟩
  · simp [hs] at hl
  · obtain ⟨c', h'⟩ := (h.2 d).2 c r hs
    simp [h']

theorem moved_env {ds : List Dim} (h : .env ∈ ds) (s : BState) (n : Text) (num : NumStack) (d : List BldDiag) (hn : .num ∈ ds)
    (hk : s.numparams.register k = .ok num) :
    Moved ds s { s with staticEnv := s.staticEnv.declare n, numparams := num, diagnostics := d } := by
  refine ⟨rfl, fun e => ⟨fun he => ?_, fun c r hc => ?_⟩⟩
  · cases e <;> first | exact absurd h he | exact absurd hn he | rfl
  · cases e
    · simp only [stk, BState.book, List.map_cons, List.cons.injEq] at hc
      exact ⟨_, by simp only [stk, BState.book, StaticEnv.declare, List.map_cons, hc.2]; rfl⟩
    · exact ⟨c, hc⟩
    · simp only [stk, BState.book] at hc ⊢
      rcases hs : s.numparams.stack with _ | ⟨i, l⟩
      · simp [hs] at hc
      · simp [hs] at hc
        simp [NumStack.register, NumStack.set, hs] at hk
        subst hk
        exact ⟨_, by simp [hc.2]; rfl⟩
    · exact ⟨c, hc⟩
    · exact ⟨c, hc⟩

theorem moved_declare {ds : List Dim} (h : .env ∈ ds) (s : BState) (n : Text) :
    Moved ds s { s with staticEnv := s.staticEnv.declare n } := by
  refine ⟨rfl, fun e => ⟨fun he => ?_, fun c r hc => ?_⟩⟩
  · cases e <;> first | exact absurd h he | rfl
  · cases e
    · simp only [stk, BState.book, List.map_cons, List.cons.injEq] at hc
      exact ⟨_, by simp only [stk, BState.book, StaticEnv.declare, List.map_cons, hc.2]; rfl⟩
    all_goals exact ⟨c, hc⟩
theorem moved_pv {ds : List Dim} (h : .pv ∈ ds) (s : BState) (hk : s.patternVariables.declare n = .ok v) :
    Moved ds s { s with patternVariables := v } := by
  refine ⟨rfl, fun e => ⟨fun he => ?_, fun c r hc => ?_⟩⟩
  · cases e <;> first | exact absurd h he | rfl
  · cases e
    case pv =>
      simp only [stk, BState.book] at hc ⊢
      rcases hs : s.patternVariables.stack with _ | ⟨i, l⟩
      · simp [hs] at hc
      · simp [hs] at hc
        simp [VarStack.declare, hs] at hk
        subst hk
        exact ⟨_, by simp [hc.2]; rfl⟩
    all_goals exact ⟨c, hc⟩
theorem moved_pk {ds : List Dim} (h : .pk ∈ ds) (s : BState) (hk : s.patternHashKeys.declare n = .ok v) :
    Moved ds s { s with patternHashKeys := v } := by
  refine ⟨rfl, fun e => ⟨fun he => ?_, fun c r hc => ?_⟩⟩
  · cases e <;> first | exact absurd h he | rfl
  · cases e
    case pk =>
      simp only [stk, BState.book] at hc ⊢
      rcases hs : s.patternHashKeys.stack with _ | ⟨i, l⟩
      · simp [hs] at hc
      · simp [hs] at hc
        simp [VarStack.declare, hs] at hk
        subst hk
        exact ⟨_, by simp [hc.2]; rfl⟩
    all_goals exact ⟨c, hc⟩

theorem touches_env {f : BFn} (h : .num ∈ f.touches) : .env ∈ f.touches := by
  cases f <;> first | (simp [BFn.touches] at h; done) | decide
theorem moved_allows (f : BFn) : Allows (Moved f.touches) f.touches :=
  ⟨fun h s n _ num d _ _ _ _ hk _ => moved_env (touches_env h) s n num (s.diagnostics ++ d) h hk, fun h _ s n => moved_declare h s n,
    fun h s _ _ hv => moved_pv h s hv, fun h s _ _ hv => moved_pk h s hv⟩

theorem fn_moved {ext : BldExt} {indent : Int} {f : BFn} {xs : List Atom} {s s' : BState} {a : Except Unit Atom}
    (h : (applyFn ext indent f xs).run s = .ok (a, s')) : Moved f.dims s s' :=
  Moved.mono (fn_steps (moved_allows f) s a s' h) fun d hd => by simp [BFn.dims, hd]

theorem ready_of {f : BFn} {s : BState} (h : ∀ d ∈ f.dims, 1 ≤ (stk d s.book).length) : Ready f.declares s := by
  refine ⟨fun hd => ⟨?_, ?_⟩, fun _ => ?_⟩
  · have := h .pv (by simp [BFn.dims, hd])
    intro e; simp [stk, BState.book, e] at this
  · have := h .pk (by simp [BFn.dims, hd])
    intro e; simp [stk, BState.book, e] at this
  · have := h .num (by simp [BFn.dims])
    intro e; simp [stk, BState.book, e] at this

/-! ### Expressions -/

/-- The kinds of values. -/
def kinds (vals : List (List Atom)) : List (List AK) := vals.map (·.map Atom.ak)

theorem kinds_get {vals : List (List Atom)} {n : Nat} {k : List AK} (h : (kinds vals)[n]? = some k) :
    ∃ v, vals[n]? = some v ∧ v.map Atom.ak = k := by
  simpa [kinds] using h

theorem runB_fine {m : BldR α} {s : BState} {bad : Panic → Prop} (hb : ∀ p, m.run s = .error p → bad p) :
    Fine (fun q => m.run s = .ok (.ok q.1, q.2)) bad (runB m s) := by
  unfold runB
  split
  · rename_i h; exact h
  · trivial
  · rename_i p h; exact hb p h

/-- A panic is one of a call of a function of the builder, its arguments being among the calls `C`. -/
def Caused (ext : BldExt) (dedent : List Atom → Int) (C : BFn → List Atom → Prop) (p : Panic) : Prop :=
  ∃ f xs s, C f xs ∧ Ready f.declares s ∧ (applyFn ext (dedent xs) f xs).run s = .error p

theorem Caused.mono {C C' : BFn → List Atom → Prop} (h : Caused ext dedent C p) (hc : ∀ f xs, C f xs → C' f xs) :
    Caused ext dedent C' p := by
  obtain ⟨f, xs, s, h1, h2⟩ := h
  exact ⟨f, xs, s, hc f xs h1, h2⟩

mutual
theorem ex_fine (ext : BldExt) (dedent : List Atom → Int) (vals : List (List Atom)) : (e : Ex) → (s : BState) →
    (hd : ∀ d ∈ e.dims, 1 ≤ (stk d s.book).length) → (k : AK) → (ht : e.ty (kinds vals) = some k) →
    Fine (fun q => e.Gives ext vals q.1 ∧ q.1.ak = k ∧ Moved e.dims s q.2) (Caused ext dedent (e.Calls ext vals))
      (e.parse ext dedent vals s)
  | .fld n i, s, hd, k, ht => by
    simp only [Ex.ty] at ht
    rcases hk : (kinds vals)[n - 1]? with _ | ks
    · simp [hk] at ht
    · rw [hk] at ht
      obtain ⟨v, hv, rfl⟩ := kinds_get hk
      simp only [Option.bind_some, List.getElem?_map, Option.map_eq_some_iff] at ht
      obtain ⟨a, ha, rfl⟩ := ht
      have he : (vals[n - 1]?).bind (·[i]?) = some a := by rw [hv]; exact ha
      rw [Ex.parse]
      rw [he]
      exact ⟨by rw [Ex.Gives]; exact he, rfl, Frame.refl s⟩
  | .call f es, s, hd, k, ht => by
    rw [Ex.ty] at ht
    split at ht
    · rename_i hes
      cases ht
      rw [Ex.parse]
      rw [Ex.dims] at hd ⊢
      have h := exs_fine ext dedent vals es s (fun d h => hd d (by simp [h])) hes
      refine Fine.bind (Fine.mono h (fun _ h => h) fun p hp => hp.mono fun f' xs' h => ?_) fun q hq => ?_
      · rw [Ex.Calls]; exact .inr h
      · obtain ⟨hg, hm⟩ := hq
        have hh : ∀ d ∈ f.dims, 1 ≤ (stk d q.2.book).length := fun d h => hm.height (hd d (by simp [h]))
        refine Fine.mono (runB_fine (bad := Caused ext dedent ((Ex.call f es).Calls ext vals)) fun p hp => ?_) (fun r hr => ?_) fun _ h => h
        · exact ⟨f, q.1, q.2, by rw [Ex.Calls]; exact .inl ⟨rfl, hg⟩, ready_of hh, hp⟩
        · refine ⟨by rw [Ex.Gives]; exact ⟨q.1, hg, _, _, _, hr⟩, fn_ak hr, ?_⟩
          exact Frame.trans (hm.mono fun d h => by simp [h]) ((fn_moved hr).mono fun d h => by simp [h])
    · cases ht
theorem exs_fine (ext : BldExt) (dedent : List Atom → Int) (vals : List (List Atom)) : (es : List Ex) → (s : BState) →
    (hd : ∀ d ∈ exDims es, 1 ≤ (stk d s.book).length) → (ht : exTy (kinds vals) es = true) →
    Fine (fun q => exGives ext vals es q.1 ∧ Moved (exDims es) s q.2) (Caused ext dedent (exCalls ext vals es))
      (exParse ext dedent vals es s)
  | [], s, _, _ => by rw [exParse]; exact ⟨by rw [exGives], Frame.refl s⟩
  | e :: es, s, hd, ht => by
    rw [exTy, Bool.and_eq_true, Option.isSome_iff_exists] at ht
    obtain ⟨⟨k, hk⟩, ht⟩ := ht
    rw [exParse]
    rw [exDims] at hd ⊢
    refine Fine.bind (Fine.mono (ex_fine ext dedent vals e s (fun d h => hd d (by simp [h])) k hk) (fun _ h => h)
      fun p hp => hp.mono fun f' xs' h => by rw [exCalls]; exact .inl h) fun q hq => ?_
    obtain ⟨hg, -, hm⟩ := hq
    refine Fine.bind (Fine.mono (exs_fine ext dedent vals es q.2 (fun d h => hm.height (hd d (by simp [h]))) ht) (fun _ h => h)
      fun p hp => hp.mono fun f' xs' h => by rw [exCalls]; exact .inr h) fun r hr => ?_
    exact ⟨by rw [exGives]; exact ⟨_, _, rfl, hg, hr.1⟩,
      Frame.trans (hm.mono fun d h => by simp [h]) (hr.2.mono fun d h => by simp [h])⟩
end

theorem exs_ak {ext : BldExt} {vals : List (List Atom)} : ∀ {es : List Ex} {xs : List Atom} {ks : List AK},
    exGives ext vals es xs → es.mapM (Ex.ty (kinds vals)) = some ks → xs.map Atom.ak = ks
  | [], xs, ks, h, hk => by
    rw [exGives] at h; subst h; simpa using hk
  | e :: es, xs, ks, h, hk => by
    rw [exGives] at h
    obtain ⟨y, ys, rfl, h1, h2⟩ := h
    simp only [List.mapM_cons, Option.pure_def, Option.bind_eq_bind, Option.bind_eq_some_iff, Option.some.injEq] at hk
    obtain ⟨k, hk1, ks', hk2, rfl⟩ := hk
    rw [List.map_cons, exs_ak h2 hk2]
    congr 1
    cases e with
    | fld n i =>
      rw [Ex.Gives] at h1
      rw [Ex.ty] at hk1
      rcases hv : vals[n - 1]? with _ | v
      · simp [hv] at h1
      · simp [hv] at h1
        simp [kinds, hv, h1] at hk1
        exact hk1
    | call f es =>
      rw [Ex.Gives] at h1
      obtain ⟨_, _, _, _, _, h1⟩ := h1
      rw [Ex.ty] at hk1
      split at hk1
      · cases hk1; exact fn_ak h1
      · cases hk1

theorem exTy_of {K : List (List AK)} : ∀ {es : List Ex} {ks : List AK}, es.mapM (Ex.ty K) = some ks → exTy K es = true
  | [], _, _ => by rw [exTy]
  | e :: es, ks, hk => by
    simp only [List.mapM_cons, Option.pure_def, Option.bind_eq_bind, Option.bind_eq_some_iff, Option.some.injEq] at hk
    obtain ⟨k, hk1, ks', hk2, rfl⟩ := hk
    rw [exTy, hk1, exTy_of hk2]; rfl

theorem out_fine {ext : BldExt} {dedent : List Atom → Int} {vals : List (List Atom)} {o : ValOut} {s : BState}
    (hd : ∀ d ∈ o.dims, 1 ≤ (stk d s.book).length) {ks : List AK} (ht : o.ty (kinds vals) = some ks) :
    Fine (fun q => o.Gives ext vals q.1 ∧ q.1.map Atom.ak = ks ∧ Moved o.dims s q.2) (Caused ext dedent (o.Calls ext vals))
      (o.parse ext dedent vals s) := by
  cases o with
  | copy n =>
    obtain ⟨v, hv, hk⟩ := kinds_get ht
    simp only [ValOut.parse, hv]
    exact ⟨hv, hk, Frame.refl s⟩
  | mk es =>
    simp only [ValOut.ty] at ht
    simp only [ValOut.parse]
    exact Fine.mono (exs_fine ext dedent vals es s hd (exTy_of ht)) (fun q hq => ⟨hq.1, exs_ak hq.1 ht, hq.2⟩) fun _ h => h

/-! ### Conditions and writes -/

theorem headIs_tok {vals : List PVal} {n : Nat} (h : headIs (kinds (vals.map (·.atoms))) n .tok = true) :
    ∃ name, nameAt vals n = some name := by
  unfold headIs at h
  split at h
  · rename_i k' r hk
    obtain ⟨v, hv, he⟩ := kinds_get hk
    simp only [List.getElem?_map, Option.map_eq_some_iff] at hv
    obtain ⟨⟨atoms, sv⟩, hv, rfl⟩ := hv
    simp only [decide_eq_true_eq] at h
    subst h
    cases atoms with
    | nil => simp at he
    | cons a as =>
      simp only [List.map_cons, List.cons.injEq] at he
      cases a <;> simp [Atom.ak] at he
      exact ⟨_, by simp [nameAt, hv]; rfl⟩
  · cases h
theorem headIs_node {vals : List PVal} {n : Nat} (h : headIs (kinds (vals.map (·.atoms))) n .node = true) :
    ∃ x r sv, vals[n - 1]? = some ⟨.node x :: r, sv⟩ := by
  unfold headIs at h
  split at h
  · rename_i k' r hk
    obtain ⟨v, hv, he⟩ := kinds_get hk
    simp only [List.getElem?_map, Option.map_eq_some_iff] at hv
    obtain ⟨⟨atoms, sv⟩, hv, rfl⟩ := hv
    simp only [decide_eq_true_eq] at h
    subst h
    cases atoms with
    | nil => simp at he
    | cons a as =>
      simp only [List.map_cons, List.cons.injEq] at he
      cases a <;> simp [Atom.ak] at he
      exact ⟨_, _, _, hv⟩
  · cases h
theorem headIs_nodes {vals : List PVal} {n : Nat} (h : headIs (kinds (vals.map (·.atoms))) n .nodes = true) :
    ∃ x r sv, vals[n - 1]? = some ⟨.nodes x :: r, sv⟩ := by
  unfold headIs at h
  split at h
  · rename_i k' r hk
    obtain ⟨v, hv, he⟩ := kinds_get hk
    simp only [List.getElem?_map, Option.map_eq_some_iff] at hv
    obtain ⟨⟨atoms, sv⟩, hv, rfl⟩ := hv
    simp only [decide_eq_true_eq] at h
    subst h
    cases atoms with
    | nil => simp at he
    | cons a as =>
      simp only [List.map_cons, List.cons.injEq] at he
      cases a <;> simp [Atom.ak] at he
      exact ⟨_, _, _, hv⟩
  · cases h

theorem valueExpr_no_panic (x : Node) (s : BState) (p : Panic) : (valueExpr x).run s ≠ .error p := by
  unfold valueExpr
  split
  · intro h; cases h
  · intro h; cases h

theorem guard_fine {bad : Panic → Prop} {vals : List PVal} {s : BState} {g : Guard}
    (h : g.ty (kinds (vals.map (·.atoms))) = true) : Fine (fun s' => Moved [] s s') bad (g.check vals s) := by
  cases g with
  | forward => simp only [Guard.check]; split <;> first | exact (Frame.refl s : Moved [] s s) | trivial
  | anonBlock => simp only [Guard.check]; split <;> first | exact (Frame.refl s : Moved [] s s) | trivial
  | notInDef => simp only [Guard.check]; split <;> first | exact (Frame.refl s : Moved [] s s) | trivial
  | canReturn => simp only [Guard.check]; split <;> first | exact (Frame.refl s : Moved [] s s) | trivial
  | declared n =>
    obtain ⟨name, hn⟩ := headIs_tok h
    simp only [Guard.check, hn]; split <;> first | exact (Frame.refl s : Moved [] s s) | trivial
  | value n =>
    obtain ⟨x, r, sv, hn⟩ := headIs_node h
    simp only [Guard.check, hn]
    refine Fine.bind (runB_fine fun p hp => absurd hp (valueExpr_no_panic x s p)) fun q hq => ?_
    exact valueExpr_steps (R := Moved []) s _ _ hq
theorem guards_fine {bad : Panic → Prop} {vals : List PVal} : ∀ {gs : List Guard} {s : BState},
    gs.all (Guard.ty (kinds (vals.map (·.atoms)))) = true → Fine (fun s' => Moved [] s s') bad (checkAll vals s gs)
  | [], s, _ => (Frame.refl s : Moved [] s s)
  | g :: gs, s, h => by
    simp only [List.all_cons, Bool.and_eq_true] at h
    exact Fine.bind (guard_fine h.1) fun s1 h1 => Fine.mono (guards_fine h.2) (fun s2 h2 => Frame.trans h1 h2) fun _ h => h

theorem ordinary_fine {bad : Panic → Prop} {s : BState} (hl : 1 ≤ (stk .num s.book).length) :
    Fine (fun s' => Moved [.num] s s') bad (do let num ← lift s.numparams.setHasOrdinaryParams; pure { s with numparams := num }) := by
  rcases hs : s.numparams.stack with _ | ⟨i, l⟩
  · simp [stk, BState.book, hs] at hl
  · simp only [NumStack.setHasOrdinaryParams, NumStack.set, hs, lift]
    refine ⟨rfl, fun e => ⟨fun he => ?_, fun c r hc => ?_⟩⟩
    · cases e <;> first | (simp at he; done) | rfl
    · cases e
      case num =>
        simp [stk, BState.book, hs] at hc
        exact ⟨_, by simp [stk, BState.book, hc.2]; rfl⟩
      all_goals exact ⟨c, hc⟩
theorem arg_moved {s : BState} (v : Option Text) : Moved [.arg] s { s with currentArg := s.currentArg.set v } := by
  refine ⟨rfl, fun e => ⟨fun he => ?_, fun c r hc => ?_⟩⟩
  · cases e <;> first | (simp at he; done) | rfl
  · cases e
    case arg =>
      rcases hs : s.currentArg.stack with _ | ⟨i, l⟩
      · simp [stk, BState.book, hs] at hc
      · simp [stk, BState.book, hs] at hc
        exact ⟨_, by simp [stk, BState.book, CurArgStack.set, CurArgStack.pop, CurArgStack.push, hs, hc.2]; rfl⟩
    all_goals exact ⟨c, hc⟩

theorem write_fine {bad : Panic → Prop} {vals : List PVal} {s : BState} {w : Write}
    (h : w.ty (kinds (vals.map (·.atoms))) = true) (hl : 1 ≤ (stk w.dim s.book).length) :
    Fine (fun s' => Moved [w.dim] s s') bad (w.run vals s) := by
  cases w with
  | declare n =>
    obtain ⟨name, hn⟩ := headIs_tok h
    simp only [Write.run, hn]
    exact moved_declare (by simp [Write.dim]) s _
  | forward => exact moved_declare (by simp [Write.dim]) s _
  | anonBlock => exact moved_declare (by simp [Write.dim]) s _
  | ordinary => exact ordinary_fine hl
  | ordinaryIf n =>
    obtain ⟨x, r, sv, hn⟩ := headIs_nodes h
    cases x with
    | nil => simp only [Write.run, hn]; exact (Frame.refl s : Moved _ s s)
    | cons => simp only [Write.run, hn]; exact ordinary_fine hl
  | argName n =>
    obtain ⟨name, hn⟩ := headIs_tok h
    simp only [Write.run, hn]
    exact arg_moved _
  | argNone => exact arg_moved _
theorem writes_fine {bad : Panic → Prop} {vals : List PVal} : ∀ {ws : List Write} {s : BState},
    ws.all (Write.ty (kinds (vals.map (·.atoms)))) = true → (∀ w ∈ ws, 1 ≤ (stk w.dim s.book).length) →
    Fine (fun s' => Moved (ws.map Write.dim) s s') bad (writeAll vals s ws)
  | [], s, _, _ => (Frame.refl s : Moved [] s s)
  | w :: ws, s, h, hl => by
    simp only [List.all_cons, Bool.and_eq_true] at h
    refine Fine.bind (write_fine h.1 (hl w (by simp))) fun s1 h1 => ?_
    exact Fine.mono (writes_fine h.2 fun w' hw' => h1.height (hl w' (by simp [hw']))) (fun s2 h2 =>
      Frame.trans (h1.mono fun d h => by simp only [List.mem_singleton] at h; simp [h]) (h2.mono fun d h => by simp at h ⊢; exact .inr h)) fun _ h => h

/-! ### Operations -/

/-- The values as `Run.lean` has them. -/
def runVals (vals : List PVal) : List Val := vals.map fun v => ⟨.Token, v.saved⟩
/-- The flag stored in a value. -/
def PVal.flag (f : CtxFlag) (v : PVal) : Option Bool := v.saved.bind (Saved.get f)
theorem runVals_flag (vals : List PVal) (f : CtxFlag) : (runVals vals).map (Val.flag f) = vals.map (PVal.flag f) := by
  simp [runVals, Val.flag, PVal.flag, Function.comp_def]

theorem book_withBook (s : BState) (b : St) (d : Dim) : stk d (s.withBook b).book = stk d b := by cases d <;> rfl

theorem opsOn_fine {bad : Panic → Prop} {vals : List PVal} {ops : List Op} {s0 : St} {s : BState} {n m m' : Dim → Nat}
    {c' : CtxFlag → Bool} {r' : CtxFlag → Option Bool} (hT : ∀ d, Track (n d) (m d) (stk d s0) (stk d s.book))
    (hS : ∀ d, opsS d ops (m d) = some (m' d))
    (hF : ∀ f, opsF f (vals.map (PVal.flag f)) ops (s.context.get f) none = some (c' f, r' f)) :
    Fine (fun q => (∀ d, Track (n d) (m' d) (stk d s0) (stk d q.2.book)) ∧
      (∀ f, q.2.context.get f = c' f ∧ q.1.bind (Saved.get f) = r' f) ∧
      (∀ j, 7 ≤ j → q.2.context.value.getLsbD j = s.context.value.getLsbD j)) bad (opsOn vals ops s) := by
  obtain ⟨s', reg', h1, h2, h3, h4⟩ := ops_spec noTouch (runVals vals) ops 0 s0 s.book none n m m' c' r' hT hS (by
    intro f; rw [runVals_flag]; exact hF f)
  have : opsOn vals ops s = .ok (reg', s.withBook s') := by
    unfold opsOn
    rw [show (vals.map fun v => (⟨.Token, v.saved⟩ : Val)) = runVals vals from rfl, h1]; rfl
  rw [this]
  exact ⟨fun d => by rw [book_withBook]; exact h2 d, h3, h4⟩

theorem savedOf_flag {vals : List PVal} {reg : Option Saved} {os : List Out} {f : CtxFlag} {r : Option Bool}
    (h : reg.bind (Saved.get f) = r) :
    (savedOf vals reg os).bind (Saved.get f) = outF (vals.map (PVal.flag f)) r os.head? := by
  cases os with
  | nil => rfl
  | cons o os =>
    cases o with
    | new k => exact h
    | copy n =>
      simp only [savedOf, List.head?_cons, outF, List.getElem?_map]
      rcases vals[n - 1]? with _ | v <;> rfl

/-! ### An action -/

theorem perform_fine {ext : BldExt} {dedent : List Atom → Int} {act : Act} {o : ValOut} {vals : List PVal} {s0 : St} {s : BState}
    {n m m' : Dim → Nat} {c' : CtxFlag → Bool} {r' : CtxFlag → Option Bool} {ks : List AK}
    (hT : ∀ d, Track (n d) (m d) (stk d s0) (stk d s.book))
    (hG : (extra act.line).guards.all (Guard.ty (kinds (vals.map (·.atoms)))) = true)
    (hP : act.fails = false → ∀ d, actP d act o (m d) = some (m' d))
    (hF : act.fails = false → ∀ f, opsF f (vals.map (PVal.flag f)) act.ops (s.context.get f) none = some (c' f, r' f))
    (hK : act.fails = false → (extra act.line).writes.all (Write.ty (kinds (vals.map (·.atoms)))) = true ∧
      o.ty (kinds (vals.map (·.atoms))) = some ks) :
    Fine (fun q => act.fails = false ∧ o.Gives ext (vals.map (·.atoms)) q.1.atoms ∧ q.1.atoms.map Atom.ak = ks ∧
      (∀ d, Track (n d) (m' d) (stk d s0) (stk d q.2.book)) ∧ (∀ f, q.2.context.get f = c' f) ∧
      (∀ j, 7 ≤ j → q.2.context.value.getLsbD j = s.context.value.getLsbD j) ∧
      ∀ f, q.1.flag f = outF (vals.map (PVal.flag f)) (r' f) act.outs.head?)
      (Caused ext dedent (o.Calls ext (vals.map (·.atoms)))) (perform ext dedent act o vals s) := by
  unfold perform
  refine Fine.bind (guards_fine hG) fun s1 h1 => ?_
  by_cases hf : act.fails = true
  · simp only [hf, if_true]; trivial
  · rw [Bool.not_eq_true] at hf
    simp only [hf, Bool.false_eq_true, if_false]
    replace hP := hP hf
    replace hF := hF hf
    obtain ⟨hW, hO⟩ := hK hf
    have hw : ∀ w ∈ (extra act.line).writes, 1 ≤ m w.dim := by
      intro w hw
      have := hP w.dim
      unfold actP at this
      split at this
      · rename_i h
        have := List.all_eq_true.mp h w hw
        simpa using this
      · cases this
    have hT1 : ∀ d, Track (n d) (m d) (stk d s0) (stk d s1.book) := fun d => h1.track (hT d) (by simp)
    refine Fine.bind (writes_fine hW fun w h => (hT1 w.dim).length.trans' (hw w h)) fun s2 h2 => ?_
    have hT2 : ∀ d, Track (n d) (m d) (stk d s0) (stk d s2.book) := fun d => h2.track (hT1 d) (by
      intro h; obtain ⟨w, hm, rfl⟩ := List.mem_map.mp h; exact hw w hm)
    have hc : s2.context = s.context := h2.1.trans h1.1
    split
    · rename_i hl
      have hP1 : ∀ d, (d ∈ o.dims → 1 ≤ m d) ∧ opsS d act.ops (m d) = some (m' d) := by
        intro d
        have := hP d
        unfold actP at this
        rw [if_pos hl] at this
        split at this
        · split at this
          · rename_i h
            exact ⟨fun hd => by simpa [hd] using h, this⟩
          · cases this
        · cases this
      refine Fine.bind (out_fine (fun d hd => (hT2 d).length.trans' ((hP1 d).1 hd)) hO) fun q hq => ?_
      obtain ⟨hg, hk, hm⟩ := hq
      refine Fine.bind (opsOn_fine (m := m) (m' := m') (c' := c') (r' := r') (fun d => hm.track (hT2 d) (hP1 d).1) (fun d => (hP1 d).2)
        (fun f => by rw [hm.1, hc]; exact hF f)) fun r hr => ?_
      obtain ⟨ht, hcf, hj⟩ := hr
      exact ⟨trivial, hg, hk, ht, fun f => (hcf f).1, fun j h => by rw [hj j h, hm.1, hc], fun f => savedOf_flag (hcf f).2⟩
    · rename_i hl
      have hP1 : ∀ d, (d ∈ o.dims → 1 ≤ m' d) ∧ opsS d act.ops (m d) = some (m' d) := by
        intro d
        have := hP d
        unfold actP at this
        rw [if_neg hl] at this
        split at this
        · split at this
          · rename_i m1 h1
            split at this
            · rename_i h
              cases this
              exact ⟨fun hd => by simpa [hd] using h, h1⟩
            · cases this
          · cases this
        · cases this
      refine Fine.bind (opsOn_fine (m := m) (m' := m') (c' := c') (r' := r') hT2 (fun d => (hP1 d).2)
        (fun f => by rw [hc]; exact hF f)) fun r hr => ?_
      obtain ⟨ht, hcf, hj⟩ := hr
      refine Fine.bind (out_fine (fun d hd => (ht d).length.trans' ((hP1 d).1 hd)) hO) fun q hq => ?_
      obtain ⟨hg, hk, hm⟩ := hq
      exact ⟨trivial, hg, hk, fun d => hm.track (ht d) (hP1 d).1, fun f => by rw [hm.1]; exact (hcf f).1,
        fun j h => by rw [hm.1, hj j h, hc], fun f => savedOf_flag (hcf f).2⟩

end Verif.Grammar
