import Verif.Lemmas.ScopeSpecial
/-!
The functions that change or read the table of variables.
-/
namespace Verif
open Builder Grammar ScopeSpec

/-- `x` is declared. -/
def Dcl (x : Text) (s : BState) : Prop := x ∈ s.staticEnv.variables
/-- `x` does not become declared. -/
def Same (x : Text) (s s' : BState) : Prop := Dcl x s' → Dcl x s
instance {x : Text} : Frame (Same x) where
  refl _ h := h
  trans h g e := h (g e)
  diag _ _ h := h
/-- When `x` becomes declared then the result has `P`. -/
def BldR.Grows (x : Text) (m : BldR α) (P : α → Prop) : Prop := ∀ s a s', m.run s = .ok (.ok a, s') → Dcl x s' → Dcl x s ∨ P a

variable {ext ext' : BldExt} {x : Text} {indent : Int} {P : α → Prop}

theorem BldR.grows_of_steps {m : BldR α} (h : BldR.Steps (Same x) m) : BldR.Grows x m P :=
  fun s _ s' e d => .inl (h s _ s' e d)
theorem BldR.grows_pure {a : α} : BldR.Grows x (pure a) P := BldR.grows_of_steps BldR.steps_pure
theorem BldR.grows_err : BldR.Grows x err P := BldR.grows_of_steps BldR.steps_err
theorem BldR.bind_ok {m : BldR α} {f : α → BldR β} {s s' : BState} {b : β} (e : (m >>= f).run s = .ok (.ok b, s')) :
    ∃ a s1, m.run s = .ok (.ok a, s1) ∧ (f a).run s1 = .ok (.ok b, s') := by
  rw [BldR.run_bind] at e
  rcases hm : m.run s with p | ⟨a, s1⟩
  · rw [hm] at e; cases e
  · rw [hm] at e
    cases a with
    | error p => cases e
    | ok a => exact ⟨a, s1, rfl, e⟩
theorem BldM.run_bind_ok {m : BldM α} {f : α → BldM β} {s s' : BState} {b : β} (e : (m >>= f) s = .ok (b, s')) :
    ∃ a s1, m s = .ok (a, s1) ∧ f a s1 = .ok (b, s') := by
  rw [show (m >>= f) s = (m s >>= fun p => f p.1 p.2) from rfl] at e
  rcases hm : m s with p | ⟨a, s1⟩
  · rw [hm] at e; cases e
  · rw [hm] at e
    exact ⟨a, s1, rfl, e⟩
theorem BldR.run_lift_ok {m : BldM α} {s s' : BState} {a : α} (e : ExceptT.run (m : BldR α) s = .ok (.ok a, s')) : m s = .ok (a, s') := by
  rw [show ExceptT.run (m : BldR α) s = (m s >>= fun p => .ok (.ok p.1, p.2)) from rfl] at e
  rcases hm : m s with p | ⟨a, s1⟩
  · rw [hm] at e; cases e
  · rw [hm] at e; cases e; rfl
theorem BldR.grows_bind {P : β → Prop} {m : BldR α} {f : α → BldR β} (h : BldR.Steps (Same x) m) {G : α → Prop} (g : BldR.Yields m G)
    (hf : ∀ a, G a → BldR.Grows x (f a) P) : BldR.Grows x (m >>= f) P := by
  intro s b s' e d
  obtain ⟨a, s1, e1, e2⟩ := BldR.bind_ok e
  exact (hf a (BldR.yields_iff.mp g s a s1 e1) s1 b s' e2 d).imp_left (h s _ s1 e1)
theorem BldR.grows_bind' {P : β → Prop} {m : BldR α} {f : α → BldR β} (h : BldR.Steps (Same x) m)
    (hf : ∀ a, BldR.Grows x (f a) P) : BldR.Grows x (m >>= f) P :=
  BldR.grows_bind h (G := fun _ => True) (BldR.yields_iff.mpr fun _ _ _ _ => trivial) fun a _ => hf a
theorem BldR.grows_then {P : β → Prop} {m : BldR α} {f : α → BldR β} {p : Prop} (h : BldR.Grows x m fun _ => p)
    (hf : ∀ a, BldR.Steps (Same x) (f a)) (g : ∀ a, BldR.Yields (f a) fun b => p → P b) : BldR.Grows x (m >>= f) P := by
  intro s b s' e d
  obtain ⟨a, s1, e1, e2⟩ := BldR.bind_ok e
  exact (h s a s1 e1 (hf a s1 _ s' e2 d)).imp_right (BldR.yields_iff.mp (g a) s1 b s' e2)
theorem BldR.grows_modify {f : BState → BState} {p : Prop} (h : ∀ s, Dcl x (f s) → Dcl x s ∨ p) :
    BldR.Grows x (modify f : BldR PUnit) fun _ => p := by
  intro s a s' e d
  cases e
  exact h s d

theorem grows_declare {n : Text} : BldR.Grows x (modify fun s => { s with staticEnv := s.staticEnv.declare n } : BldR PUnit) fun _ => x = n := by
  refine BldR.grows_modify fun s d => ?_
  rcases List.mem_cons.mp d with d | d
  · exact .inr d
  · exact .inl d

theorem declarePatternVar_grows {n : Text} : BldR.Grows x (declarePatternVar ext' n l) fun _ => x = n := by
  unfold declarePatternVar
  refine BldR.grows_bind' checkLvarName_steps fun _ => BldR.grows_bind' (checkDuplicatePatternVariable_steps ?_) fun _ => grows_declare
  exact fun _ _ _ _ h => h
theorem matchVar_gives {t : Token} : BldR.Yields (matchVar ext' t) fun m => ∃ l l', m = .MatchVar (cloneValue t) l l' := by
  unfold matchVar
  refine BldR.safe_bind (BldR.safe_lift (BldM.safe_liftR value_gives)) fun n hn => ?_
  subst hn
  skip1
  exact BldR.safe_pure ⟨_, _, rfl⟩
theorem matchVar_grows {t : Token} : BldR.Grows x (matchVar ext' t) fun _ => cloneValue t = x := by
  unfold matchVar
  refine BldR.grows_bind (BldR.steps_lift BldM.steps_liftR) (BldR.safe_lift (BldM.safe_liftR value_gives)) fun n hn => ?_
  subst hn
  exact BldR.grows_then declarePatternVar_grows (fun _ => BldR.steps_pure) fun _ => BldR.safe_pure Eq.symm

/-- A binding part of a pattern. -/
def PatMade (ext : BldExt) (x : Text) (b : Prop) (m : Node) : Prop := (Binds ext x m ↔ b) ∧ ¬ Uses ext x m ∧ ¬ Loose ext x m

theorem patMade_var {n : Text} {l l' : Loc} : PatMade ext x (x = n) (.MatchVar n l l') :=
  ⟨binds_MatchVar.trans (by simp), by rw [uses_MatchVar]; simp, by rw [loose_MatchVar]; simp⟩

theorem matchRest_made {t : Token} {o : Option Token} : BldR.Yields (matchRest ext' t o) (PatMade ext x (∃ u, o = some u ∧ cloneValue u = x)) := by
  unfold matchRest
  cases o with
  | none =>
    refine BldR.safe_bind (P := fun n => n = none) (BldR.safe_pure rfl) fun n hn => ?_
    subst hn
    refine BldR.safe_pure ⟨?_, ?_, ?_⟩
    · rw [binds_additive.MatchRest]; simp
    · rw [uses_additive.MatchRest]; simp
    · rw [loose_additive.MatchRest]; simp
  | some u =>
    refine BldR.safe_bind (P := fun n => ∃ l l', n = some (.MatchVar (cloneValue u) l l')) ?_ fun n hn => ?_
    · exact BldR.safe_bind matchVar_gives fun m hm => by
        obtain ⟨l, l', rfl⟩ := hm
        exact BldR.safe_pure ⟨l, l', rfl⟩
    · obtain ⟨l, l', rfl⟩ := hn
      obtain ⟨h1, h2, h3⟩ := patMade_var (ext := ext) (x := x) (n := cloneValue u) (l := l) (l' := l')
      refine BldR.safe_pure ⟨?_, ?_, ?_⟩
      · rw [binds_additive.MatchRest]; simp [h1, eq_comm]
      · rw [uses_additive.MatchRest]; simp [h2]
      · rw [loose_additive.MatchRest]; simp [h3]
theorem matchRest_grows {t : Token} {o : Option Token} : BldR.Grows x (matchRest ext' t o) fun _ => ∃ u, o = some u ∧ cloneValue u = x := by
  unfold matchRest
  cases o with
  | none => exact BldR.grows_of_steps (by quiet)
  | some u =>
    refine BldR.grows_then (p := cloneValue u = x) ?_ (fun _ => BldR.steps_pure) fun _ => BldR.safe_pure fun h => ⟨u, rfl, h⟩
    exact BldR.grows_then matchVar_grows (fun _ => BldR.steps_pure) fun _ => BldR.safe_pure id

theorem matchHashVar_made {t : Token} : BldR.Yields (matchHashVar ext' t) (PatMade ext x (cloneValue t = x)) := by
  unfold matchHashVar
  skip1
  refine BldR.safe_bind (BldR.safe_lift (BldM.safe_liftR value_gives)) fun n hn => ?_
  subst hn
  skip1
  refine BldR.safe_pure ?_
  rw [eq_comm]
  exact patMade_var
theorem matchHashVar_grows {t : Token} : BldR.Grows x (matchHashVar ext' t) fun _ => cloneValue t = x := by
  unfold matchHashVar
  refine BldR.grows_bind' (by quiet) fun _ => ?_
  refine BldR.grows_bind (BldR.steps_lift BldM.steps_liftR) (BldR.safe_lift (BldM.safe_liftR value_gives)) fun n hn => ?_
  subst hn
  exact BldR.grows_then declarePatternVar_grows (fun _ => BldR.steps_pure) fun _ => BldR.safe_pure Eq.symm

/-- What `match_label` makes of a quoted key. -/
def LabelMade (ext : BldExt) (x : Text) (l : List Node) (m : Node) : Prop :=
  ¬ Some_ (Binds ext x) l ∧ ¬ Uses ext x m ∧ ¬ Loose ext x m
mutual
theorem matchHashVarFromStr_made : ∀ l, BldR.Yields (matchHashVarFromStr ext' a b l) (LabelMade ext x l)
  | [] => by unfold matchHashVarFromStr; skips
  | [n] => by unfold matchHashVarFromStr; exact matchHashVarFromNode_made n
  | _ :: _ :: _ => by unfold matchHashVarFromStr; skips
theorem matchHashVarFromNode_made : ∀ n, BldR.Yields (matchHashVarFromNode ext' a b n) (LabelMade ext x [n])
  | .Begin l _ _ _ => by
    rw [matchHashVarFromNode]
    refine (matchHashVarFromStr_made l).imp fun m h => ⟨?_, h.2⟩
    simp only [some_cons, some_nil, or_false]
    rw [binds_additive.Begin]
    exact h.1
  | n => by
    unfold matchHashVarFromNode
    split
    · dsimp only
      skip1
      skip1
      obtain ⟨_, h2, h3⟩ := patMade_var (ext := ext) (x := x)
      refine BldR.safe_pure ⟨?_, h2, h3⟩
      simp only [some_cons, some_nil, or_false]
      rw [binds_additive.Str]
      exact id
    · rename_i l _ _ _
      refine (matchHashVarFromStr_made l).imp fun m h => ⟨?_, h.2⟩
      simp only [some_cons, some_nil, or_false]
      rw [binds_additive.Begin]
      exact h.1
    · skips
end
mutual
theorem matchHashVarFromStr_grows : ∀ l, BldR.Grows x (matchHashVarFromStr ext' a b l) (Binds ext x)
  | [] => by unfold matchHashVarFromStr; exact BldR.grows_of_steps (by quiet)
  | [n] => by unfold matchHashVarFromStr; exact matchHashVarFromNode_grows n
  | _ :: _ :: _ => by unfold matchHashVarFromStr; exact BldR.grows_of_steps (by quiet)
theorem matchHashVarFromNode_grows : ∀ n, BldR.Grows x (matchHashVarFromNode ext' a b n) (Binds ext x)
  | .Begin l _ _ _ => by
    rw [matchHashVarFromNode]
    exact matchHashVarFromStr_grows l
  | n => by
    unfold matchHashVarFromNode
    split
    · dsimp only
      refine BldR.grows_then declarePatternVar_grows (fun _ => by quiet) fun _ => ?_
      skip1
      exact BldR.safe_pure patMade_var.1.mpr
    · exact matchHashVarFromStr_grows _
    · exact BldR.grows_of_steps (by quiet)
end

theorem matchLabel_made {k : PKwLabel} : BldR.Yields (matchLabel ext' k) fun m =>
    ¬ Some_ (Binds ext x) (Atom.trees (.label k)) ∧ ¬ Uses ext x m ∧ ¬ Loose ext x m := by
  unfold matchLabel
  split
  · refine matchHashVar_made.imp fun m h => ⟨?_, h.2⟩
    simp [Atom.trees]
  · refine (matchHashVarFromStr_made _).imp fun m h => ⟨?_, h.2⟩
    simpa [Atom.trees] using h.1
theorem matchLabel_grows {k : PKwLabel} : BldR.Grows x (matchLabel ext' k) (Binds ext x) := by
  unfold matchLabel
  split
  · intro s a s' e d
    exact (matchHashVar_grows s a s' e d).imp_right (BldR.yields_iff.mp matchHashVar_made s a s' e).1.mpr
  · exact matchHashVarFromStr_grows _

/-- What `assignable` makes of a node. -/
structure Assigned (ext : BldExt) (x : Text) (n m : Node) : Prop where
  bare : bareNode m
  binds : Binds ext x n → Binds ext x m
  uses : Uses ext x m → Uses ext x n ∧ ∀ y l, n ≠ .Lvar y l
  loose : Loose ext x m → Loose ext x n

theorem assignable_made {n : Node} : BldR.Yields (assignable n) (Assigned ext x n) := by
  unfold assignable
  split
  case h_1 => exact BldR.safe_pure ⟨rfl, by rw [binds_additive.Cvar]; exact False.elim, by rw [uses_additive.Cvasgn]; simp,
    by rw [loose_additive.Cvasgn]; simp⟩
  case h_2 => exact BldR.safe_pure ⟨rfl, by rw [binds_additive.Ivar]; exact False.elim, by rw [uses_additive.Ivasgn]; simp,
    by rw [loose_additive.Ivasgn]; simp⟩
  case h_3 => exact BldR.safe_pure ⟨rfl, by rw [binds_additive.Gvar]; exact False.elim, by rw [uses_additive.Gvasgn]; simp,
    by rw [loose_additive.Gvasgn]; simp⟩
  case h_4 =>
    skip1
    split
    · skips
    · exact BldR.safe_pure ⟨rfl, by rw [binds_additive.Const, binds_wide.Casgn]; simp,
        by rw [uses_additive.Const, uses_wide.Casgn]; simp, by rw [loose_additive.Const, loose_wide.Casgn]; simp⟩
  case h_5 =>
    skip1; skip1; skip1
    exact BldR.safe_pure ⟨rfl, by rw [binds_Lvar]; exact False.elim, by rw [uses_Lvasgn]; simp, by rw [loose_Lvasgn]; simp⟩
  case h_6 =>
    skip1; skip1
    exact BldR.safe_pure ⟨trivial, id, fun h => ⟨h, fun _ _ => Node.noConfusion⟩, id⟩
  all_goals skips
theorem assignable_grows {n : Node} : BldR.Grows x (assignable n) (Binds ext x) := by
  unfold assignable
  split
  case h_4 => exact BldR.grows_of_steps (by quiet)
  case h_5 =>
    refine BldR.grows_bind' checkAssignmentToNumparam_steps fun _ => BldR.grows_bind' checkReservedForNumparam_steps fun _ => ?_
    exact BldR.grows_then grows_declare (fun _ => BldR.steps_pure) fun _ => BldR.safe_pure fun h => binds_Lvasgn.mpr (.inl h)
  case h_6 =>
    exact BldR.grows_bind' checkAssignmentToNumparam_steps fun _ => BldR.grows_bind' checkReservedForNumparam_steps fun _ => BldR.grows_pure
  all_goals exact BldR.grows_of_steps (by quiet)

theorem mem_declares : ∀ (cs : List Text) (e : StaticEnv), x ∈ (cs.foldl StaticEnv.declare e).variables → x ∈ e.variables ∨ x ∈ cs
  | [], _, h => .inl h
  | c :: cs, e, h => by
    rcases mem_declares cs (e.declare c) h with h | h
    · rcases List.mem_cons.mp h with h | h
      · exact .inr (h ▸ List.mem_cons_self)
      · exact .inl h
    · exact .inr (List.mem_cons_of_mem _ h)

theorem captures_gives {n : Node} : BldM.Yields (staticRegexpCaptures ext n) fun o => ∀ cs, o = some cs → cs = groupNames ext n := by
  unfold staticRegexpCaptures
  split
  · exact BldM.safe_pure fun _ => nofun
  · rename_i rx hrx
    split
    · dsimp only
      unfold buildStaticRegexp
      split
      · exact BldM.safe_pure fun _ => nofun
      · rename_i hs
        split
        · rename_i hn
          refine BldM.safe_pure fun cs h => ?_
          cases h
          unfold groupNames
          dsimp only
          rw [hrx, hs]
          dsimp only
          split <;> rename_i hn' <;> have h := hn.symm.trans hn' <;> cases h
          rfl
        · skip1
          exact BldM.safe_pure fun _ => nofun
    · exact BldM.safe_pure fun _ => nofun

/-- What `match_op` makes of its operands. -/
structure Matched (ext : BldExt) (x : Text) (n o m : Node) : Prop where
  binds : Binds ext x n ∨ Binds ext x o → Binds ext x m
  uses : Uses ext x m → Uses ext x n ∨ Uses ext x o
  loose : Loose ext x m → Loose ext x n ∨ Loose ext x o
theorem matchOp_made {n o : Node} : BldR.Yields (matchOp ext' n t o) (Matched ext x n o) := by
  unfold matchOp
  skip1; skip1
  dsimp only
  refine BldR.safe_bind (P := fun _ => True) (BldR.yields_iff.mpr fun _ _ _ _ => trivial) fun c _ => ?_
  split
  · skip1
    refine BldR.safe_pure ⟨fun h => binds_MatchWithLvasgn.mpr (.inr (by simpa using h)), fun h => by simpa using uses_MatchWithLvasgn.mp h,
      fun h => by simpa using loose_MatchWithLvasgn.mp h⟩
  · refine BldR.safe_pure ⟨fun h => binds_additive.Send.mpr (by simpa using h), fun h => by simpa using uses_additive.Send.mp h,
      fun h => by simpa using loose_additive.Send.mp h⟩
theorem matchOp_grows {n o : Node} : BldR.Grows x (matchOp ext n t o) (Binds ext x) := by
  unfold matchOp
  refine BldR.grows_bind' valueExpr_steps fun _ => BldR.grows_bind' valueExpr_steps fun _ => ?_
  dsimp only
  refine BldR.grows_bind (BldR.steps_lift staticRegexpCaptures_steps) (BldR.safe_lift captures_gives) fun c hc => ?_
  split
  · rename_i cs
    obtain rfl := hc cs rfl
    refine BldR.grows_then (p := x ∈ groupNames ext n) (BldR.grows_modify fun s d => mem_declares _ _ d) (fun _ => BldR.steps_pure)
      fun _ => BldR.safe_pure fun h => binds_MatchWithLvasgn.mpr (.inl h)
  · exact BldR.grows_pure

theorem allowsNum_same (hx : isNumparamName x = false) : AllowsNum (Same x) := by
  intro s n k num d l hn _ _ _ _ h
  rcases List.mem_cons.mp h with h | h
  · rw [h, hn] at hx; cases hx
  · exact h

/-- What `accessible` makes of a node. -/
structure Looked (ext : BldExt) (x : Text) (n : Node) (s : BState) (m : Node) : Prop where
  binds : Binds ext x m ↔ Binds ext x n
  uses : Uses ext x m → Dcl x s ∨ (Uses ext x n ∧ ∀ y l, n ≠ .Lvar y l)
  loose : Loose ext x m ↔ Loose ext x n

theorem looked_var {y : Text} {l l' : Loc} (h : y = x → Dcl x s) : Looked ext x (.Lvar y l) s (.Lvar y l') :=
  ⟨by rw [binds_Lvar, binds_Lvar], fun u => .inl (h (uses_Lvar.mp u)), by rw [loose_Lvar, loose_Lvar]⟩
theorem accessible_run (hx : isNumparamName x = false) {n : Node} (e : accessible n s = .ok (m, s')) : Looked ext x n s m := by
  unfold accessible at e
  split at e
  · rename_i name l
    have key : ∀ s1, s1.staticEnv = s.staticEnv → (do
        if ← tryDeclareNumparam name l then return .Lvar name l
        let s ← get
        if !s.staticEnv.isDeclared name then
          return .Send none name [] none (some l) none none none l
        if s.currentArg.top = some name then error (.CircularArgumentReference name) l
        return .Lvar name l : BldM Node) s1 = .ok (m, s') → Looked ext x (.Lvar name l) s m := by
      intro s1 hs e
      obtain ⟨b, s2, e1, e2⟩ := BldM.run_bind_ok e
      rcases tryDeclareNumparam_run e1 with ⟨rfl, rfl⟩ | ⟨rfl, hn, -⟩
      · obtain ⟨s3, s4, e3, e4⟩ := BldM.run_bind_ok e2
        cases e3
        split at e4
        · cases e4
          exact ⟨by rw [binds_additive.Send, binds_Lvar]; simp, fun u => by rw [uses_additive.Send] at u; simp at u,
            by rw [loose_additive.Send, loose_Lvar]; simp⟩
        · rename_i hd
          have hd : name ∈ s.staticEnv.variables := by
            rw [← hs]
            simpa [StaticEnv.isDeclared] using hd
          have hm : ∃ l', m = .Lvar name l' := by
            split at e4
            · obtain ⟨_, _, _, e5⟩ := BldM.run_bind_ok e4
              cases e5; exact ⟨_, rfl⟩
            · cases e4; exact ⟨_, rfl⟩
          obtain ⟨l', rfl⟩ := hm
          exact looked_var fun h => h ▸ hd
      · cases e2
        refine looked_var fun h => ?_
        rw [h, hx] at hn; cases hn
    split at e
    · obtain ⟨_, s1, e1, e2⟩ := BldM.run_bind_ok e
      cases e1
      exact key { s with diagnostics := s.diagnostics ++ [⟨.error, .InvalidIdToGet name, l⟩] } rfl e2
    · exact key s rfl e
  · rename_i hn
    cases e
    exact ⟨Iff.rfl, fun u => .inr ⟨u, fun y l h => hn y l h⟩, Iff.rfl⟩
theorem pairLabel_run (hx : isNumparamName x = false) (e0 : pairLabel ext' t s = .ok (m, s')) :
    ¬ Binds ext x m ∧ (Uses ext x m → Dcl x s) ∧ ¬ Loose ext x m := by
  unfold pairLabel at e0
  obtain ⟨l, s1, e1, f0⟩ := BldM.run_bind_ok e0
  obtain ⟨n, s2, e2, e⟩ := BldM.run_bind_ok f0
  have h1 : s1 = s := by revert e1; cases t.loc.adjustEnd (-1) <;> intro e1 <;> cases e1; rfl
  have h2 : s2 = s1 := by revert e2; cases value t <;> intro e2 <;> cases e2; rfl
  subst h2 h1
  clear e0 f0
  split at e
  · cases e
  · rename_i c cs
    obtain ⟨v, s3, e3, e4⟩ := BldM.run_bind_ok e
    have hv := accessible_run (ext := ext) hx e3
    have go : ∀ {Q : Node → Prop}, Additive Q → (Q m ↔ Q v) := fun h => by
      have := pairKeyword_adds h (t := t) (v := v) s3
      rw [e4] at this
      exact this
    rw [go binds_additive, go uses_additive, go loose_additive]
    refine ⟨?_, fun h => ?_, ?_⟩
    · rw [hv.binds]
      split
      · rw [binds_Lvar]; exact id
      · rw [binds_additive.Const]; simp
    · rcases hv.uses h with h | ⟨h, h'⟩
      · exact h
      · split at h
        · rename_i hc
          rw [if_pos hc] at h'
          exact absurd rfl (h' _ _)
        · rw [uses_additive.Const] at h; simp at h
    · rw [hv.loose]
      split
      · rw [loose_Lvar]; exact id
      · rw [loose_additive.Const]; simp
end Verif
