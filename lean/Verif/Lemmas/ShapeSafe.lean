import Verif.Model.Grammar.Values
import Verif.Lemmas.ShapeKinds
/-!
A computation of the builder that does not reach an `unreachable!` (`Safe`), with what holds of its result. The condition `g` is
one under which the absence of the panic is claimed; what is said of the result does not depend on it.
-/
namespace Verif
open Builder

/-- No `unreachable!` (given `g`), and `P` of the result. -/
def Res.Safe (g : Prop) (r : Res α) (P : α → Prop) : Prop :=
  match r with
  | .ok a => P a
  | .error e => g → e ≠ .unreachable
/-- The same over the tables. -/
def BldM.Safe (g : Prop) (m : BldM α) (P : α → Prop) : Prop := ∀ s, Res.Safe g (m s) fun p => P p.1
/-- The same for `Result<_, ()>`. -/
def BldR.Safe (g : Prop) (m : BldR α) (P : α → Prop) : Prop := ∀ s, Res.Safe g (m.run s) fun p => ∀ a, p.1 = .ok a → P a

/-- Nothing in particular. -/
abbrev Any {α : Type} : α → Prop := fun _ => True

variable {g : Prop} {P : α → Prop} {Q : β → Prop}

theorem Res.safe_ok {a : α} (h : P a) : Res.Safe g (.ok a) P := h
theorem Res.safe_pure {a : α} (h : P a) : Res.Safe g (pure a) P := h
theorem Res.safe_error {e : Panic} (h : e ≠ .unreachable) : Res.Safe (α := α) g (.error e) P := fun _ => h
theorem Res.safe_bind {r : Res α} {f : α → Res β} (h : Res.Safe g r P) (hf : ∀ a, P a → Res.Safe g (f a) Q) :
    Res.Safe g (r >>= f) Q := by
  cases r with
  | error e => exact h
  | ok a => exact hf a h
theorem Res.Safe.imp {r : Res α} {P' : α → Prop} (h : Res.Safe g r P) (hi : ∀ a, P a → P' a) : Res.Safe g r P' := by
  cases r with
  | error e => exact h
  | ok a => exact hi a h
theorem Res.Safe.any {r : Res α} (h : Res.Safe g r P) : Res.Safe g r Any := h.imp fun _ _ => trivial

theorem BldM.safe_pure {a : α} (h : P a) : BldM.Safe g (pure a) P := fun _ => h
theorem BldM.safe_panic {e : Panic} (h : e ≠ .unreachable) : BldM.Safe (α := α) g (panic e) P := fun _ _ => h
theorem BldM.safe_liftR {r : Res α} (h : Res.Safe g r P) : BldM.Safe g (liftR r) P := by
  intro s
  cases r with
  | error e => exact h
  | ok a => exact h
theorem BldM.safe_error {m : BldMsg} {l : Loc} : BldM.Safe g (Builder.error m l) Any := fun _ => trivial
theorem BldM.safe_warn {m : BldMsg} {l : Loc} : BldM.Safe g (Builder.warn m l) Any := fun _ => trivial
theorem BldM.safe_get : BldM.Safe g (get : BldM BState) Any := fun _ => trivial
theorem BldM.safe_set {s : BState} : BldM.Safe g (set s : BldM PUnit) Any := fun _ => trivial
theorem BldM.safe_modify {f : BState → BState} : BldM.Safe g (modify f : BldM PUnit) Any := fun _ => trivial
theorem BldM.safe_bind {m : BldM α} {f : α → BldM β} (h : BldM.Safe g m P) (hf : ∀ a, P a → BldM.Safe g (f a) Q) :
    BldM.Safe g (m >>= f) Q := by
  intro s
  rw [show (m >>= f) s = (m s >>= fun p => f p.1 p.2) from rfl]
  exact Res.safe_bind (h s) fun p hp => hf p.1 hp p.2
theorem BldM.Safe.imp {m : BldM α} {P' : α → Prop} (h : BldM.Safe g m P) (hi : ∀ a, P a → P' a) : BldM.Safe g m P' :=
  fun s => (h s).imp fun p => hi p.1
theorem BldM.Safe.any {r : BldM α} (h : BldM.Safe g r P) : BldM.Safe g r Any := h.imp fun _ _ => trivial

theorem BldR.safe_pure {a : α} (h : P a) : BldR.Safe g (pure a) P := fun _ _ e => by cases e; exact h
theorem BldR.safe_err : BldR.Safe (α := α) g err P := fun _ _ e => by cases e
theorem BldR.safe_lift {m : BldM α} (h : BldM.Safe g m P) : BldR.Safe g (m : BldR α) P := by
  intro s
  rw [show ExceptT.run (m : BldR α) s = (m s >>= fun p => .ok (.ok p.1, p.2)) from rfl]
  exact Res.safe_bind (h s) fun p hp a e => by cases e; exact hp
theorem BldR.safe_get : BldR.Safe g (get : BldR BState) Any := fun _ _ _ => trivial
theorem BldR.safe_set {s : BState} : BldR.Safe g (set s : BldR PUnit) Any := fun _ _ _ => trivial
theorem BldR.safe_modify {f : BState → BState} : BldR.Safe g (modify f : BldR PUnit) Any := fun _ _ _ => trivial
theorem BldR.safe_bind {m : BldR α} {f : α → BldR β} (h : BldR.Safe g m P) (hf : ∀ a, P a → BldR.Safe g (f a) Q) :
    BldR.Safe g (m >>= f) Q := by
  intro s
  rw [show (m >>= f).run s = (m.run s >>= fun p => match p.1 with
    | .ok a => (f a).run p.2
    | .error e => pure (.error e, p.2)) from by
      show (ExceptT.bind m f) s = _
      unfold ExceptT.bind ExceptT.mk ExceptT.bindCont
      show (m.run s >>= fun p => _) = _
      congr; funext p; rcases p with ⟨p, s⟩; cases p <;> rfl]
  refine Res.safe_bind (h s) fun p hp => ?_
  obtain ⟨r, s1⟩ := p
  cases r with
  | error e => exact fun a h => by cases h
  | ok a => exact hf a (hp a rfl) s1
theorem BldR.Safe.imp {m : BldR α} {P' : α → Prop} (h : BldR.Safe g m P) (hi : ∀ a, P a → P' a) : BldR.Safe g m P' :=
  fun s => (h s).imp fun _ hp a e => hi a (hp a e)
theorem BldR.Safe.any {r : BldR α} (h : BldR.Safe g r P) : BldR.Safe g r Any := h.imp fun _ _ => trivial

/-! ### Parts that only panic otherwise -/

theorem csub_safe : Res.Safe g (csub a b) Any := by
  unfold csub; split
  · trivial
  · exact fun _ => nofun
theorem value_safe : Res.Safe g (value t) Any := by
  unfold value; split
  · trivial
  · exact fun _ => nofun
theorem maybeValue_safe : Res.Safe g (maybeValue t) Any := by
  cases t with
  | none => trivial
  | some t => exact Res.safe_bind value_safe fun _ _ => trivial
theorem orExpect_safe {o : Option α} : Res.Safe g (orExpect o) fun a => o = some a := by
  cases o with
  | none => exact fun _ => nofun
  | some t => rfl
theorem adjustNat_safe : Res.Safe g (Loc.adjustNat n d) Any := by
  unfold Loc.adjustNat
  dsimp only
  repeat' split
  · trivial
  all_goals exact fun _ => nofun
theorem adjustBegin_safe : Res.Safe g (Loc.adjustBegin l d) Any := Res.safe_bind adjustNat_safe fun _ _ => trivial
theorem adjustEnd_safe : Res.Safe g (Loc.adjustEnd l d) Any := Res.safe_bind adjustNat_safe fun _ _ => trivial
theorem size_safe : Res.Safe g (Loc.size l) Any := csub_safe
theorem dropFirstByte_safe : Res.Safe g (dropFirstByte t) Any := by
  unfold dropFirstByte; split
  · exact fun _ => nofun
  · split
    · trivial
    · exact fun _ => nofun
theorem firstByteStr_safe : Res.Safe g (firstByteStr t) Any := by
  unfold firstByteStr; split
  · exact fun _ => nofun
  · split
    · trivial
    · exact fun _ => nofun
theorem argNameCollides_safe : Res.Safe g (argNameCollides a b) Any := by
  refine Res.safe_bind firstByteStr_safe fun _ _ => ?_
  split <;> trivial
theorem isDeclared_safe {v : VarStack} : Res.Safe g (v.isDeclared n) Any := by
  unfold VarStack.isDeclared; split
  · exact fun _ => nofun
  · trivial
theorem declare_safe {v : VarStack} : Res.Safe g (v.declare n) Any := by
  unfold VarStack.declare; split
  · exact fun _ => nofun
  · trivial
theorem register_safe {v : NumStack} : Res.Safe g (v.register n) Any := by
  unfold NumStack.register NumStack.set; split
  · exact fun _ => nofun
  · trivial

/-- Steps about whose result nothing is needed. -/
macro "anys" : tactic => `(tactic| first
  | exact csub_safe | exact value_safe | exact maybeValue_safe | exact adjustBegin_safe | exact adjustEnd_safe | exact size_safe
  | exact dropFirstByte_safe | exact argNameCollides_safe | exact isDeclared_safe | exact declare_safe | exact register_safe
  | exact BldM.safe_error | exact BldM.safe_warn | exact BldM.safe_get | exact BldM.safe_set | exact BldM.safe_modify
  | exact BldR.safe_get | exact BldR.safe_set | exact BldR.safe_modify
  | exact BldM.safe_liftR csub_safe | exact BldM.safe_liftR value_safe | exact BldM.safe_liftR maybeValue_safe
  | exact BldM.safe_liftR adjustBegin_safe | exact BldM.safe_liftR adjustEnd_safe | exact BldM.safe_liftR dropFirstByte_safe
  | exact BldM.safe_liftR argNameCollides_safe | exact BldM.safe_liftR isDeclared_safe | exact BldM.safe_liftR declare_safe
  | exact BldM.safe_liftR register_safe)

/-- One step: a bind whose first part is as above, or an end without a result. -/
macro "step" : tactic => `(tactic| first
  | exact Res.safe_error nofun
  | exact BldM.safe_panic nofun
  | exact BldR.safe_err
  | exact BldR.safe_lift (BldM.safe_panic nofun)
  | (refine Res.safe_bind (P := Any) (by anys) fun _ _ => ?_)
  | (refine BldM.safe_bind (P := Any) (by anys) fun _ _ => ?_)
  | (refine BldR.safe_bind (P := Any) (by anys) fun _ _ => ?_)
  | (refine BldR.safe_bind (P := Any) (BldR.safe_lift (by anys)) fun _ _ => ?_))
/-- Steps, with case distinctions. -/
macro "steps" : tactic => `(tactic| repeat' first | step | split)

/-! ### The checks -/

theorem checkAssignmentToNumparam_safe : BldR.Safe g (checkAssignmentToNumparam n l) Any := by
  unfold checkAssignmentToNumparam
  steps
  exact BldR.safe_pure trivial
theorem checkReservedForNumparam_safe : BldR.Safe g (checkReservedForNumparam n l) Any := by
  unfold checkReservedForNumparam
  steps
  exact BldR.safe_pure trivial
theorem checkLvarName_safe : BldR.Safe g (checkLvarName ext n l) Any := by
  unfold checkLvarName
  steps
  exact BldR.safe_pure trivial
theorem checkDuplicatePatternVariable_safe : BldR.Safe g (checkDuplicatePatternVariable n l) Any := by
  unfold checkDuplicatePatternVariable
  steps
  · exact BldR.safe_pure trivial
  · exact BldR.safe_set
theorem checkDuplicatePatternKey_safe : BldR.Safe g (checkDuplicatePatternKey n l) Any := by
  unfold checkDuplicatePatternKey
  steps
  exact BldR.safe_set
theorem declarePatternVar_safe : BldR.Safe g (declarePatternVar ext n l) Any :=
  BldR.safe_bind checkLvarName_safe fun _ _ => BldR.safe_bind checkDuplicatePatternVariable_safe fun _ _ => BldR.safe_modify
theorem numparamErrors_safe : BldM.Safe g (numparamErrors l is) Any := by
  induction is with
  | nil => exact BldM.safe_pure trivial
  | cons i is ih =>
    unfold numparamErrors
    steps
    · exact BldM.safe_pure trivial
    · exact ih
    · exact ih
theorem tryDeclareNumparam_safe : BldM.Safe g (tryDeclareNumparam n l) Any := by
  unfold tryDeclareNumparam
  steps
  · refine BldM.safe_bind numparamErrors_safe fun _ _ => ?_
    steps
    exact BldM.safe_pure trivial
  · refine BldM.safe_bind numparamErrors_safe fun _ _ => ?_
    steps
    exact BldM.safe_pure trivial
  · exact BldM.safe_pure trivial
  · exact BldM.safe_pure trivial
theorem validateSymValue_safe : BldM.Safe g (validateSymValue v l) Any := by
  unfold validateSymValue
  split
  · exact BldM.safe_error
  · exact BldM.safe_pure trivial
theorem buildStaticRegexp_safe : BldM.Safe g (buildStaticRegexp rx p o l) Any := by
  unfold buildStaticRegexp
  steps <;> exact BldM.safe_pure trivial
theorem validateStaticRegexp_safe : BldM.Safe g (validateStaticRegexp ext p o l) Any := by
  unfold validateStaticRegexp
  split
  · exact BldM.safe_pure trivial
  · exact BldM.safe_bind buildStaticRegexp_safe fun _ _ => BldM.safe_pure trivial
theorem validateNoForwardArgAfterRestarg_safe : BldM.Safe g (validateNoForwardArgAfterRestarg as) Any := by
  unfold validateNoForwardArgAfterRestarg
  split
  · exact BldM.safe_pure trivial
  · exact BldM.safe_error
  · exact BldM.safe_pure trivial
theorem warnDuplicateKeys_safe : BldM.Safe g (warnDuplicateKeys f ps) Any := by
  induction ps with
  | nil => exact BldM.safe_pure trivial
  | cons i is ih =>
    unfold warnDuplicateKeys
    steps <;> first | exact ih | exact BldM.safe_bind (BldM.safe_pure trivial) fun _ _ => ih
theorem warnAllDuplicateKeys_safe : BldM.Safe g (warnAllDuplicateKeys ps) Any := by
  induction ps with
  | nil => exact BldM.safe_pure trivial
  | cons i is ih => exact BldM.safe_bind warnDuplicateKeys_safe fun _ _ => ih

end Verif
