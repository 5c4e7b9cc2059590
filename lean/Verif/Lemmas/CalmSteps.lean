import Verif.Spec.WellRead
import Verif.Lemmas.ShapeSafe
import Verif.Lemmas.Utf8Split
/-!
A computation of the builder that panics at most by `unreachable!`, or, given `i`, by an index out of range (`Calm`), with what
holds of its result; the tables stay ready.
-/
namespace Verif
open Builder Grammar

/-- The panics left. -/
def Left (i : Prop) (e : Panic) : Prop := e = .unreachable ∨ (i ∧ e = .index)
/-- At most those, and `P` of the result. -/
def Res.Calm (i : Prop) (r : Res α) (P : α → Prop) : Prop :=
  match r with
  | .ok a => P a
  | .error e => Left i e
/-- The same over the tables. -/
def BldM.Calm (i : Prop) (p : Bool) (m : BldM α) (P : α → Prop) : Prop :=
  ∀ s, Ready p s → Res.Calm i (m s) fun q => P q.1 ∧ Ready p q.2
/-- The same for `Result<_, ()>`. -/
def BldR.Calm (i : Prop) (p : Bool) (m : BldR α) (P : α → Prop) : Prop :=
  ∀ s, Ready p s → Res.Calm i (m.run s) fun q => (∀ a, q.1 = .ok a → P a) ∧ Ready p q.2

variable {i : Prop} {p : Bool} {P : α → Prop} {Q : β → Prop}

theorem Res.calm_ok {a : α} (h : P a) : Res.Calm i (.ok a) P := h
theorem Res.calm_pure {a : α} (h : P a) : Res.Calm i (pure a) P := h
theorem Res.calm_error : Res.Calm (α := α) i (.error .unreachable) P := .inl rfl
theorem Res.calm_bind {r : Res α} {f : α → Res β} (h : Res.Calm i r P) (hf : ∀ a, P a → Res.Calm i (f a) Q) :
    Res.Calm i (r >>= f) Q := by
  cases r with
  | error e => exact h
  | ok a => exact hf a h
theorem Res.Calm.imp {r : Res α} {P' : α → Prop} (h : Res.Calm i r P) (hi : ∀ a, P a → P' a) : Res.Calm i r P' := by
  cases r with
  | error e => exact h
  | ok a => exact hi a h
theorem Res.Calm.any {r : Res α} (h : Res.Calm i r P) : Res.Calm i r Any := h.imp fun _ _ => trivial

theorem BldM.calm_pure {a : α} (h : P a) : BldM.Calm i p (pure a) P := fun _ hs => ⟨h, hs⟩
theorem BldM.calm_panic : BldM.Calm (α := α) i p (panic .unreachable) P := fun _ _ => .inl rfl
theorem BldM.calm_liftR {r : Res α} (h : Res.Calm i r P) : BldM.Calm i p (liftR r) P := by
  intro s hs
  cases r with
  | error e => exact h
  | ok a => exact ⟨h, hs⟩
theorem BldM.calm_error {m : BldMsg} {l : Loc} : BldM.Calm i p (Builder.error m l) Any := fun _ hs => ⟨trivial, hs⟩
theorem BldM.calm_warn {m : BldMsg} {l : Loc} : BldM.Calm i p (Builder.warn m l) Any := fun _ hs => ⟨trivial, hs⟩
theorem BldM.calm_get : BldM.Calm i p (get : BldM BState) (Ready p) := fun _ hs => ⟨hs, hs⟩
theorem BldM.calm_set {s : BState} (h : Ready p s) : BldM.Calm i p (set s : BldM PUnit) Any := fun _ _ => ⟨trivial, h⟩
theorem BldM.calm_modify {f : BState → BState} (h : ∀ s, Ready p s → Ready p (f s)) : BldM.Calm i p (modify f : BldM PUnit) Any :=
  fun s hs => ⟨trivial, h s hs⟩
theorem BldM.calm_bind {m : BldM α} {f : α → BldM β} (h : BldM.Calm i p m P) (hf : ∀ a, P a → BldM.Calm i p (f a) Q) :
    BldM.Calm i p (m >>= f) Q := by
  intro s hs
  rw [show (m >>= f) s = (m s >>= fun p => f p.1 p.2) from rfl]
  exact Res.calm_bind (h s hs) fun q hq => hf q.1 hq.1 q.2 hq.2
theorem BldM.Calm.imp {m : BldM α} {P' : α → Prop} (h : BldM.Calm i p m P) (hi : ∀ a, P a → P' a) : BldM.Calm i p m P' :=
  fun s hs => (h s hs).imp fun q hq => ⟨hi q.1 hq.1, hq.2⟩
theorem BldM.Calm.any {r : BldM α} (h : BldM.Calm i p r P) : BldM.Calm i p r Any := h.imp fun _ _ => trivial

theorem BldR.calm_pure {a : α} (h : P a) : BldR.Calm i p (pure a) P := fun _ hs => ⟨fun _ e => by cases e; exact h, hs⟩
theorem BldR.calm_err : BldR.Calm (α := α) i p err P := fun _ hs => ⟨fun _ e => (by cases e), hs⟩
theorem BldR.calm_lift {m : BldM α} (h : BldM.Calm i p m P) : BldR.Calm i p (m : BldR α) P := by
  intro s hs
  rw [show ExceptT.run (m : BldR α) s = (m s >>= fun p => .ok (.ok p.1, p.2)) from rfl]
  exact Res.calm_bind (h s hs) fun q hq => ⟨fun a e => by cases e; exact hq.1, hq.2⟩
theorem BldR.calm_get : BldR.Calm i p (get : BldR BState) (Ready p) :=
  fun _ hs => ⟨fun _ e => by cases e; exact hs, hs⟩
theorem BldR.calm_set {s : BState} (h : Ready p s) : BldR.Calm i p (set s : BldR PUnit) Any := fun _ _ => ⟨fun _ _ => trivial, h⟩
theorem BldR.calm_modify {f : BState → BState} (h : ∀ s, Ready p s → Ready p (f s)) : BldR.Calm i p (modify f : BldR PUnit) Any :=
  fun s hs => ⟨fun _ _ => trivial, h s hs⟩
theorem BldR.calm_bind {m : BldR α} {f : α → BldR β} (h : BldR.Calm i p m P) (hf : ∀ a, P a → BldR.Calm i p (f a) Q) :
    BldR.Calm i p (m >>= f) Q := by
  intro s hs
  rw [show (m >>= f).run s = (m.run s >>= fun p => match p.1 with
    | .ok a => (f a).run p.2
    | .error e => pure (.error e, p.2)) from by
      show (ExceptT.bind m f) s = _
      unfold ExceptT.bind ExceptT.mk ExceptT.bindCont
      show (m.run s >>= fun p => _) = _
      congr; funext p; rcases p with ⟨p, s⟩; cases p <;> rfl]
  refine Res.calm_bind (h s hs) fun q hq => ?_
  obtain ⟨r, s1⟩ := q
  cases r with
  | error e => exact ⟨fun a h => (by cases h), hq.2⟩
  | ok a => exact hf a (hq.1 a rfl) s1 hq.2
theorem BldR.Calm.imp {m : BldR α} {P' : α → Prop} (h : BldR.Calm i p m P) (hi : ∀ a, P a → P' a) : BldR.Calm i p m P' :=
  fun s hs => (h s hs).imp fun _ hq => ⟨fun a e => hi a (hq.1 a e), hq.2⟩
theorem BldR.Calm.any {r : BldR α} (h : BldR.Calm i p r P) : BldR.Calm i p r Any := h.imp fun _ _ => trivial

/-! ### What can panic otherwise, and when not -/

theorem csub_calm (h : b ≤ a) : Res.Calm i (csub a b) fun c => c = a - b := by
  unfold csub; rw [if_pos h]; rfl
theorem value_calm {t : Token} (h : Utf8.valid t.tokenValue = true) :
    Res.Calm i (value t) fun v => v = Utf8.lossy t.tokenValue := by
  unfold value; rw [if_pos h]; rfl
theorem maybeValue_calm {t : Option Token} (h : ∀ t', t = some t' → Utf8.valid t'.tokenValue = true) : Res.Calm i (maybeValue t) Any := by
  cases t with
  | none => trivial
  | some t => exact Res.calm_bind (value_calm (h t rfl)) fun _ _ => trivial
theorem orUnreachable_calm {o : Option α} : Res.Calm i (orUnreachable o) Any := by
  cases o with
  | none => exact Res.calm_error
  | some t => trivial
theorem adjustNat_calm {n : Nat} {d : Int} (h1 : n < 2 ^ 31) (h2 : 0 ≤ (n : Int) + d) (h3 : (n : Int) + d < 2 ^ 31) :
    Res.Calm i (Loc.adjustNat n d) Any := by
  unfold Loc.adjustNat
  dsimp only
  rw [if_pos h1, if_pos ⟨h3, by omega⟩, if_pos h2]
  trivial
theorem adjustEnd_calm {l : Loc} (h1 : 1 ≤ l.stop) (h2 : l.stop < 2 ^ 31) : Res.Calm i (l.adjustEnd (-1)) Any :=
  Res.calm_bind (adjustNat_calm h2 (by omega) (by omega)) fun _ _ => trivial
theorem adjustBegin_calm {l : Loc} (h : l.begin + 1 < 2 ^ 31) : Res.Calm i (l.adjustBegin 1) Any :=
  Res.calm_bind (adjustNat_calm (by omega) (by omega) (by omega)) fun _ _ => trivial
theorem collectionMap_calm : Res.Calm i (collectionMap b l e) Any := by
  unfold collectionMap
  dsimp only
  split
  · trivial
  · exact Res.calm_error
theorem heredocMap_calm : Res.Calm i (heredocMap (some b) l (some e)) Any := trivial

theorem lossy_ne {bs : Bytes} (h : bs ≠ []) : Utf8.lossy bs ≠ [] := by
  cases bs with
  | nil => exact absurd rfl h
  | cons b bs =>
    intro e
    rcases Nat.lt_or_ge b.toNat 128 with hb | hb
    · rw [Utf8.lossy_cons_ascii hb] at e; cases e
    · obtain ⟨c, r, h1, _⟩ := Utf8.lossy_cons_not_ascii hb bs
      rw [h1] at e; cases e
end Verif
