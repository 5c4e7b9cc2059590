import Verif.Lemmas.MethodApply
import Verif.Lemmas.ScopeWalk
import Verif.Lemmas.ScopeFits
/-!
Every production keeps what it builds in a method clean.
-/
namespace Verif
open Builder Grammar MethodSpec

variable {ext : BldExt} {dedent : List Atom → Int} {indent : Int} {xs : List Atom} {ls : List Lvl} {s s' : BState} {a : Atom}

/-! ### The context -/

/-- The context is the same. -/
def CtxStill (s s' : BState) : Prop := s'.context = s.context
instance : Frame CtxStill where
  refl _ := rfl
  trans h g := Eq.trans g h
  diag _ _ := rfl

theorem fn_ctx {f : BFn} : BldR.Steps CtxStill (applyFn ext indent f xs) :=
  fn_steps ⟨fun _ _ _ _ _ _ _ _ _ _ _ _ => rfl, fun _ _ _ _ => rfl, fun _ _ _ _ _ => rfl, fun _ _ _ _ _ => rfl⟩

section
variable {V : List (List Atom)}
mutual
theorem ex_ctx : ∀ {e : Ex} {s : BState} {q : Atom × BState}, e.parse ext dedent V s = .ok q → CtxStill s q.2
  | .fld n i, s, q, h => by
    rw [Ex.parse] at h
    split at h
    · cases h; exact Frame.refl _
    · cases h
  | .call f es, s, q, h => by
    rw [Ex.parse] at h
    obtain ⟨p, h1, h2⟩ := run_bind_ok h
    exact Frame.trans (exs_ctx h1) (fn_ctx _ _ _ (runB_ok h2))
theorem exs_ctx : ∀ {es : List Ex} {s : BState} {q : List Atom × BState}, exParse ext dedent V es s = .ok q → CtxStill s q.2
  | [], s, q, h => by
    rw [exParse] at h
    cases h
    exact Frame.refl _
  | e :: es, s, q, h => by
    rw [exParse] at h
    obtain ⟨p, h1, h⟩ := run_bind_ok h
    obtain ⟨p', h2, h⟩ := run_bind_ok h
    cases h
    have k := exs_ctx h2
    exact Frame.trans (ex_ctx h1) k
end
theorem out_ctx {o : ValOut} {q : List Atom × BState} (h : o.parse ext dedent V s = .ok q) : CtxStill s q.2 := by
  cases o with
  | copy n =>
    rw [ValOut.parse] at h
    split at h
    · cases h; exact Frame.refl _
    · cases h
  | mk es => exact exs_ctx h
end

theorem guard_ctx {g : Guard} {vals : List PVal} (h : g.check vals s = .ok s') : CtxStill s s' := by
  cases g with
  | value k =>
    rw [Guard.check] at h
    split at h
    · obtain ⟨⟨_, s1⟩, h1, h⟩ := run_bind_ok h
      cases h
      exact valueExpr_steps _ _ _ (runB_ok h1)
    · cases h
  | declared k =>
    rw [Guard.check] at h
    split at h
    · split at h
      · cases h; exact Frame.refl _
      · cases h
    · cases h
  | _ =>
    rw [Guard.check] at h
    split at h
    all_goals first | (cases h; done) | (cases h; exact Frame.refl _)
theorem guards_ctx {vals : List PVal} : ∀ {gs : List Guard} {s s' : BState}, checkAll vals s gs = .ok s' →
    CtxStill s s' ∧ (Guard.notInDef ∈ gs → s.context.get .inDef = false)
  | [], _, _, h => by cases h; exact ⟨Frame.refl _, nofun⟩
  | g :: gs, s, s', h => by
    rw [checkAll] at h
    obtain ⟨s1, h1, h⟩ := run_bind_ok h
    have k1 := guard_ctx h1
    obtain ⟨k2, k3⟩ := guards_ctx h
    refine ⟨Frame.trans k1 k2, fun hm => ?_⟩
    rcases List.mem_cons.mp hm with rfl | hm
    · rw [Guard.check] at h1
      split at h1
      · cases h1
      · rename_i hd; simpa using hd
    · rw [← k1]; exact k3 hm
theorem write_ctx {w : Write} {vals : List PVal} (h : w.run vals s = .ok s') : CtxStill s s' := by
  cases w <;> simp only [Write.run] at h
  case ordinary =>
    obtain ⟨p, -, h⟩ := run_bind_ok h
    cases h; rfl
  case ordinaryIf =>
    split at h
    · cases h; rfl
    · obtain ⟨p, -, h⟩ := run_bind_ok h
      cases h; rfl
    · cases h
  all_goals first
    | (cases h; rfl)
    | (split at h
       · cases h; rfl
       · cases h)
theorem writes_ctx {vals : List PVal} : ∀ {ws : List Write} {s s' : BState}, writeAll vals s ws = .ok s' → CtxStill s s'
  | [], _, _, h => by cases h; exact Frame.refl _
  | w :: ws, s, s', h => by
    rw [writeAll] at h
    obtain ⟨s1, h1, h⟩ := run_bind_ok h
    exact Frame.trans (write_ctx h1) (writes_ctx h)

theorem op_flag {i : Nat} {vals : List Val} {s s' : St} {reg reg' : Option Saved} {op : Op} {f : CtxFlag} {c : Bool} {r : Option Bool}
    (h : runOp noTouch i vals s reg op = .ok (s', reg')) (hF : opF f (vals.map (Val.flag f)) (s.ctx.get f) (reg.bind (Saved.get f)) op = some (c, r)) :
    s'.ctx.get f = c ∧ reg'.bind (Saved.get f) = r := by
  cases op with
  | envPop =>
    rw [runOp] at h
    obtain ⟨e, -, h⟩ := run_bind_ok h
    cases h; cases hF; exact ⟨rfl, rfl⟩
  | touch ds =>
    rw [runOp] at h
    obtain ⟨e, h1, h⟩ := run_bind_ok h
    cases h1
    cases h; cases hF; exact ⟨rfl, rfl⟩
  | flag g v =>
    cases h
    simp only [opF, Option.some.injEq, Prod.mk.injEq] at hF
    refine ⟨?_, hF.2⟩
    rw [← hF.1, Props.C14_set_get]
    simp only [@eq_comm _ f g]
  | restore g n =>
    rw [runOp] at h
    split at h
    case h_2 => cases h
    rename_i b hb
    cases h
    simp only [opF, flag_at] at hF
    by_cases hfg : g = f
    · subst hfg
      rw [valAt] at hb
      simp only [if_true, hb, Option.some.injEq, Prod.mk.injEq] at hF
      refine ⟨?_, hF.2⟩
      rw [← hF.1, Props.C14_set_get]
      simp
    · have : ¬ f = g := fun e => hfg e.symm
      simp only [hfg, if_false, Option.some.injEq, Prod.mk.injEq] at hF
      refine ⟨?_, hF.2⟩
      rw [← hF.1, Props.C14_set_get]
      simp [this]
  | saveBool g =>
    cases h
    simp only [opF, Option.some.injEq, Prod.mk.injEq] at hF
    refine ⟨hF.1, ?_⟩
    rw [← hF.2]
    simp only [Option.bind_some, Saved.get]
    by_cases h : f = g
    · subst h; simp
    · simp [h]
  | carry n =>
    cases h
    simp only [opF, flag_at, Option.some.injEq, Prod.mk.injEq] at hF
    refine ⟨hF.1, ?_⟩
    rw [← hF.2]
    simp only [valAt]
    cases vals[n - 1]? <;> rfl
  | _ => cases h; cases hF; exact ⟨rfl, rfl⟩
theorem ops_flag {vals : List Val} {f : CtxFlag} {c : Bool} {r : Option Bool} : ∀ {ops : List Op} {i : Nat} {s s' : St} {reg reg' : Option Saved},
    runOps noTouch vals i s reg ops = .ok (s', reg') →
    opsF f (vals.map (Val.flag f)) ops (s.ctx.get f) (reg.bind (Saved.get f)) = some (c, r) → s'.ctx.get f = c ∧ reg'.bind (Saved.get f) = r
  | [], i, s, s', reg, reg', h, hF => by cases h; cases hF; exact ⟨rfl, rfl⟩
  | op :: ops, i, s, s', reg, reg', h, hF => by
    rw [runOps] at h
    obtain ⟨⟨s1, reg1⟩, h1, h⟩ := run_bind_ok h
    rw [opsF] at hF
    split at hF
    case h_2 => cases hF
    rename_i c1 r1 h2
    obtain ⟨g1, g2⟩ := op_flag h1 h2
    rw [← g1, ← g2] at hF
    exact ops_flag h hF
theorem opsOn_flag {vals : List PVal} {f : CtxFlag} {c : Bool} {r : Option Bool} {ops : List Op} {q : Option Saved × BState} (h : opsOn vals ops s = .ok q)
    (hF : opsF f (vals.map (PVal.flag f)) ops (s.context.get f) none = some (c, r)) : q.2.context.get f = c ∧ q.1.bind (Saved.get f) = r := by
  unfold opsOn at h
  obtain ⟨⟨b, reg⟩, h1, h⟩ := run_bind_ok h
  cases h
  have := ops_flag (f := f) (c := c) (r := r) h1
  rw [show (vals.map fun v => (⟨.Token, v.saved⟩ : Val)) = runVals vals from rfl, runVals_flag] at this
  exact this hF

/-- What an action does: the expression is evaluated under the flag before or after its operations. -/
theorem perform_flag {act : Act} {o : ValOut} {vals : List PVal} {c : Bool} {r : Option Bool} {q : PVal × BState}
    (h : perform ext dedent act o vals s = .ok q) (hF : opsF .inDef (vals.map (PVal.flag .inDef)) act.ops (s.context.get .inDef) none = some (c, r)) :
    (Guard.notInDef ∈ (extra act.line).guards → s.context.get .inDef = false) ∧ q.2.context.get .inDef = c ∧
    q.1.flag .inDef = outF (vals.map (PVal.flag .inDef)) r act.outs.head? ∧
    ∃ s1 s2, o.parse ext dedent (vals.map (·.atoms)) s1 = .ok (q.1.atoms, s2) ∧
      s1.context.get .inDef = if (extra act.line).opsLast then s.context.get .inDef else c := by
  unfold perform at h
  obtain ⟨s1, g1, h⟩ := run_bind_ok h
  obtain ⟨k1, k2⟩ := guards_ctx g1
  refine ⟨k2, ?_⟩
  split at h
  · cases h
  · obtain ⟨s2, g2, h⟩ := run_bind_ok h
    have k3 : CtxStill s s2 := Frame.trans k1 (writes_ctx g2)
    rw [← k3] at hF
    split at h
    · rename_i hl
      obtain ⟨p, h1, h⟩ := run_bind_ok h
      obtain ⟨p', h2, h⟩ := run_bind_ok h
      cases h
      have k4 : CtxStill s2 p.2 := out_ctx h1
      rw [← k4] at hF
      obtain ⟨f1, f2⟩ := opsOn_flag h2 hF
      exact ⟨f1, savedOf_flag f2, s2, p.2, h1, by rw [if_pos hl, k3]⟩
    · rename_i hl
      obtain ⟨p, h1, h⟩ := run_bind_ok h
      obtain ⟨p', h2, h⟩ := run_bind_ok h
      cases h
      obtain ⟨f1, f2⟩ := opsOn_flag h1 hF
      have k4 : CtxStill p.2 p'.2 := out_ctx h2
      exact ⟨by rw [← f1]; exact congrArg (fun x => x.get .inDef) k4, savedOf_flag f2, p.2, p'.2, h2, by rw [if_neg hl, f1]⟩

/-! ### Expressions -/

/-- All parts of a value are of a level. -/
def ValIs (l : Lvl) (v : List Atom) : Prop := ∀ a ∈ v, LvlOk l a

section
variable {V : List (List Atom)} {L : List Lvl} {c : Bool}
theorem forall₂_at {R : α → β → Prop} {as : List α} {bs : List β} (h : List.Forall₂ R as bs) {i : Nat} {x : α} {y : β} (h1 : as[i]? = some x) (h2 : bs[i]? = some y) :
    R x y := by
  induction h generalizing i with
  | nil => simp at h1
  | cons h' _ ih =>
    cases i with
    | zero => simp only [List.getElem?_cons_zero, Option.some.injEq] at h1 h2; subst h1 h2; exact h'
    | succ i => exact ih (by simpa using h1) (by simpa using h2)
mutual
theorem ex_lvl (hV : List.Forall₂ ValIs L V) : ∀ {e : Ex} {l : Lvl} {s s' : BState} {a : Atom}, e.lvl c L = some l →
    e.parse ext dedent V s = .ok (a, s') → s.context.get .inDef = c → LvlOk l a
  | .fld n i, l, s, s', a, hl, h, _ => by
    rw [Ex.parse] at h
    rw [Ex.lvl] at hl
    split at h
    · rename_i b hb
      cases h
      cases hv : V[n - 1]? with
      | none => rw [hv] at hb; cases hb
      | some v =>
        rw [hv] at hb
        exact forall₂_at hV hl hv a (List.mem_of_getElem? hb)
    · cases h
  | .call f es, l, s, s', a, hl, h, hc => by
    rw [Ex.parse] at h
    obtain ⟨⟨xs, s1⟩, h1, h2⟩ := run_bind_ok h
    have h2 := runB_ok h2
    rw [Ex.lvl] at hl
    split at hl
    case h_2 => cases hl
    rename_i ls hls
    have hk : CtxStill s s1 := exs_ctx h1
    exact fn_lvl ⟨exs_lvl hV hls h1 hc, by rw [hk]; exact hc⟩ hl h2
theorem exs_lvl (hV : List.Forall₂ ValIs L V) : ∀ {es : List Ex} {ls : List Lvl} {s s' : BState} {xs : List Atom}, exLvl c L es = some ls →
    exParse ext dedent V es s = .ok (xs, s') → s.context.get .inDef = c → List.Forall₂ LvlOk ls xs
  | [], ls, s, s', xs, hl, h, _ => by
    rw [exParse] at h
    rw [exLvl] at hl
    cases h
    cases hl
    exact .nil
  | e :: es, ls, s, s', xs, hl, h, hc => by
    rw [exParse] at h
    obtain ⟨⟨x, s1⟩, h1, h⟩ := run_bind_ok h
    obtain ⟨⟨xs', s2⟩, h2, h⟩ := run_bind_ok h
    cases h
    rw [exLvl] at hl
    split at hl
    case h_2 => cases hl
    rename_i l ls' hl1 hl2
    cases hl
    have hk : CtxStill s s1 := ex_ctx h1
    exact .cons (ex_lvl hV hl1 h1 hc) (exs_lvl hV hl2 h2 (by rw [hk]; exact hc))
end

/-- What a value is like when its production starts in a method (`b`) or not. -/
def Kept (b : Bool) (v : List Atom) : Prop := ∀ a ∈ v, ¬ Some_ Breaks a.trees ∧ (b = true → ¬ Some_ Holds a.trees)

theorem out_lvl {b : Bool} {o : ValOut} {v : List Atom} (hV : List.Forall₂ ValIs L V) (hl : o.lvlOk b c L = true)
    (h : o.parse ext dedent V s = .ok (v, s')) (hc : s.context.get .inDef = c) : Kept b v := by
  cases o with
  | copy n =>
    rw [ValOut.parse] at h
    rw [ValOut.lvlOk] at hl
    split at h
    case h_2 => cases h
    rename_i hw
    cases h
    intro a ha
    have : ∃ l, L[n - 1]? = some l ∧ ValIs l v := by
      have hlen := hV.length_eq
      have := List.getElem?_eq_some_iff.mp hw
      obtain ⟨hi, -⟩ := this
      have hi : n - 1 < L.length := by omega
      exact ⟨L[n - 1], List.getElem?_eq_getElem hi, forall₂_at hV (List.getElem?_eq_getElem hi) hw⟩
    obtain ⟨l, h1, h2⟩ := this
    refine ⟨(h2 a ha).1, fun hb => ?_⟩
    subst hb
    rw [h1] at hl
    exact lvlOk_clean (h2 a ha) (by simpa using hl)
  | mk es =>
    rw [ValOut.lvlOk] at hl
    split at hl
    case h_2 => cases hl
    rename_i ls hls
    have hx := exs_lvl hV hls h hc
    intro a ha
    obtain ⟨i, hi⟩ := List.mem_iff_getElem?.mp ha
    obtain ⟨l, h1, h2⟩ := lvl_at hx hi
    refine ⟨h2.1, fun hb => ?_⟩
    subst hb
    simp only [Bool.not_true, Bool.false_or, List.all_eq_true] at hl
    exact lvlOk_clean h2 (hl l (List.mem_of_getElem? h1))
end

/-! ### Productions -/

theorem checkM_mid {o : ValOut} {b : Bool} {goal : List (Bool × Bool × Option Bool)} {act : Act} {i : Item} {is : List Item} {c : Bool}
    {vs : List (Option Bool)} {V : List Lvl} : checkM o b goal (.a act :: i :: is) c vs V = (act.fails || (match opsF .inDef vs act.ops c none with
      | some (c', reg) => checkM o b goal (i :: is) c' (stealF vs act.uses ++ [outF vs reg act.outs.head?]) (V ++ [.clean])
      | none => false)) := by
  rw [checkM]
  · rfl
  · intro h; cases h

/-- What is known of the tree for a symbol. -/
def KidM (ext : BldExt) (dedent : List Atom → Int) (t : TTree) : Prop :=
  match t.shape.root with
  | none => False
  | some (.t _) => ∃ tok, t = .leaf tok
  | some (.n y) => ∀ s q, t.parse ext dedent s = .ok q →
      (s.context.get .inDef, q.2.context.get .inDef, q.1.flag .inDef) ∈ rel .inDef y ∧ Kept (s.context.get .inDef) q.1.atoms

theorem forall₂_snoc {R : α → β → Prop} {as : List α} {bs : List β} {x : α} {y : β} (h : List.Forall₂ R as bs) (hx : R x y) :
    List.Forall₂ R (as ++ [x]) (bs ++ [y]) := by
  induction h with
  | nil => exact .cons hx .nil
  | cons h' _ ih => exact .cons h' ih

theorem items_method {o : ValOut} {b : Bool} {goal : List (Bool × Bool × Option Bool)} : ∀ (is : List Item) (ks : List TTree),
    (syms is).map (·.map some) = some (rootsL (shapeL ks)) → (∀ t ∈ ks, KidM ext dedent t) → ∀ (vals : List PVal) (L : List Lvl) (s : BState) (q : PVal × BState),
    checkM o b goal is (s.context.get .inDef) (vals.map (PVal.flag .inDef)) L = true → List.Forall₂ ValIs L (vals.map (·.atoms)) →
    parseItems ext dedent o is (parseL ext dedent ks) vals s = .ok q →
    (b, q.2.context.get .inDef, q.1.flag .inDef) ∈ goal ∧ Kept b q.1.atoms
  | [], ks, _, _, vals, L, s, q, hc, _, _ => by rw [checkM] at hc; cases hc
  | .err :: _, ks, h, _, vals, L, s, q, hc, _, _ => by simp [syms] at h
  | [.a act], ks, h, _, vals, L, s, q, hc, hV, hv => by
    obtain rfl : ks = [] := by
      cases ks with
      | nil => rfl
      | cons => simp [syms, shapeL, rootsL] at h
    rw [parseL, parseItems] at hv
    obtain ⟨h1, -⟩ := perform_gives hv
    rw [checkM, h1, Bool.false_or, Bool.or_eq_true] at hc
    have key : ∀ {c r}, opsF .inDef (vals.map (PVal.flag .inDef)) act.ops (s.context.get .inDef) none = some (c, r) → _ :=
      fun {c r} hF => perform_flag hv hF
    rcases hc with hc | hc
    · rw [Bool.and_eq_true, List.contains_iff_mem] at hc
      -- the action is not performed in a method
      exfalso
      unfold perform at hv
      obtain ⟨s1, g1, -⟩ := run_bind_ok hv
      rw [(guards_ctx g1).2 hc.1] at hc
      exact absurd hc.2 (by simp)
    · split at hc
      case h_2 => cases hc
      rename_i c r hF
      obtain ⟨-, k1, k2, s1, s2, k3, k4⟩ := key hF
      rw [Bool.and_eq_true, List.contains_iff_mem] at hc
      rw [k1, k2]
      exact ⟨hc.1, out_lvl hV hc.2 k3 k4⟩
  | .a act :: i :: is, ks, h, hk, vals, L, s, q, hc, hV, hv => by
    rw [parseItems_mid] at hv
    obtain ⟨p, h1, hv⟩ := run_bind_ok hv
    obtain ⟨h2, h3⟩ := perform_gives h1
    rw [ValOut.Gives, exGives] at h3
    rw [checkM_mid, h2, Bool.false_or] at hc
    split at hc
    case h_2 => cases hc
    rename_i c r hF
    obtain ⟨-, k1, k2, -⟩ := perform_flag h1 hF
    refine items_method (i :: is) ks (by simpa [syms] using h) hk _ (L ++ [.clean]) _ _ ?_ ?_ hv
    · rw [List.map_append, takeSaved_flag, List.map_cons, List.map_nil, k1, k2]; exact hc
    · rw [List.map_append, takeSaved_atoms, List.map_cons, List.map_nil, h3]
      exact forall₂_snoc hV fun a ha => absurd ha (by simp)
  | .t tok :: is, ks, h, hk, vals, L, s, q, hc, hV, hv => by
    cases ks with
    | nil => simp [syms, shapeL, rootsL] at h
    | cons k ks =>
      simp only [syms, Option.map_map, shapeL, rootsL, Option.map_eq_some_iff] at h
      obtain ⟨a, ha1, ha2⟩ := h
      simp only [Function.comp, List.map_cons, List.cons.injEq] at ha2
      have hk1 := hk k (by simp)
      unfold KidM at hk1
      rw [← ha2.1] at hk1
      obtain ⟨tk, rfl⟩ := hk1
      rw [parseL, TTree.parse, parseItems] at hv
      change parseItems ext dedent o is (parseL ext dedent ks) (vals ++ [⟨[.tok tk], none⟩]) s = .ok q at hv
      rw [checkM] at hc
      refine items_method is ks (by simp [ha1, ha2.2]) (fun t ht => hk t (by simp [ht])) _ (L ++ [.clean]) _ _ ?_ ?_ hv
      · rw [List.map_append]; exact hc
      · rw [List.map_append]
        refine forall₂_snoc hV fun a ha => ?_
        obtain rfl : a = .tok tk := by simpa using ha
        exact ⟨by simp [Atom.trees], by simp [LvlIs, Atom.trees]⟩
  | .n y :: is, ks, h, hk, vals, L, s, q, hc, hV, hv => by
    cases ks with
    | nil => simp [syms, shapeL, rootsL] at h
    | cons k ks =>
      simp only [syms, Option.map_map, shapeL, rootsL, Option.map_eq_some_iff] at h
      obtain ⟨a, ha1, ha2⟩ := h
      simp only [Function.comp, List.map_cons, List.cons.injEq] at ha2
      have hk1 := hk k (by simp)
      unfold KidM at hk1
      rw [← ha2.1] at hk1
      rw [parseL, parseItems] at hv
      obtain ⟨p, h1, hv⟩ := run_bind_ok hv
      obtain ⟨g1, g2⟩ := hk1 _ _ h1
      rw [checkM] at hc
      have hc := List.all_eq_true.mp hc _ g1
      simp only [bne_self_eq_false, Bool.false_or] at hc
      refine items_method is ks (by simp [ha1, ha2.2]) (fun t ht => hk t (by simp [ht])) _ _ _ _ (by rw [List.map_append]; exact hc) ?_ hv
      rw [List.map_append]
      refine forall₂_snoc hV fun a ha => ⟨(g2 a ha).1, lvlIs_cleanIf (g2 a ha).2⟩

/-! ### The whole table -/

/-- Every production of the grammar passes. -/
theorem rules_method : ((rules.zip outs).all fun p => [true, false].all fun b => checkM p.2.2 b (rel .inDef p.1.lhs) p.1.rhs b [] []) = true := by
  decide +kernel

mutual
theorem parse_method : ∀ (t : TTree), t.shape.wf = true → KidM ext dedent t
  | .leaf tok, _ => ⟨tok, rfl⟩
  | .node r kids, hw => by
    have hk := parseL_method kids
    rw [TTree.shape, Tree.wf] at hw
    unfold KidM
    rw [TTree.shape, Tree.root]
    split at hw
    · simp at hw
    · rename_i ρ hρ
      rw [Bool.and_eq_true, decide_eq_true_iff] at hw
      simp only [hρ, Option.map_some]
      intro s q hq
      obtain ⟨o, ho⟩ := outs_some hρ
      have hch := List.all_eq_true.mp (List.all_eq_true.mp rules_method _ (rule_mem hρ ho)) (s.context.get .inDef) (by cases s.context.get .inDef <;> simp)
      rw [TTree.parse] at hq
      simp only [hρ, ho] at hq
      exact items_method _ kids hw.1 (hk hw.2) [] [] s q hch .nil hq
theorem parseL_method : ∀ (ts : List TTree), wfL (shapeL ts) = true → ∀ t ∈ ts, KidM ext dedent t
  | [], _, t, h => by simp at h
  | t :: ts, hw, t', ht' => by
    rw [shapeL] at hw
    have h1 := parse_method t (wfL_cons hw).1
    have h2 := parseL_method ts (wfL_cons hw).2
    rcases List.mem_cons.mp ht' with rfl | ht'
    · exact h1
    · exact h2 t' ht'
end

end Verif
