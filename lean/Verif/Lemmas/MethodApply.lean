import Verif.Lemmas.MethodFn
import Verif.Lemmas.MethodCheck
import Verif.Lemmas.ScopeEx
/-!
The levels of the checker are right for each function of the builder.
-/
set_option linter.unusedSimpArgs false
namespace Verif
open Builder Grammar MethodSpec

variable {ext : BldExt} {dedent : List Atom → Int} {indent : Int} {xs : List Atom} {ls : List Lvl} {s s' : BState} {a : Atom}

/-- What a level says of a part. -/
def LvlIs (a : Atom) : Lvl → Prop
  | .clean => ¬ Some_ Holds a.trees
  | .qualified => ¬ Some_ Holds a.trees ∧ ∃ sc n c l x, a = .node (.Const (some sc) n c l x)
  | .target => ∃ sc n c l x, a = .node (.Casgn (some sc) n none c l none x) ∧ ¬ Holds sc
  | .dirty => True
/-- And no method breaks the rule. -/
def LvlOk (l : Lvl) (a : Atom) : Prop := ¬ Some_ Breaks a.trees ∧ LvlIs a l

theorem lvlOk_clean {l : Lvl} (h : LvlOk l a) (hl : l.ok = true) : ¬ Some_ Holds a.trees := by
  cases l with
  | clean => exact h.2
  | qualified => exact h.2.1
  | _ => cases hl
theorem lvls_clean (h : List.Forall₂ LvlOk ls xs) (hl : ls.all Lvl.ok = true) : ¬ Some_ Holds (treesOf xs) := by
  induction h with
  | nil => simp [treesOf]
  | cons h1 _ ih =>
    simp only [List.all_cons, Bool.and_eq_true] at hl
    simp only [treesOf, List.flatMap_cons, some_append, not_or]
    exact ⟨lvlOk_clean h1 hl.1, ih hl.2⟩
theorem lvls_keep (h : List.Forall₂ LvlOk ls xs) : ¬ Some_ Breaks (treesOf xs) := by
  induction h with
  | nil => simp [treesOf]
  | cons h1 _ ih =>
    simp only [treesOf, List.flatMap_cons, some_append, not_or]
    exact ⟨h1.1, ih⟩

/-- What is known when a function of the builder returned. -/
structure Built (c : Bool) (xs : List Atom) (ls : List Lvl) (s : BState) : Prop where
  args : List.Forall₂ LvlOk ls xs
  flag : s.context.get .inDef = c

theorem lvlIs_cleanIf {b : Bool} (h : b = true → ¬ Some_ Holds a.trees) : LvlIs a (cleanIf b) := by
  unfold cleanIf
  split
  · rename_i hb; exact h hb
  · trivial

theorem outB_ok {m : BldR α} {c : α → Atom} (h : (outB c m).run s = .ok (.ok a, s')) : ∃ n, m.run s = .ok (.ok n, s') ∧ a = c n := by
  obtain ⟨n, s1, h1, h2⟩ := BldR.bind_ok h
  cases h2
  exact ⟨n, h1, rfl⟩

theorem assignable_out {n m : Node} (h : (assignable n).run s = .ok (.ok m, s')) :
    (Breaks m → Breaks n) ∧ (s.context.get .inDef = true → Holds m → Holds n) := by
  have key : BldR.Yields (assignable n) fun m => (∃ a b c d e, n = .Const a b c d e ∧ ∃ f g h, m = .Casgn a b none f g none h) ∨
      ((Breaks m → Breaks n) ∧ (Holds m → Holds n)) := by
    unfold assignable
    split
    all_goals first
      | (skips; done)
      | exact BldR.safe_pure (.inr ⟨by monos breaks_mono; exact id, by monos holds_mono; exact id⟩)
      | exact BldR.safe_pure (.inr ⟨by adds breaks_mono.add; exact id, by adds holds_mono.add; exact id⟩)
      | skip
    · skips
      exact BldR.safe_pure (.inl ⟨_, _, _, _, _, rfl, _, _, _, rfl⟩)
    · skips
      exact BldR.safe_pure (.inr ⟨by monos breaks_mono; exact id, by monos holds_mono; exact id⟩)
    · skips
      exact BldR.safe_pure (.inr ⟨id, id⟩)
  rcases BldR.yields_iff.mp key s m s' h with ⟨a, b, c, d, e, rfl, f, g, k, rfl⟩ | hk
  · refine ⟨fun hb => ?_, fun hd _ => ?_⟩
    · rw [breaks_iff] at hb ⊢
      simpa [MethodSpec.method, Node.children] using hb
    · unfold assignable at h
      obtain ⟨s1, s2, e1, h⟩ := BldR.bind_ok h
      cases e1
      rw [if_pos hd] at h
      obtain ⟨s1, s2, e1, h⟩ := BldR.bind_ok h
      cases h
  · exact ⟨hk.1, fun _ => hk.2⟩

theorem const_lvl {f : BFn} (hf : f = .constFetch ∨ f = .constGlobal) :
    BldR.Yields (applyFn ext indent f xs) fun a => ∃ sc n c l x, a = .node (.Const (some sc) n c l x) := by
  rcases hf with rfl | rfl
  · dsimp only [applyFn, withNTT]
    split <;> try exact illTyped_yields
    refine outR_yields ?_
    unfold constFetch
    skip1
    exact Res.safe_pure ⟨_, _, _, _, _, rfl⟩
  · dsimp only [applyFn, withTT]
    split <;> try exact illTyped_yields
    refine outR_yields ?_
    unfold constGlobal
    dsimp only
    skip1
    exact Res.safe_pure ⟨_, _, _, _, _, rfl⟩

theorem constOp_lvl : BldR.Yields (applyFn ext indent .constOpAssignable xs) fun a => ∃ sc n c l x,
    xs = [.node (.Const sc n c l x)] ∧ a = .node (.Casgn sc n none c l none x) := by
  dsimp only [applyFn, withN]
  split <;> try exact illTyped_yields
  refine outR_yields ?_
  unfold constOpAssignable
  split
  · exact Res.safe_ok ⟨_, _, _, _, _, rfl, rfl⟩
  · skip1

theorem opAssign_lvl {sc : Node} (h : ¬ Holds sc) : BldR.Yields (opAssign (.Casgn (some sc) n v c l d x) t r) fun m => Holds m → Holds r := by
  have key : ∀ {m : Node}, forbidden m = false → parts m = [sc, r] → Holds m → Holds r := fun h1 h2 g => by
    rw [holds_iff, h1, h2] at g
    simp only [Bool.false_eq_true, some_cons, some_nil, or_false, false_or] at g
    exact g.resolve_left h
  unfold opAssign
  skip1
  dsimp only
  refine BldR.safe_bind (P := fun m => m = .Casgn (some sc) n v c l d x) (BldR.safe_pure rfl) fun m hm => ?_
  subst hm
  split
  · exact BldR.safe_pure (key rfl rfl)
  · split
    · exact BldR.safe_pure (key rfl rfl)
    · exact BldR.safe_pure (key rfl rfl)

theorem def_holds {n a b d e f g h} : Holds (.Def n a b d e f g h) ↔ Some_ Holds a.toList ∨ Some_ Holds b.toList := by
  rw [holds_iff]; simp [forbidden, parts, Node.children]
theorem def_breaks {n a b d e f g h} : Breaks (.Def n a b d e f g h) ↔ (Some_ Holds a.toList ∨ Some_ Holds b.toList) ∨ Some_ Breaks a.toList ∨ Some_ Breaks b.toList := by
  rw [breaks_iff]; simp [MethodSpec.method, Node.children]
theorem defs_holds {r n a b d e f g h i} : Holds (.Defs r n a b d e f g h i) ↔ Holds r ∨ Some_ Holds a.toList ∨ Some_ Holds b.toList := by
  rw [holds_iff]; simp [forbidden, parts, Node.children]
theorem defs_breaks {r n a b d e f g h i} : Breaks (.Defs r n a b d e f g h i) ↔
    (Some_ Holds a.toList ∨ Some_ Holds b.toList) ∨ Breaks r ∨ Some_ Breaks a.toList ∨ Some_ Breaks b.toList := by
  rw [breaks_iff]; simp [MethodSpec.method, Node.children]

/-- The result of a definition of a method. -/
def DefMade (xs : List Atom) (i j : Nat) (a : Atom) : Prop := ∃ p q, xs[i]? = some p ∧ xs[j]? = some q ∧
  (Some_ Holds a.trees → Some_ Holds (treesOf xs)) ∧ (Some_ Breaks a.trees → (Some_ Holds p.trees ∨ Some_ Holds q.trees) ∨ Some_ Breaks (treesOf xs))

theorem def_made {f : BFn} (hf : methodArgs f = [i, j]) : BldR.Yields (applyFn ext indent f xs) (DefMade xs i j) := by
  cases f <;> simp only [methodArgs, List.cons.injEq, and_true, reduceCtorEq] at hf <;> obtain ⟨rfl, rfl⟩ := hf
  case defMethod =>
    dsimp only [applyFn, withTTPPT]
    split <;> try exact illTyped_yields
    refine outB_yields ?_
    unfold defMethod
    skips
    refine BldR.safe_pure ⟨_, _, rfl, rfl, ?_, ?_⟩ <;> simp only [Atom.trees, some_cons, some_nil, or_false]
    · rw [def_holds]; flat; exact id
    · rw [def_breaks]; flat; exact id
  case defEndless =>
    dsimp only [applyFn, withTTPTP]
    split <;> try exact illTyped_yields
    refine outB_yields ?_
    unfold defEndlessMethod
    split
    · skips
    skips
    refine BldR.safe_pure ⟨_, _, rfl, rfl, ?_, ?_⟩ <;> simp only [Atom.trees, some_cons, some_nil, or_false]
    · rw [def_holds]; flat; exact id
    · rw [def_breaks]; flat; exact id
  case defSingleton =>
    dsimp only [applyFn, withTNTTPPT]
    split <;> try exact illTyped_yields
    refine outB_yields ?_
    unfold defSingleton
    skips
    refine BldR.safe_pure ⟨_, _, rfl, rfl, ?_, ?_⟩ <;> simp only [Atom.trees, some_cons, some_nil, or_false]
    · rw [defs_holds]; flat; exact id
    · rw [defs_breaks]; flat; exact id
  case defEndlessSingleton =>
    dsimp only [applyFn, withTNTTPTP]
    split <;> try exact illTyped_yields
    refine outB_yields ?_
    unfold Builder.defEndlessSingleton
    split
    · skips
    skips
    refine BldR.safe_pure ⟨_, _, rfl, rfl, ?_, ?_⟩ <;> simp only [Atom.trees, some_cons, some_nil, or_false]
    · rw [defs_holds]; flat; exact id
    · rw [defs_breaks]; flat; exact id

theorem class_made {f : BFn} (hf : f = .defClass ∨ f = .defModule) : BldR.Yields (applyFn ext indent f xs) (From Breaks xs) := by
  rcases hf with rfl | rfl
  · dsimp only [applyFn, withTNOPPT]
    split <;> try exact illTyped_yields
    refine outp_yields (from_node ?_)
    unfold defClass
    rw [breaks_iff]
    simp only [MethodSpec.method, Node.children]
    flat
    exact id
  · dsimp only [applyFn, withTNPT]
    split <;> try exact illTyped_yields
    refine outp_yields (from_node ?_)
    unfold defModule
    rw [breaks_iff]
    simp only [MethodSpec.method, Node.children]
    flat
    exact id
theorem sclass_made : BldR.Yields (applyFn ext indent .defSclass xs) fun a => From Breaks xs a ∧
    ∃ e, xs[2]? = some e ∧ (Some_ Holds a.trees → Some_ Holds e.trees) := by
  dsimp only [applyFn, withTTNPT]
  split <;> try exact illTyped_yields
  refine outp_yields ⟨from_node ?_, _, rfl, ?_⟩
  · unfold defSclass
    rw [breaks_iff]
    simp only [MethodSpec.method, Node.children]
    flat
    exact id
  · unfold defSclass
    simp only [Atom.trees, some_cons, some_nil, or_false]
    rw [holds_iff]
    simp [forbidden, parts]

theorem lvl_at {i : Nat} (h : List.Forall₂ LvlOk ls xs) (ha : xs[i]? = some a) : ∃ l, ls[i]? = some l ∧ LvlOk l a := by
  induction h generalizing i with
  | nil => simp at ha
  | cons h1 _ ih =>
    cases i with
    | zero => simp only [List.getElem?_cons_zero, Option.some.injEq] at ha ⊢; subst ha; exact ⟨_, rfl, h1⟩
    | succ i => simp only [List.getElem?_cons_succ] at ha ⊢; exact ih ha

theorem fn_lvl {c : Bool} {f : BFn} {l : Lvl} (h : Built c xs ls s) (hl : fnLvl c f ls = some l)
    (hr : (applyFn ext indent f xs).run s = .ok (.ok a, s')) : LvlOk l a := by
  have hB := lvls_keep h.args
  have hC := lvls_clean h.args
  have plain : criticalFn f = false → ¬ Some_ Breaks a.trees ∧ (ls.all Lvl.ok = true → ¬ Some_ Holds a.trees) := fun hc =>
    ⟨fun g => hB (BldR.yields_iff.mp (fn_mono breaks_mono hc) _ _ _ hr g),
      fun hl g => hC hl (BldR.yields_iff.mp (fn_mono holds_mono hc) _ _ _ hr g)⟩
  have defs : ∀ i j, methodArgs f = [i, j] → fnLvl c f ls = some l → ¬ Some_ Breaks a.trees ∧ (ls.all Lvl.ok = true → ¬ Some_ Holds a.trees) := by
    intro i j hm hl
    obtain ⟨p, q, h1, h2, h3, h4⟩ := BldR.yields_iff.mp (def_made hm) _ _ _ hr
    refine ⟨fun g => ?_, fun hl g => hC hl (h3 g)⟩
    unfold fnLvl at hl
    split at hl
    case isFalse => cases hl
    rename_i ha
    rw [hm] at ha
    simp only [List.all_cons, List.all_nil, Bool.and_true, Bool.and_eq_true] at ha
    obtain ⟨lp, g1, g2⟩ := lvl_at h.args h1
    obtain ⟨lq, g3, g4⟩ := lvl_at h.args h2
    rw [g1, g3] at ha
    rcases h4 g with (g | g) | g
    · exact lvlOk_clean g2 ha.1 g
    · exact lvlOk_clean g4 ha.2 g
    · exact hB g
  have hl0 := hl
  unfold fnLvl at hl
  split at hl
  case isFalse => cases hl
  rw [Option.some.injEq] at hl
  subst hl
  cases f
  case constFetch =>
    obtain ⟨h1, h2⟩ := plain rfl
    refine ⟨h1, ?_⟩
    dsimp only
    split
    · exact ⟨h2 (by assumption), BldR.yields_iff.mp (const_lvl (.inl rfl)) _ _ _ hr⟩
    · trivial
  case constGlobal =>
    obtain ⟨h1, h2⟩ := plain rfl
    refine ⟨h1, ?_⟩
    dsimp only
    split
    · exact ⟨h2 (by assumption), BldR.yields_iff.mp (const_lvl (.inr rfl)) _ _ _ hr⟩
    · trivial
  case constOpAssignable =>
    obtain ⟨sc, n, c, l, x, rfl, rfl⟩ := BldR.yields_iff.mp constOp_lvl _ _ _ hr
    constructor
    · intro g
      refine hB ?_
      simp only [treesOf, Atom.trees, List.flatMap_cons, List.flatMap_nil, List.append_nil, some_cons, some_nil, or_false] at g ⊢
      rw [breaks_iff] at g ⊢
      simpa [MethodSpec.method, Node.children] using g
    · dsimp only
      split
      · rename_i hls
        subst hls
        obtain ⟨⟨-, h1, sc', n', c', l', x', h2⟩, -⟩ := List.forall₂_cons.mp h.args
        cases h2
        refine ⟨sc', _, _, _, _, rfl, fun g => h1 ?_⟩
        simp only [Atom.trees, some_cons, some_nil, or_false]
        exact .part (by simp [parts, Node.children]) g
      · trivial
  case opAssign =>
    obtain ⟨h1, h2⟩ := plain rfl
    refine ⟨h1, lvlIs_cleanIf fun hb => ?_⟩
    simp only [Bool.or_eq_true, Bool.and_eq_true, beq_iff_eq] at hb
    rcases hb with ⟨hb, hb'⟩ | hb
    · dsimp only [applyFn, withNTN] at hr
      split at hr
      case h_2 => cases hr
      obtain ⟨m, hm, rfl⟩ := outB_ok hr
      obtain ⟨hargs, -⟩ := h
      cases hargs with | cons k1 k2 =>
      simp only [List.getElem?_cons_zero, Option.some.injEq] at hb
      subst hb
      obtain ⟨-, sc, n, c, l, x, k3, k4⟩ := k1
      cases k3
      intro g
      simp only [Atom.trees, some_cons, some_nil, or_false] at g
      have g := BldR.yields_iff.mp (opAssign_lvl k4) _ _ _ hm g
      refine lvls_clean k2 hb' ?_
      simpa [treesOf, Atom.trees] using g
    · exact h2 hb
  case assignable =>
    dsimp only [applyFn, withN] at hr
    split at hr
    case h_2 => cases hr
    obtain ⟨m, hm, rfl⟩ := outB_ok hr
    obtain ⟨h1, h2⟩ := assignable_out hm
    simp only [treesOf, Atom.trees, List.flatMap_cons, List.flatMap_nil, List.append_nil, some_cons, some_nil, or_false] at hB hC
    refine ⟨fun g => hB (h1 (by simpa [Atom.trees] using g)), lvlIs_cleanIf fun hb g => ?_⟩
    rw [Bool.and_eq_true] at hb
    exact hC hb.2 (h2 (by rw [h.flag, hb.1]) (by simpa [Atom.trees] using g))
  case defClass => exact ⟨fun g => hB (BldR.yields_iff.mp (class_made (.inl rfl)) _ _ _ hr g), trivial⟩
  case defModule => exact ⟨fun g => hB (BldR.yields_iff.mp (class_made (.inr rfl)) _ _ _ hr g), trivial⟩
  case defSclass =>
    obtain ⟨h1, e, h2, h3⟩ := BldR.yields_iff.mp sclass_made _ _ _ hr
    refine ⟨fun g => hB (h1 g), lvlIs_cleanIf fun hb g => ?_⟩
    obtain ⟨l, g1, g2⟩ := lvl_at h.args h2
    rw [g1] at hb
    obtain rfl : l = .clean := by simpa using hb
    exact g2.2 (h3 g)
  case defMethod => exact ⟨(defs _ _ rfl hl0).1, lvlIs_cleanIf (defs _ _ rfl hl0).2⟩
  case defSingleton => exact ⟨(defs _ _ rfl hl0).1, lvlIs_cleanIf (defs _ _ rfl hl0).2⟩
  case defEndless => exact ⟨(defs _ _ rfl hl0).1, lvlIs_cleanIf (defs _ _ rfl hl0).2⟩
  case defEndlessSingleton => exact ⟨(defs _ _ rfl hl0).1, lvlIs_cleanIf (defs _ _ rfl hl0).2⟩
  all_goals exact ⟨(plain rfl).1, lvlIs_cleanIf (plain rfl).2⟩

end Verif
