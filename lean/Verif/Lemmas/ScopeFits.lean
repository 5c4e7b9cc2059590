import Verif.Lemmas.ShapeTable
import Verif.Lemmas.ScopeSpecial
/-!
Where a block is attached without loss, and where `ensure` has a body.
-/
namespace Verif
open Builder Grammar

/-! ### Kinds -/

/-- The kinds of jumps. -/
def jumpKinds : List NKind := [.Return, .ReturnC, .Break, .BreakC, .Next, .NextC]

theorem fits_of_kind {m : Kinds} (hm : jumpKinds.all (fun k => !m.testBit k.ctorIdx) = true) {n : Node} (h : Has m n) : fitsNode n := by
  have no : ∀ k ∈ jumpKinds, n.kind ≠ k := by
    intro k hk e
    have := List.all_eq_true.mp hm k hk
    rw [Has, e] at h
    rw [h] at this
    cases this
  cases n <;> first | trivial | skip
  all_goals
    exfalso
    simp only [Node.kind] at no
    split at no
    all_goals exact no _ (by simp [jumpKinds]) rfl

theorem fits_hasL {m : Kinds} (hm : jumpKinds.all (fun k => !m.testBit k.ctorIdx) = true) {vs : List Atom} (h : HasL [.node m] vs) :
    ∀ a ∈ vs, fitsAtom a := by
  rcases vs with - | ⟨y, - | ⟨z, zs⟩⟩
  · simp
  · intro a ha n hn
    rw [List.mem_singleton] at ha
    subst ha hn
    exact fits_of_kind hm h.1.1
  · exact h.2.elim

theorem fits_method {ext : BldExt} {t : TTree} (hf : Verif.Fine ext t) (hr : t.shape.root = some (.n NT.method_call)) {vs : List Atom}
    (he : Evals ext t vs) : ∀ a ∈ vs, fitsAtom a := by
  have h := hf vs he
  rw [hr] at h
  exact fits_hasL (m := Shape.sendsK ||| ks [.Index, .Super, .ZSuper]) (by decide +kernel) h

/-! ### Values -/

/-- A jump. -/
def jumpOut : ValOut → Bool
  | .mk [.call (.keyword k) [.fld _ _, .fld n i]] => (k = .Return || k = .Break || k = .Next) && n == 2 && i == 0
  | _ => false
/-- A list of one. -/
def loneOut : ValOut → Bool
  | .mk [.call .single [_]] => true
  | _ => false
/-- Nothing, or a keyword and something. -/
def ensureOut : ValOut → Bool
  | .mk [.call .noneT _, .call .noneN _] => true
  | .mk (.call .someT _ :: _) => true
  | _ => false

theorem outs_checked : (rules.zip outs).all (fun p => p.1.rhs.any Item.refuses ||
    (!p.1.jumpCommand || jumpOut p.2.2) && (!p.1.loneCommand || loneOut p.2.2) && (!(p.1.lhs == NT.opt_ensure) || ensureOut p.2.2)) = true := by
  decide +kernel

theorem out_checked {r : Nat} {ρ : Rule} {o : Nat × ValOut} (h1 : rules[r]? = some ρ) (h2 : outs[r]? = some o) (h3 : ρ.rhs.all (fun i => !i.refuses) = true) :
    (ρ.jumpCommand = true → jumpOut o.2 = true) ∧ (ρ.loneCommand = true → loneOut o.2 = true) ∧ (ρ.lhs = NT.opt_ensure → ensureOut o.2 = true) := by
  have := List.all_eq_true.mp outs_checked _ (rule_mem h1 h2)
  rw [refuses_any h3, Bool.false_or] at this
  simp only [Bool.and_eq_true, Bool.or_eq_true, Bool.not_eq_true', beq_eq_false_iff_ne] at this
  obtain ⟨⟨h4, h5⟩, h6⟩ := this
  refine ⟨fun h => ?_, fun h => ?_, fun h => ?_⟩
  · exact h4.resolve_left (by rw [h]; nofun)
  · exact h5.resolve_left (by rw [h]; nofun)
  · exact h6.resolve_left fun g => g h

theorem lone_one {ext : BldExt} {t : TTree} (hl : t.lone = true) {vs : List Atom} (he : Evals ext t vs) : ∃ n, vs = [.nodes [n]] := by
  rw [TTree.lone, Bool.and_eq_true] at hl
  obtain ⟨r, kids, ρ, rfl, h1, hp⟩ := rule_any hl.1
  rw [Evals] at he
  obtain ⟨ρ', o, h1', h2, h3, vss, h4, h5⟩ := he
  rw [h1] at h1'; cases h1'
  have hc := (out_checked h1 h2 h3).2.1 hp
  unfold loneOut at hc
  split at hc
  case h_2 => cases hc
  rename_i e ho
  rw [ho] at h5
  simp only [ValOut.Gives, exGives] at h5
  obtain ⟨y, ys, rfl, h6, rfl⟩ := h5
  rw [Ex.Gives] at h6
  obtain ⟨xs, -, _, s, s', h7⟩ := h6
  dsimp only [applyFn] at h7
  unfold withN at h7
  split at h7
  · cases h7; exact ⟨_, rfl⟩
  · cases h7

theorem jump_fits_gives {k : KeywordCmd} (hk : k = .Return ∨ k = .Break ∨ k = .Next) {n : Node} :
    BldR.Yields (keywordCmd k t b [n] e) fitsNode := by
  rcases hk with rfl | rfl | rfl
  all_goals
    unfold keywordCmd
    dsimp only
    refine BldR.safe_bind (P := fun l => l = [n]) (BldR.safe_lift (BldM.safe_liftR (Res.safe_ok rfl))) fun l hl => ?_
    subst hl
    exact BldR.safe_pure (Nat.le_refl _)

theorem fits_jump {ext : BldExt} {t : TTree} (hj : t.jump = true) (hw : t.shape.wf = true) {vs : List Atom} (he : Evals ext t vs) : ∀ a ∈ vs, fitsAtom a := by
  rw [TTree.jump, Bool.and_eq_true] at hj
  obtain ⟨hj1, hj2⟩ := hj
  obtain ⟨r, kids, ρ, rfl, h1, hp⟩ := rule_any hj1
  rw [TTree.kids] at hj2
  split at hj2
  case h_2 => cases hj2
  rename_i k a
  rw [Evals] at he
  obtain ⟨ρ', o, h1', h2, h3, vss, h4, h5⟩ := he
  rw [h1] at h1'; cases h1'
  obtain ⟨v1, w1, rfl, e6, e7⟩ := evalsL_cons h4
  obtain ⟨v2, w2, rfl, e9, e8⟩ := evalsL_cons e7
  cases evalsL_nil e8
  obtain ⟨n, rfl⟩ := lone_one hj2 e9
  have hc := (out_checked h1 h2 h3).1 hp
  -- the slots
  have hs : (slots ρ.rhs [v1, [.nodes [n]]])[1]? = some [.nodes [n]] := by
    have := List.all_eq_true.1 jump_abs _ (rule_mem h1 h2)
    dsimp only at this
    rw [hp, Bool.not_true, Bool.false_or, Bool.and_eq_true] at this
    obtain ⟨j1, -⟩ := this
    split at j1
    · rename_i hr; rw [hr]; rfl
    · rename_i hr; rw [hr]; rfl
    · cases j1
  unfold jumpOut at hc
  split at hc
  case h_2 => cases hc
  rename_i kw n1 i1 n2 i2 ho
  simp only [Bool.and_eq_true, Bool.or_eq_true, decide_eq_true_eq, beq_iff_eq] at hc
  obtain ⟨⟨hk, rfl⟩, rfl⟩ := hc
  rw [ho] at h5
  simp only [ValOut.Gives, exGives] at h5
  obtain ⟨y, ys, rfl, h6, rfl⟩ := h5
  rw [Ex.Gives] at h6
  obtain ⟨xs, hxs, _, s, s', h7⟩ := h6
  simp only [exGives, Ex.Gives] at hxs
  obtain ⟨y1, ys1, rfl, -, y2, ys2, rfl, hy2, rfl⟩ := hxs
  rw [show 2 - 1 = 1 from rfl, hs] at hy2
  simp only [Option.bind_some, List.getElem?_cons_zero, Option.some.injEq] at hy2
  subst hy2
  dsimp only [applyFn] at h7
  unfold withTL at h7
  split at h7
  case h_2 => cases h7
  rename_i t l hxs
  cases hxs
  intro a ha m hm
  rw [List.mem_singleton] at ha
  subst ha hm
  have key : BldR.Yields (outB Atom.node (keywordCmd kw t none [n] none)) fun a => ∀ m, a = Atom.node m → fitsNode m :=
    outB_yields ((jump_fits_gives (by tauto)).imp fun m h m' hm => by cases hm; exact h)
  exact BldR.yields_iff.mp key _ _ _ h7 _ rfl

theorem fits_first {ext : BldExt} {t : TTree} (ht : (t.plain || t.jump) = true) (hw : t.shape.wf = true) (hf : FineAll ext t) {vs : List Atom}
    (he : Evals ext t vs) : ∀ a ∈ vs, fitsAtom a := by
  rw [Bool.or_eq_true] at ht
  rcases ht with hb | hb
  · obtain ⟨r', kids', ρ', rfl, h1', hp⟩ := rule_any hb
    rw [FineAll] at hf
    exact fits_hasL (m := ks [.Send, .Send0, .CSend, .CSend0, .Super, .Yield]) (by decide +kernel) (plain_has hw hf.2.fine.below h1' hp he)
  · exact fits_jump hb hw he

theorem pair_ensure {ext : BldExt} {t : TTree} (hr : t.shape.root = some (.n NT.opt_ensure)) {vs : List Atom}
    (he : Evals ext t vs) : vs[0]? = some (.otok none) → ∀ a, vs[1]? = some a → a.trees = [] := by
  cases t with
  | leaf => rw [TTree.shape, Tree.root] at hr; cases hr
  | node r kids =>
    rw [Evals] at he
    obtain ⟨ρ, o, h1, h2, h3, vss, h4, h5⟩ := he
    rw [TTree.shape, Tree.root, h1] at hr
    simp only [Option.map_some, Option.some.injEq, Sym.n.injEq] at hr
    have hc := (out_checked h1 h2 h3).2.2 hr
    intro g0 a ga
    unfold ensureOut at hc
    split at hc
    · rename_i ho
      rw [ho] at h5
      simp only [ValOut.Gives, exGives] at h5
      obtain ⟨y1, ys1, rfl, -, y2, ys2, rfl, hy2, rfl⟩ := h5
      rw [Ex.Gives] at hy2
      obtain ⟨xs, -, _, s, s', h7⟩ := hy2
      dsimp only [applyFn] at h7
      unfold withNone at h7
      split at h7
      · cases h7; cases ga; rfl
      · cases h7
    · rename_i ho
      rw [ho] at h5
      simp only [ValOut.Gives, exGives] at h5
      obtain ⟨y1, ys1, rfl, hy1, -⟩ := h5
      rw [Ex.Gives] at hy1
      obtain ⟨xs, -, _, s, s', h7⟩ := hy1
      cases g0
      dsimp only [applyFn] at h7
      unfold withT at h7
      split at h7
      · cases h7
      · cases h7
    · cases hc

end Verif
