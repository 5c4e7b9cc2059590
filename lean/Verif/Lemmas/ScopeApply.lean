import Verif.Lemmas.ScopeEx
/-!
What the checker says of a call of the builder holds for its result.
-/
namespace Verif
open Builder Grammar ScopeSpec

/-- The flags the checker adds. -/
inductive Flagged (f : BFn) (all : ER) : ER → Prop
  | none : Flagged f all all
  | one : f = .single → Flagged f all { all with one := true }
  | bare : f = .indexAsgn ∨ f = .attrAsgn ∨ f = .constOpAssignable → Flagged f all { all with bare := true }
  | fits : f = .callFn ∨ f = .callDot ∨ f = .callDotOpt → Flagged f all { all with fits := true }

theorem scan_plain {st : SS} {f : BFn} {es : List Ex} {rs : List ER} {r : ER} (hf : wideFn f = true) (h : fnScan st f es rs = some r) :
    ((joinN rs).grow && (joinN rs).acc) = false ∧ rs.any (·.raw) = false ∧ Flagged f (joinN rs) r := by
  have key : ∀ {r' : ER}, (if (joinN rs).grow && (joinN rs).acc then none else if rs.any (·.raw) then none else some r') = some r →
      ((joinN rs).grow && (joinN rs).acc) = false ∧ rs.any (·.raw) = false ∧ r = r' := by
    intro r' h
    split at h
    · cases h
    · split at h
      · cases h
      · cases h
        exact ⟨by simp_all, by simp_all, rfl⟩
  cases f <;> first
    | (simp only [wideFn, plainFn, reduceCtorEq] at hf; done)
    | (cases hf; done)
    | (obtain ⟨h1, h2, rfl⟩ := key h; exact ⟨h1, h2, .none⟩)
    | (obtain ⟨h1, h2, rfl⟩ := key h; exact ⟨h1, h2, .one rfl⟩)
    | (obtain ⟨h1, h2, rfl⟩ := key h; exact ⟨h1, h2, .bare (by simp)⟩)
    | (obtain ⟨h1, h2, rfl⟩ := key h; exact ⟨h1, h2, .fits (by simp)⟩)

theorem callMethod_fits : Res.Yields (callMethod r d s b l e) fitsNode := by
  unfold callMethod
  skip1; skip1; skip1
  skip1
  split
  · exact Res.safe_pure trivial
  · skip1; skip1
    exact Res.safe_pure trivial

section
variable {ext : BldExt} {x : Text} {V : List (List Atom)} {d0 dp : Prop} {indent : Int} {dedent : List Atom → Int}
  {st : SS} {f : BFn} {es : List Ex} {rs : List ER} {r : ER} {xs : List Atom} {a : Atom} {s s1 s' : BState}

theorem bareAtom_node {n : Node} (h : bareNode n) : bareAtom (.node n) := by
  intro m e; cases e; exact h
theorem fitsAtom_node {n : Node} (h : fitsNode n) : fitsAtom (.node n) := by
  intro m e; cases e; exact h

theorem single_one : BldR.Yields (applyFn ext indent .single xs) fun a => ∃ n, a = .nodes [n] := by
  dsimp only [applyFn, withN]
  split
  · exact outp_yields ⟨_, rfl⟩
  · exact illTyped_yields
theorem made_bare (hf : f = .indexAsgn ∨ f = .attrAsgn ∨ f = .constOpAssignable) : BldR.Yields (applyFn ext indent f xs) bareAtom := by
  rcases hf with rfl | rfl | rfl
  · dsimp only [applyFn, withNTLT]
    split
    · exact outp_yields (bareAtom_node rfl)
    · exact illTyped_yields
  · dsimp only [applyFn, withNTT]
    split
    · refine outR_yields ?_
      unfold attrAsgn
      skips
      all_goals exact Res.safe_pure (bareAtom_node trivial)
    · exact illTyped_yields
  · dsimp only [applyFn, withN]
    split
    · refine outR_yields ?_
      unfold constOpAssignable
      split
      · exact Res.safe_ok (bareAtom_node rfl)
      · skips
    · exact illTyped_yields
theorem made_fits (hf : f = .callFn ∨ f = .callDot ∨ f = .callDotOpt) : BldR.Yields (applyFn ext indent f xs) fitsAtom := by
  rcases hf with rfl | rfl | rfl
  · dsimp only [applyFn, withTL]
    split
    · exact outR_yields (callMethod_fits.imp fun _ h => fitsAtom_node h)
    · exact illTyped_yields
  · dsimp only [applyFn, withNTTL]
    split
    · exact outR_yields (callMethod_fits.imp fun _ h => fitsAtom_node h)
    · exact illTyped_yields
  · dsimp only [applyFn, withNTTG]
    split
    · exact outR_yields (callMethod_fits.imp fun _ h => fitsAtom_node h)
    · exact illTyped_yields

/-- A call whose arguments are as the checker says. -/
structure Called (ext : BldExt) (x : Text) (V : List (List Atom)) (d0 : Prop) (indent : Int) (dedent : List Atom → Int) (st : SS) (f : BFn)
    (es : List Ex) (rs : List ER) (xs : List Atom) (s s1 s' : BState) (a : Atom) : Prop where
  hx : isNumparamName x = false
  scan : exScan st es = some rs
  parse : exParse ext dedent V es s = .ok (xs, s1)
  args : List.Forall₂ (AtomOk ext x V d0 (Dcl x s)) rs xs
  grown : Dcl x s1 → Dcl x s ∨ ((joinN rs).grow = true ∧ Some_ (Binds ext x) (treesOf xs))
  run : (applyFn ext indent f xs).run s1 = .ok (.ok a, s')
/-- The result is as the checker says. -/
def Results (ext : BldExt) (x : Text) (V : List (List Atom)) (d0 : Prop) (s s' : BState) (r : ER) (a : Atom) : Prop :=
  AtomOk ext x V d0 (Dcl x s) r a ∧ (Dcl x s' → Dcl x s ∨ (r.tok = false ∧ r.grow = true ∧ BA ext x a))

theorem Called.gives (h : Called ext x V d0 indent dedent st f es rs xs s s1 s' a) {P : Atom → Prop} (g : BldR.Yields (applyFn ext indent f xs) P) : P a :=
  BldR.yields_iff.mp g s1 a s' h.run
theorem Called.same (h : Called ext x V d0 indent dedent st f es rs xs s s1 s' a) (hf : growFn f = false) :
    Dcl x s' → Dcl x s ∨ ((joinN rs).grow = true ∧ Some_ (Binds ext x) (treesOf xs)) :=
  fun d => h.grown (fn_same h.hx hf s1 _ s' h.run d)

theorem plain_res (hf : wideFn f = true) : (f.res == .tok || f.res == .otok) = false := by
  cases f <;> first | rfl | cases hf
theorem plain_grow (hf : wideFn f = true) : growFn f = false := by
  cases f <;> first | rfl | cases hf

theorem plain_sound (h : Called ext x V d0 indent dedent st f es rs xs s s1 s' a) (hf : wideFn f = true) (hr : fnScan st f es rs = some r) :
    Results ext x V d0 s s' r a := by
  obtain ⟨h1, h2, h3⟩ := scan_plain hf hr
  have hJ := joined h.args h2
  have ht : a.isTok = false := by rw [isTok_ak, fn_ak h.run, plain_res hf]
  have hb := h.gives (fn_wide (indent := indent) (ext := ext) (binds_wide (ext := ext) (x := x)) hf xs)
  have hu := h.gives (fn_wide (indent := indent) (ext := ext) (uses_wide (ext := ext) (x := x)) hf xs)
  have hl := h.gives (fn_wide (indent := indent) (ext := ext) (loose_wide (ext := ext) (x := x)) hf xs)
  obtain ⟨f1, f2, f3, f4, f5⟩ := joinN_flags rs
  have hg : r.tok = false ∧ r.grow = (joinN rs).grow := by cases h3 <;> exact ⟨f2, rfl⟩
  refine ⟨?_, fun d => (h.same (plain_grow hf) d).imp_right fun ⟨g1, g2⟩ => ⟨hg.1, hg.2.trans g1, (BA_node ht).mpr (hb.mpr g2)⟩⟩
  cases h3 with
  | none =>
    refine AtomOk.of_joined hJ ht hb hu.mp hl.mp rfl rfl rfl rfl rfl f1 f2 ?_ ?_ ?_
    · rw [f3]; nofun
    · rw [f4]; nofun
    · rw [f5]; nofun
  | one hf' =>
    subst hf'
    refine AtomOk.of_joined hJ ht hb hu.mp hl.mp rfl rfl rfl rfl rfl f1 f2 ?_ ?_ ?_
    · change (joinN rs).bare = true → _; rw [f3]; nofun
    · change (joinN rs).fits = true → _; rw [f4]; nofun
    · exact fun _ => h.gives single_one
  | bare hf' =>
    refine AtomOk.of_joined hJ ht hb hu.mp hl.mp rfl rfl rfl rfl rfl f1 f2 ?_ ?_ ?_
    · exact fun _ => h.gives (made_bare hf')
    · change (joinN rs).fits = true → _; rw [f4]; nofun
    · change (joinN rs).one = true → _; rw [f5]; nofun
  | fits hf' =>
    refine AtomOk.of_joined hJ ht hb hu.mp hl.mp rfl rfl rfl rfl rfl f1 f2 ?_ ?_ ?_
    · change (joinN rs).bare = true → _; rw [f3]; nofun
    · exact fun _ => h.gives (made_fits hf')
    · change (joinN rs).one = true → _; rw [f5]; nofun

/-! ### Scopes of their own -/

theorem scan_inside {is : List Nat} {static : Bool} (hf : inside f = some (is, static)) (h : fnScan st f es rs = some r) :
    (joinN rs).acc = false ∧ (joinN rs).grow = false ∧ rs.any (·.raw) = false ∧ (f = .block → ∃ r0 rest, rs = r0 :: rest ∧ r0.fits = true) ∧
    ((static = true ∧ (joinN (pick is 0 rs)).req.minus (joinN (pick is 0 rs)).cov = Lv.none ∧ r = joinN (drop is 0 rs)) ∨
      (static = false ∧ r = { joinN (drop is 0 rs) with
        req := (joinN (drop is 0 rs)).req.union ((joinN (pick is 0 rs)).req.minus (joinN (pick is 0 rs)).cov) })) := by
  unfold fnScan at h
  dsimp only at h
  split at h
  · cases h
  · split at h
    · cases hf
    · cases hf
    · split at h
      · cases h
      · rename_i h2
        rw [hf] at h
        dsimp only at h
        split at h
        · cases h
        · rename_i h3
          split at h
          · cases h
          · rename_i h4
            simp only [Bool.or_eq_true, not_or, Bool.not_eq_true] at h3
            refine ⟨h3.1, h3.2, by simpa using h2, ?_, ?_⟩
            · rintro rfl
              rcases rs with - | ⟨r0, rest⟩
              · exact absurd rfl h4
              · exact ⟨r0, rest, rfl, by simpa [firstFits] using h4⟩
            · split at h
              · rename_i h5
                split at h
                · cases h; exact .inl ⟨h5, by assumption, rfl⟩
                · cases h
              · cases h; rename_i h5; exact .inr ⟨by simpa using h5, rfl⟩

theorem pick_acc (is : List Nat) : ∀ {k : Nat} {rs : List ER}, (joinN rs).acc = false → (joinN (pick is k rs)).acc = false
  | _, [], _ => rfl
  | k, r :: rs, h => by
    rw [joinN] at h
    rw [pick]
    split at h
    · rename_i ht
      split
      · rw [joinN, if_pos ht]; exact pick_acc is h
      · exact pick_acc is h
    · rename_i ht
      simp only [ER.join, Bool.or_eq_false_iff] at h
      split
      · rw [joinN, if_neg ht]; simp [ER.join, h.1, pick_acc is h.2]
      · exact pick_acc is h.2

theorem inside_grow (hf : inside f = some p) : growFn f = false := by
  cases f <;> first | rfl | cases hf

theorem inside_sound (h : Called ext x V d0 indent dedent st f es rs xs s s1 s' a) {is : List Nat} {static : Bool} (hf : inside f = some (is, static))
    (hr : fnScan st f es rs = some r) : Results ext x V d0 s s' r a := by
  obtain ⟨h1, h2, h3, h4, h5⟩ := scan_inside hf hr
  have hI := joined (forall_pick is (k := 0) h.args) (pick_raw is h3)
  have hO := joined (forall_drop is (k := 0) h.args) (drop_raw is h3)
  have hA := joined h.args h3
  obtain ⟨ht, hb, hu, hl⟩ := h.gives (inside_made (ext := ext) (x := x) hf fun hb => by
    obtain ⟨r0, rest, rfl, hfit⟩ := h4 hb
    rcases hargs : xs with - | ⟨y, ys⟩
    · simp
    · have := h.args
      rw [hargs] at this
      cases this with
      | cons h0 _ => simpa using h0.fits hfit)
  have hn := BA_node (ext := ext) (x := x) ht
  have hin : Some_ (Uses ext x) (treesOf (pick is 0 xs)) → ¬ Some_ (Binds ext x) (treesOf (pick is 0 xs)) →
      ((joinN (pick is 0 rs)).req.minus (joinN (pick is 0 rs)).cov).holds ext x V d0 := by
    intro e n
    rcases hI.uses e with e | ⟨e, -⟩
    · rcases holds_minus e with e | ⟨p, hp, e⟩
      · exact e
      · exact absurd (hI.cov p hp e) n
    · rw [pick_acc is h1] at e; cases e
  have hs : Dcl x s' → Dcl x s := fun d => (h.same (inside_grow hf) d).elim id fun g => by rw [h2] at g; cases g.1
  obtain ⟨f1, f2, f3, f4, f5⟩ := joinN_flags (drop is 0 rs)
  refine ⟨?_, fun d => .inl (hs d)⟩
  rcases h5 with ⟨rfl, hleft, rfl⟩ | ⟨rfl, rfl⟩
  · refine AtomOk.of_joined hO ht hb (fun e => ?_) (fun e => ?_) rfl rfl rfl rfl rfl f1 f2 ?_ ?_ ?_
    · simpa using hu.mp e
    · exfalso
      rcases hl.mp e with e | ⟨-, e, n⟩
      · exact hA.loose e
      · have := hin e n
        rw [hleft] at this
        exact holds_none this
    · rw [f3]; nofun
    · rw [f4]; nofun
    · rw [f5]; nofun
  · refine ⟨ht.trans f2.symm, fun p hp e => hn.mpr (hb.mpr (hO.cov p hp e)), fun o e => hO.used o (hb.mp (hn.mp e)), fun _ e => ?_, ?_, fun e => ?_, ?_, ?_, ?_⟩
    · dsimp only
      rw [holds_union]
      rcases hu.mp e with e | ⟨-, e, n⟩
      · exact (hO.uses e).imp_left .inl
      · exact .inl (.inr (hin e n))
    · change (joinN (drop is 0 rs)).raw = true → _; rw [f1]; nofun
    · rcases hl.mp e with e | ⟨e, -⟩
      · exact hA.loose e
      · cases e
    · change (joinN (drop is 0 rs)).bare = true → _; rw [f3]; nofun
    · change (joinN (drop is 0 rs)).fits = true → _; rw [f4]; nofun
    · change (joinN (drop is 0 rs)).one = true → _; rw [f5]; nofun

/-! ### Parameters -/

theorem scan_bound {k : Nat} (hf : bound f = some k) (h : fnScan st f es rs = some r) :
    rs.any (·.raw) = false ∧ ∃ r0, rs[k]? = some r0 ∧ r = { joinN rs with cov := r0.cov ++ (joinN rs).cov, own := true } := by
  have hi : inside f = none := by cases f <;> first | rfl | cases hf
  unfold fnScan at h
  dsimp only at h
  split at h
  · cases h
  · split at h
    · cases hf
    · cases hf
    · split at h
      · cases h
      · rename_i h2
        rw [hi, hf] at h
        dsimp only at h
        split at h
        · rename_i r0 h0
          split at h
          · cases h
            exact ⟨by simpa using h2, r0, h0, rfl⟩
          · cases h
        · cases h
theorem bound_grow (hf : bound f = some k) : growFn f = false := by
  cases f <;> first | rfl | cases hf
theorem forall_get {P : α → β → Prop} : ∀ {k : Nat} {l : List α} {m : List β} {a : α} {b : β}, List.Forall₂ P l m → l[k]? = some a → m[k]? = some b → P a b
  | _, _, _, _, _, .nil, h, _ => by simp at h
  | 0, _, _, _, _, .cons h _, e1, e2 => by simp at e1 e2; subst e1 e2; exact h
  | k + 1, _, _, _, _, .cons _ hs, e1, e2 => forall_get hs (by simpa using e1) (by simpa using e2)

theorem bound_sound (h : Called ext x V d0 indent dedent st f es rs xs s s1 s' a) {k : Nat} (hf : bound f = some k)
    (hr : fnScan st f es rs = some r) : Results ext x V d0 s s' r a := by
  obtain ⟨h1, r0, h2, rfl⟩ := scan_bound hf hr
  have hJ := joined h.args h1
  obtain ⟨t, h3, ht, hb, hu, hl⟩ := h.gives (bound_made (ext := ext) (x := x) hf)
  have h0 := forall_get h.args h2 h3
  have hn := BA_node (ext := ext) (x := x) ht
  obtain ⟨f1, f2, f3, f4, f5⟩ := joinN_flags rs
  refine ⟨⟨ht.trans f2.symm, fun p hp e => hn.mpr (hb.mpr ?_), nofun, fun _ e => hJ.uses (hu.mp e), ?_, fun e => hJ.loose (hl.mp e), ?_, ?_, ?_⟩,
    fun d => (h.same (bound_grow hf) d).imp_right fun ⟨g1, g2⟩ => ⟨f2, g1, hn.mpr (hb.mpr (.inr g2))⟩⟩
  · rcases List.mem_append.mp hp with hp | hp
    · exact .inl (h0.cov p hp e)
    · exact .inr (hJ.cov p hp e)
  · change (joinN rs).raw = true → _; rw [f1]; nofun
  · change (joinN rs).bare = true → _; rw [f3]; nofun
  · change (joinN rs).fits = true → _; rw [f4]; nofun
  · change (joinN rs).one = true → _; rw [f5]; nofun

end
end Verif
