import Verif.Lemmas.ParseAct
/-!
What a parse of a derivation tree gives.
-/
namespace Verif.Grammar
open Builder

/-! ### More values -/

/-- `V'` has the values of `V`. -/
def Extends (V V' : List (List Atom)) : Prop := ∀ (i : Nat) v, V[i]? = some v → V'[i]? = some v

theorem extends_append (V W : List (List Atom)) : Extends V (V ++ W) := by
  intro i v h
  have : i < V.length := (List.getElem?_eq_some_iff.mp h).1
  rw [List.getElem?_append_left this]; exact h

mutual
theorem Ex.gives_extends {ext : BldExt} {V V' : List (List Atom)} (he : Extends V V') : ∀ {e : Ex} {x : Atom},
    e.Gives ext V x → e.Gives ext V' x
  | .fld n i, x, h => by
    rw [Ex.Gives] at h ⊢
    rcases hv : V[n - 1]? with _ | v
    · simp [hv] at h
    · rw [he _ _ hv]; rw [hv] at h; exact h
  | .call f es, x, h => by
    rw [Ex.Gives] at h ⊢
    obtain ⟨xs, h1, h2⟩ := h
    exact ⟨xs, exGives_extends he h1, h2⟩
theorem exGives_extends {ext : BldExt} {V V' : List (List Atom)} (he : Extends V V') : ∀ {es : List Ex} {xs : List Atom},
    exGives ext V es xs → exGives ext V' es xs
  | [], xs, h => by rw [exGives] at h ⊢; exact h
  | e :: es, xs, h => by
    rw [exGives] at h ⊢
    obtain ⟨y, ys, h1, h2, h3⟩ := h
    exact ⟨y, ys, h1, Ex.gives_extends he h2, exGives_extends he h3⟩
end
mutual
theorem Ex.calls_extends {ext : BldExt} {V V' : List (List Atom)} (he : Extends V V') : ∀ {e : Ex} {f : BFn} {xs : List Atom},
    e.Calls ext V f xs → e.Calls ext V' f xs
  | .fld n i, _, _, h => by rw [Ex.Calls] at h; exact h.elim
  | .call g es, f, xs, h => by
    rw [Ex.Calls] at h ⊢
    rcases h with ⟨h1, h2⟩ | h
    · exact .inl ⟨h1, exGives_extends he h2⟩
    · exact .inr (exCalls_extends he h)
theorem exCalls_extends {ext : BldExt} {V V' : List (List Atom)} (he : Extends V V') : ∀ {es : List Ex} {f : BFn} {xs : List Atom},
    exCalls ext V es f xs → exCalls ext V' es f xs
  | [], _, _, h => by rw [exCalls] at h; exact h.elim
  | e :: es, f, xs, h => by
    rw [exCalls] at h ⊢
    rcases h with h | h
    · exact .inl (Ex.calls_extends he h)
    · exact .inr (exCalls_extends he h)
end
theorem ValOut.gives_extends {ext : BldExt} {V V' : List (List Atom)} (he : Extends V V') {o : ValOut} {xs : List Atom}
    (h : o.Gives ext V xs) : o.Gives ext V' xs := by
  cases o with
  | copy n => exact he _ _ h
  | mk es => exact exGives_extends he h
theorem ValOut.calls_extends {ext : BldExt} {V V' : List (List Atom)} (he : Extends V V') {o : ValOut} {f : BFn} {xs : List Atom}
    (h : o.Calls ext V f xs) : o.Calls ext V' f xs := by
  cases o with
  | copy n => exact h.elim
  | mk es => exact exCalls_extends he h

/-! ### Derivations -/

/-- The result of parsing a tree with root `x`. -/
def POk (ext : BldExt) (dedent : List Atom → Int) (t : TTree) : Prop :=
  match t.shape.root with
  | none => False
  | some (.t _) => ∃ tok, t = .leaf tok
  | some (.n x) => ∀ s : BState, (∀ d, (stackP x).1.get d ≤ (stk d s.book).length) →
    Fine (fun q => Evals ext t q.1.atoms ∧ sig x = some (q.1.atoms.map Atom.ak) ∧
      (∀ d, Track ((stackP x).1.get d) ((stackP x).2.get d) (stk d s.book) (stk d q.2.book)) ∧
      (∀ f, (s.context.get f, q.2.context.get f, q.1.flag f) ∈ rel f x) ∧
      ∀ j, 7 ≤ j → q.2.context.value.getLsbD j = s.context.value.getLsbD j)
      (Caused ext dedent (t.Calls ext)) (t.parse ext dedent s)

theorem parseItems_mid {ext dedent o act i is fs vals s} : parseItems ext dedent o (.a act :: i :: is) fs vals s =
    (perform ext dedent act (.mk []) vals s >>= fun p => parseItems ext dedent o (i :: is) fs (takeSaved vals act.uses ++ [p.1]) p.2) := by
  rw [parseItems]
  intro _ h; cases h

theorem takeSaved_atoms : ∀ (us : List (Cast × Nat)) (vals : List PVal), (takeSaved vals us).map (·.atoms) = vals.map (·.atoms)
  | [], _ => rfl
  | (c, n) :: us, vals => by
    rw [takeSaved, takeSaved_atoms us]
    split
    · rfl
    · apply List.ext_getElem?
      intro i
      simp only [List.getElem?_map, List.getElem?_modify]
      rcases vals[i]? with _ | v
      · rfl
      · simp only [Option.map_some]; split <;> rfl
theorem takeSaved_flag (f : CtxFlag) : ∀ (us : List (Cast × Nat)) (vals : List PVal),
    (takeSaved vals us).map (PVal.flag f) = stealF (vals.map (PVal.flag f)) us
  | [], _ => rfl
  | (c, n) :: us, vals => by
    rw [takeSaved, takeSaved_flag f us, stealF]
    split
    · rfl
    · congr 1
      apply List.ext_getElem?
      intro i
      simp only [List.getElem?_map, List.getElem?_modify, List.getElem?_set]
      by_cases hi : n - 1 = i
      · subst hi
        rcases hv : vals[n - 1]? with _ | v
        · have := List.getElem?_eq_none_iff.mp hv
          simp [Nat.not_lt.mpr this]
        · have := (List.getElem?_eq_some_iff.mp hv).1
          simp [this, PVal.flag]
      · simp [hi]

theorem perform_fails {ext : BldExt} {dedent : List Atom → Int} {act : Act} {o : ValOut} {vals : List PVal} {s : BState}
    {ok : PVal × BState → Prop} {bad : Panic → Prop} (hf : act.fails = true)
    (hG : (extra act.line).guards.all (Guard.ty (kinds (vals.map (·.atoms)))) = true) :
    Fine ok bad (perform ext dedent act o vals s) := by
  unfold perform
  refine Fine.bind (guards_fine hG) fun s1 h1 => ?_
  simp only [hf, if_true]; trivial

theorem caused_none {ext : BldExt} {dedent : List Atom → Int} {V : List (List Atom)} {p : Panic} :
    ¬ Caused ext dedent (ValOut.Calls ext V (.mk [])) p := by
  rintro ⟨f, xs, s, h, -⟩
  simp only [ValOut.Calls, exCalls] at h


theorem items_fine {ext : BldExt} {dedent : List Atom → Int} {x : NT} {s0 : BState} {o : ValOut} {goal : List AK} :
    ∀ (is : List Item) (ks : List TTree), (syms is).map (·.map some) = some (rootsL (shapeL ks)) →
    (∀ t ∈ ks, POk ext dedent t) → ∀ (s : BState) (vals : List PVal) (m : Dim → Nat),
    (∀ d, Track ((stackP x).1.get d) (m d) (stk d s0.book) (stk d s.book)) →
    (∀ j, 7 ≤ j → s.context.value.getLsbD j = s0.context.value.getLsbD j) →
    (∀ d, checkP d ((stackP x).2.get d) o is (m d) = true) →
    (∀ f, checkF f (s0.context.get f) (rel f x) is (s.context.get f) (vals.map (PVal.flag f)) = true) →
    checkTy goal o is (kinds (vals.map (·.atoms))) = true →
    Fine (fun q => is.all (fun i => !i.refuses) = true ∧
      (∃ vss, evalsL ext ks vss ∧ o.Gives ext (vals.map (·.atoms) ++ slots is vss) q.1.atoms) ∧
      q.1.atoms.map Atom.ak = goal ∧
      (∀ d, Track ((stackP x).1.get d) ((stackP x).2.get d) (stk d s0.book) (stk d q.2.book)) ∧
      (∀ f, (s0.context.get f, q.2.context.get f, q.1.flag f) ∈ rel f x) ∧
      ∀ j, 7 ≤ j → q.2.context.value.getLsbD j = s0.context.value.getLsbD j)
      (Caused ext dedent fun f xs => callsL ext ks f xs ∨ (is.all (fun i => !i.refuses) = true ∧
        ∃ vss, evalsL ext ks vss ∧ o.Calls ext (vals.map (·.atoms) ++ slots is vss) f xs))
      (parseItems ext dedent o is (parseL ext dedent ks) vals s)
  | [], ks, _, _, _, _, _, _, _, _, _, hK => by simp [checkTy] at hK
  | .err :: _, ks, h, _, _, _, _, _, _, _, _, _ => by simp [syms] at h
  | [.a act], ks, h, hks, s, vals, m, hT, hj, hP, hF, hK => by
    obtain rfl : ks = [] := by
      cases ks with
      | nil => rfl
      | cons => simp [syms, shapeL, rootsL] at h
    simp only [checkP, Bool.or_eq_true, decide_eq_true_eq] at hP
    simp only [checkTy, Bool.and_eq_true, Bool.or_eq_true, decide_eq_true_eq] at hK
    rw [parseL, parseItems]
    have hF' : act.fails = false → ∀ f, ∃ q : Bool × Option Bool, opsF f (vals.map (PVal.flag f)) act.ops (s.context.get f) none = some q ∧
        ∀ o ∈ outChoices act.outs, (s0.context.get f, q.1, outF (vals.map (PVal.flag f)) q.2 o) ∈ rel f x := by
      intro hf f
      have := hF f
      simp only [checkF, hf, Bool.false_or] at this
      split at this
      · rename_i c' reg he
        refine ⟨(c', reg), he, fun o ho => ?_⟩
        have := List.all_eq_true.mp this o ho
        simpa using this
      · cases this
    by_cases hf : act.fails = true
    · exact perform_fails hf hK.1
    · rw [Bool.not_eq_true] at hf
      choose q hq using hF' hf
      simp only [hf, Bool.false_eq_true, false_or] at hP hK
      have hA : (extra act.line).writes.all (Write.ty (kinds (vals.map (·.atoms)))) = true ∧ o.ty (kinds (vals.map (·.atoms))) = some goal := by
        have := hK.2
        unfold actTy at this
        split at this
        · exact ⟨‹_›, this⟩
        · cases this
      refine Fine.mono (perform_fine (m' := fun d => (stackP x).2.get d) (c' := fun f => (q f).1) (r' := fun f => (q f).2) (ks := goal)
        hT hK.1 (fun _ => hP) (fun _ f => (hq f).1) (fun _ => hA)) (fun r hr => ?_) fun p hp => hp.mono fun f xs h => ?_
      · obtain ⟨-, h1, h2, h3, h4, h5, h6⟩ := hr
        refine ⟨by simp [Item.refuses, hf], ⟨[], by rw [evalsL], ValOut.gives_extends (extends_append _ _) h1⟩, h2, h3, fun f => ?_,
          fun j h => by rw [h5 j h, hj j h]⟩
        rw [h4 f, h6 f]
        exact (hq f).2 _ (by
          cases act.outs with
          | nil => simp [outChoices]
          | cons => simp [outChoices])
      · exact .inr ⟨by simp [Item.refuses, hf], [], by rw [evalsL], ValOut.calls_extends (extends_append _ _) h⟩
  | .a act :: i :: is, ks, h, hks, s, vals, m, hT, hj, hP, hF, hK => by
    rw [parseItems_mid]
    have hP : ∀ d, (act.fails || (match actP d act (.mk []) (m d) with
      | some m' => checkP d ((stackP x).2.get d) o (i :: is) m'
      | none => false)) = true := fun d => by
        have := hP d
        rw [checkP] at this
        · exact this
        · intro h; cases h
    have hK : (extra act.line).guards.all (Guard.ty (kinds (vals.map (·.atoms)))) = true ∧ (act.fails = true ∨
      ((extra act.line).writes.all (Write.ty (kinds (vals.map (·.atoms)))) = true ∧
        checkTy goal o (i :: is) (kinds (vals.map (·.atoms)) ++ [[]]) = true)) := by
        rw [checkTy] at hK
        · simpa [Bool.and_eq_true, Bool.or_eq_true] using hK
        · intro h; cases h
    by_cases hf : act.fails = true
    · exact Fine.bind (perform_fails (ok := fun _ => False) hf hK.1) fun _ h => h.elim
    · rw [Bool.not_eq_true] at hf
      simp only [hf, Bool.false_eq_true, false_or, Bool.false_or] at hP hK
      have hP' : ∀ d, ∃ m', actP d act (.mk []) (m d) = some m' ∧ checkP d ((stackP x).2.get d) o (i :: is) m' = true := by
        intro d
        have := hP d
        split at this
        · exact ⟨_, ‹_›, this⟩
        · cases this
      choose m' hm' using hP'
      have hF' : ∀ f, ∃ q : Bool × Option Bool, opsF f (vals.map (PVal.flag f)) act.ops (s.context.get f) none = some q ∧
          ∀ o ∈ outChoices act.outs, checkF f (s0.context.get f) (rel f x) (i :: is) q.1
            (stealF (vals.map (PVal.flag f)) act.uses ++ [outF (vals.map (PVal.flag f)) q.2 o]) = true := by
        intro f
        have := hF f
        rw [checkF] at this
        simp only [hf, Bool.false_or] at this
        split at this
        · rename_i c' reg he
          exact ⟨(c', reg), he, fun o ho => List.all_eq_true.mp this o ho⟩
        · cases this
      choose q hq using hF'
      refine Fine.bind (Fine.mono (perform_fine (m' := m') (c' := fun f => (q f).1) (r' := fun f => (q f).2) (ks := []) hT hK.1
        (fun _ d => (hm' d).1) (fun _ f => (hq f).1) (fun _ => ⟨hK.2.1, rfl⟩)) (fun _ h => h) fun p hp => (caused_none hp).elim) fun r hr => ?_
      obtain ⟨-, h1, h2, h3, h4, h5, h6⟩ := hr
      have ha : (takeSaved vals act.uses ++ [r.1]).map (·.atoms) = vals.map (·.atoms) ++ [[]] := by
        rw [List.map_append, takeSaved_atoms, List.map_cons, List.map_nil, List.map_eq_nil_iff.mp h2]
      have := items_fine (ext := ext) (dedent := dedent) (x := x) (s0 := s0) (o := o) (goal := goal) (i :: is) ks (by simpa [syms] using h)
        hks r.2 (takeSaved vals act.uses ++ [r.1]) m' h3 (fun j h => by rw [h5 j h, hj j h]) (fun d => (hm' d).2) (fun f => by
          rw [List.map_append, takeSaved_flag, List.map_cons, List.map_nil, h4 f, h6 f]
          exact (hq f).2 _ (by cases act.outs <;> simp [outChoices])) (by
          rw [ha]
          have := hK.2.2
          simpa [kinds] using this)
      rw [ha] at this
      have hs : ∀ vss, vals.map (·.atoms) ++ [[]] ++ slots (i :: is) vss = vals.map (·.atoms) ++ slots (.a act :: i :: is) vss := by
        intro vss; simp [slots]
      simp only [hs] at this
      exact Fine.mono this (fun q hq => ⟨by simpa [Item.refuses, hf] using hq.1, hq.2⟩) fun p hp => hp.mono fun f xs h =>
        h.imp id fun h => ⟨by simpa [Item.refuses, hf] using h.1, h.2⟩
  | .t tok :: is, ks, h, hks, s, vals, m, hT, hj, hP, hF, hK => by
    cases ks with
    | nil => simp [syms, shapeL, rootsL] at h
    | cons k ks =>
      simp only [syms, Option.map_map, shapeL, rootsL, Option.map_eq_some_iff] at h
      obtain ⟨a, ha1, ha2⟩ := h
      simp only [Function.comp, List.map_cons, List.cons.injEq] at ha2
      have hk := hks k (by simp)
      unfold POk at hk
      rw [← ha2.1] at hk
      obtain ⟨tk, rfl⟩ := hk
      rw [parseL, TTree.parse, parseItems]
      show Fine _ _ (parseItems ext dedent o is (parseL ext dedent ks) (vals ++ [⟨[.tok tk], none⟩]) s)
      have := items_fine (ext := ext) (dedent := dedent) (x := x) (s0 := s0) (o := o) (goal := goal) is ks (by simp [ha1, ha2.2])
        (fun t ht => hks t (by simp [ht])) s (vals ++ [⟨[.tok tk], none⟩]) m hT hj (fun d => by simpa [checkP] using hP d) (fun f => by
          have := hF f
          rw [checkF] at this
          simpa [PVal.flag] using this) (by
          rw [checkTy] at hK
          simpa [kinds, Atom.ak] using hK)
      refine Fine.mono this (fun q hq => ?_) fun p hp => hp.mono fun f xs h => ?_
      · obtain ⟨h1, ⟨vss, h2, h3⟩, h4⟩ := hq
        exact ⟨by simpa [Item.refuses] using h1, ⟨[.tok tk] :: vss, by rw [evalsL]; exact ⟨_, _, rfl, by rw [Evals], h2⟩, by simpa [slots] using h3⟩, h4⟩
      · rcases h with h | ⟨h1, vss, h2, h3⟩
        · exact .inl (by rw [callsL]; exact .inr h)
        · exact .inr ⟨by simpa [Item.refuses] using h1, [.tok tk] :: vss, by rw [evalsL]; exact ⟨_, _, rfl, by rw [Evals], h2⟩, by simpa [slots] using h3⟩
  | .n y :: is, ks, h, hks, s, vals, m, hT, hj, hP, hF, hK => by
    cases ks with
    | nil => simp [syms, shapeL, rootsL] at h
    | cons k ks =>
      simp only [syms, Option.map_map, shapeL, rootsL, Option.map_eq_some_iff] at h
      obtain ⟨a, ha1, ha2⟩ := h
      simp only [Function.comp, List.map_cons, List.cons.injEq] at ha2
      have hk := hks k (by simp)
      unfold POk at hk
      rw [← ha2.1] at hk
      simp only [checkP, Bool.and_eq_true, decide_eq_true_eq] at hP
      have hk := hk s (fun d => (hP d).1.trans (hT d).length)
      rw [parseL, parseItems]
      refine Fine.bind (Fine.mono hk (fun _ h => h) fun p hp => hp.mono fun f xs h => .inl (by rw [callsL]; exact .inl h)) fun q hq => ?_
      obtain ⟨h1, h2, h3, h4, h5⟩ := hq
      have := items_fine (ext := ext) (dedent := dedent) (x := x) (s0 := s0) (o := o) (goal := goal) is ks (by simp [ha1, ha2.2])
        (fun t ht => hks t (by simp [ht])) q.2 (vals ++ [q.1]) (fun d => m d - (stackP y).1.get d + (stackP y).2.get d)
        (fun d => (hT d).trans (hP d).1 (h3 d)) (fun j h => by rw [h5 j h, hj j h]) (fun d => (hP d).2) (fun f => by
          have := hF f
          rw [checkF] at this
          have := List.all_eq_true.mp this _ (h4 f)
          simpa using this) (by
          rw [checkTy, h2] at hK
          simpa [kinds] using hK)
      refine Fine.mono this (fun r hr => ?_) fun p hp => hp.mono fun f xs h => ?_
      · obtain ⟨h1', ⟨vss, h2', h3'⟩, h4'⟩ := hr
        exact ⟨by simpa [Item.refuses] using h1', ⟨q.1.atoms :: vss, by rw [evalsL]; exact ⟨_, _, rfl, h1, h2'⟩, by simpa [slots] using h3'⟩, h4'⟩
      · rcases h with h | ⟨h1', vss, h2', h3'⟩
        · exact .inl (by rw [callsL]; exact .inr h)
        · exact .inr ⟨by simpa [Item.refuses] using h1', q.1.atoms :: vss, by rw [evalsL]; exact ⟨_, _, rfl, h1, h2'⟩, by simpa [slots] using h3'⟩

mutual
/-- Every derivation is parsed as its root says. -/
theorem parse_fine (ext : BldExt) (dedent : List Atom → Int) : (t : TTree) → t.shape.wf = true → POk ext dedent t
  | .leaf tok, _ => ⟨tok, rfl⟩
  | .node r kids, h => by
    have hk := parseL_fine ext dedent kids
    rw [TTree.shape] at h
    unfold Tree.wf at h
    unfold POk
    rw [TTree.shape]
    unfold Tree.root
    split at h
    · simp at h
    · rename_i ρ hρ
      rw [Bool.and_eq_true, decide_eq_true_iff] at h
      simp only [hρ, Option.map_some]
      obtain ⟨o, ho⟩ := outs_some hρ
      obtain ⟨-, c2, -⟩ := rule_checked hρ
      obtain ⟨c1, c3, c4⟩ := rule_parse_checked hρ ho
      intro s hs
      have := items_fine (ext := ext) (dedent := dedent) (x := ρ.lhs) (s0 := s) (o := o.2) (goal := (sig ρ.lhs).getD []) ρ.rhs kids h.1 (hk h.2) s []
        (fun d => (stackP ρ.lhs).1.get d) (fun d => Track.refl (hs d)) (fun _ _ => rfl) c1 (fun f => c2 f _) c3
      rw [TTree.parse]
      simp only [hρ, ho]
      refine Fine.mono this (fun q hq => ?_) fun p hp => hp.mono fun f xs h => ?_
      · obtain ⟨h1, ⟨vss, h2, h3⟩, h4, h5, h6, h7⟩ := hq
        refine ⟨by rw [Evals]; exact ⟨ρ, o, hρ, ho, h1, vss, h2, by simpa using h3⟩, ?_, h5, h6, h7⟩
        rcases hs : sig ρ.lhs with _ | k
        · rw [c4 hs] at h1; cases h1
        · rw [h4, hs]; rfl
      · rw [TTree.Calls]
        rcases h with h | ⟨h1, vss, h2, h3⟩
        · exact .inr h
        · exact .inl ⟨ρ, o, hρ, ho, h1, vss, h2, by simpa using h3⟩
theorem parseL_fine (ext : BldExt) (dedent : List Atom → Int) : (ts : List TTree) → wfL (shapeL ts) = true →
    ∀ t ∈ ts, POk ext dedent t
  | [], _ => by simp
  | t :: ts, h => by
    simp only [shapeL, wfL, Bool.and_eq_true] at h
    have h1 := parse_fine ext dedent t h.1
    have h2 := parseL_fine ext dedent ts h.2
    intro t' ht'
    rcases List.mem_cons.mp ht' with rfl | ht'
    · exact h1
    · exact h2 t' ht'
end

end Verif.Grammar
