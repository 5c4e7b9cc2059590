import Verif.Lemmas.ParseSound
/-!
The value of a parse that succeeds is one of the values of the derivation, whatever the tables; and its parts are of the kinds its
root says.
-/
namespace Verif.Grammar
open Builder

theorem run_bind_ok {m : Run α} {f : α → Run β} {b : β} (e : (m >>= f) = .ok b) : ∃ a, m = .ok a ∧ f a = .ok b := by
  rcases m with p | a
  · cases e
  · exact ⟨a, rfl, e⟩
theorem runB_ok {m : BldR α} {s : BState} {q : α × BState} (e : runB m s = .ok q) : m.run s = .ok (.ok q.1, q.2) := by
  unfold runB at e
  split at e
  · cases e; assumption
  · cases e
  · cases e

variable {ext : BldExt} {dedent : List Atom → Int}

mutual
theorem ex_gives {V : List (List Atom)} : ∀ {e : Ex} {s : BState} {q : Atom × BState}, e.parse ext dedent V s = .ok q → e.Gives ext V q.1
  | .fld n i, s, q, h => by
    rw [Ex.parse] at h
    rw [Ex.Gives]
    split at h
    · cases h; assumption
    · cases h
  | .call f es, s, q, h => by
    rw [Ex.parse] at h
    obtain ⟨p, h1, h2⟩ := run_bind_ok h
    rw [Ex.Gives]
    exact ⟨p.1, exs_gives h1, _, _, _, runB_ok h2⟩
theorem exs_gives {V : List (List Atom)} : ∀ {es : List Ex} {s : BState} {q : List Atom × BState}, exParse ext dedent V es s = .ok q →
    exGives ext V es q.1
  | [], s, q, h => by
    rw [exParse] at h
    cases h
    rw [exGives]
  | e :: es, s, q, h => by
    rw [exParse] at h
    obtain ⟨p, h1, h⟩ := run_bind_ok h
    obtain ⟨p', h2, h⟩ := run_bind_ok h
    cases h
    rw [exGives]
    exact ⟨_, _, rfl, ex_gives h1, exs_gives h2⟩
end

theorem out_gives {V : List (List Atom)} {o : ValOut} {s : BState} {q : List Atom × BState} (h : o.parse ext dedent V s = .ok q) :
    o.Gives ext V q.1 := by
  cases o with
  | copy n =>
    rw [ValOut.parse] at h
    split at h
    · cases h; assumption
    · cases h
  | mk es => exact exs_gives h

theorem perform_gives {act : Act} {o : ValOut} {vals : List PVal} {s : BState} {q : PVal × BState}
    (h : perform ext dedent act o vals s = .ok q) : act.fails = false ∧ o.Gives ext (vals.map (·.atoms)) q.1.atoms := by
  unfold perform at h
  obtain ⟨s1, _, h⟩ := run_bind_ok h
  split at h
  · cases h
  · rename_i hf
    refine ⟨by simpa using hf, ?_⟩
    obtain ⟨s2, _, h⟩ := run_bind_ok h
    split at h
    · obtain ⟨p, h1, h⟩ := run_bind_ok h
      obtain ⟨p', _, h⟩ := run_bind_ok h
      cases h
      exact out_gives h1
    · obtain ⟨p, _, h⟩ := run_bind_ok h
      obtain ⟨p', h1, h⟩ := run_bind_ok h
      cases h
      exact out_gives h1

theorem items_evals {o : ValOut} : ∀ (is : List Item) (ks : List TTree), (∀ t ∈ ks, ∀ s q, t.parse ext dedent s = .ok q → Evals ext t q.1.atoms) →
    ∀ (vals : List PVal) (s : BState) (q : PVal × BState), parseItems ext dedent o is (parseL ext dedent ks) vals s = .ok q →
    is.all (fun i => !i.refuses) = true ∧ ∃ vss, evalsL ext ks vss ∧ o.Gives ext (vals.map (·.atoms) ++ slots is vss) q.1.atoms
  | [], ks, _, vals, s, q, h => by rw [parseItems] at h <;> first | cases h | (intros; contradiction)
  | .err :: _, ks, _, vals, s, q, h => by rw [parseItems] at h <;> first | cases h | (intros; contradiction)
  | [.a act], [], _, vals, s, q, h => by
    rw [parseL, parseItems] at h
    obtain ⟨h1, h2⟩ := perform_gives h
    exact ⟨by simp [Item.refuses, h1], [], by rw [evalsL], ValOut.gives_extends (extends_append _ _) h2⟩
  | [.a act], k :: ks, _, vals, s, q, h => by
    rw [parseL, parseItems] at h
    · obtain ⟨p, _, h⟩ := run_bind_ok h
      change parseItems ext dedent o [] _ _ _ = _ at h
      rw [parseItems] at h <;> first | cases h | (intros; contradiction)
    · intros; contradiction
  | .a act :: i :: is, ks, hk, vals, s, q, h => by
    rw [parseItems_mid] at h
    obtain ⟨p, h1, h⟩ := run_bind_ok h
    obtain ⟨h2, h3⟩ := perform_gives h1
    rw [ValOut.Gives, exGives] at h3
    obtain ⟨h4, vss, h5, h6⟩ := items_evals (i :: is) ks hk _ _ _ h
    refine ⟨by simpa [Item.refuses, h2] using h4, vss, h5, ?_⟩
    rw [List.map_append, takeSaved_atoms, List.map_cons, List.map_nil, h3] at h6
    simpa [slots] using h6
  | .t tok :: is, [], _, vals, s, q, h => by rw [parseL, parseItems] at h <;> first | cases h | (intros; contradiction)
  | .n y :: is, [], _, vals, s, q, h => by rw [parseL, parseItems] at h <;> first | cases h | (intros; contradiction)
  | .t tok :: is, k :: ks, hk, vals, s, q, h => by
    rw [parseL, parseItems] at h
    obtain ⟨p, h1, h⟩ := run_bind_ok h
    obtain ⟨h4, vss, h5, h6⟩ := items_evals is ks (fun t ht => hk t (by simp [ht])) _ _ _ h
    refine ⟨by simpa [Item.refuses] using h4, p.1.atoms :: vss, by rw [evalsL]; exact ⟨_, _, rfl, hk k (by simp) _ _ h1, h5⟩, ?_⟩
    simpa [slots] using h6
  | .n y :: is, k :: ks, hk, vals, s, q, h => by
    rw [parseL, parseItems] at h
    obtain ⟨p, h1, h⟩ := run_bind_ok h
    obtain ⟨h4, vss, h5, h6⟩ := items_evals is ks (fun t ht => hk t (by simp [ht])) _ _ _ h
    refine ⟨by simpa [Item.refuses] using h4, p.1.atoms :: vss, by rw [evalsL]; exact ⟨_, _, rfl, hk k (by simp) _ _ h1, h5⟩, ?_⟩
    simpa [slots] using h6

mutual
theorem parse_evals : ∀ (t : TTree) (s : BState) (q : PVal × BState), t.parse ext dedent s = .ok q → Evals ext t q.1.atoms
  | .leaf tok, s, q, h => by
    rw [TTree.parse] at h
    cases h
    rw [Evals]
  | .node r kids, s, q, h => by
    have hk := parseL_evals kids
    rw [TTree.parse] at h
    split at h
    · rename_i ρ o hρ ho
      obtain ⟨h1, vss, h2, h3⟩ := items_evals _ kids hk _ _ _ h
      rw [Evals]
      exact ⟨ρ, o, hρ, ho, h1, vss, h2, by simpa using h3⟩
    · cases h
theorem parseL_evals : ∀ (ts : List TTree), ∀ t ∈ ts, ∀ s q, t.parse ext dedent s = .ok q → Evals ext t q.1.atoms
  | [], t, h => by simp at h
  | t :: ts, t', ht' => by
    have h1 := parse_evals t
    have h2 := parseL_evals ts
    rcases List.mem_cons.mp ht' with rfl | ht'
    · exact h1
    · exact h2 t' ht'
end

/-- The kinds of the value of a parse. -/
def KindOk (ext : BldExt) (dedent : List Atom → Int) (t : TTree) : Prop :=
  match t.shape.root with
  | none => False
  | some (.t _) => ∃ tok, t = .leaf tok
  | some (.n x) => ∀ s q, t.parse ext dedent s = .ok q → sig x = some (q.1.atoms.map Atom.ak)

theorem items_ak {o : ValOut} {goal : List AK} : ∀ (is : List Item) (ks : List TTree), (syms is).map (·.map some) = some (rootsL (shapeL ks)) →
    (∀ t ∈ ks, KindOk ext dedent t) → ∀ (vals : List PVal) (s : BState) (q : PVal × BState),
    checkTy goal o is (kinds (vals.map (·.atoms))) = true → parseItems ext dedent o is (parseL ext dedent ks) vals s = .ok q →
    q.1.atoms.map Atom.ak = goal
  | [], ks, _, _, vals, s, q, hc, _ => by rw [checkTy] at hc; cases hc
  | .err :: _, ks, h, _, vals, s, q, hc, _ => by simp [syms] at h
  | [.a act], ks, h, _, vals, s, q, hc, hv => by
    obtain rfl : ks = [] := by
      cases ks with
      | nil => rfl
      | cons => simp [syms, shapeL, rootsL] at h
    rw [parseL, parseItems] at hv
    obtain ⟨h1, h2⟩ := perform_gives hv
    simp only [checkTy, Bool.and_eq_true, Bool.or_eq_true, decide_eq_true_eq, h1, Bool.false_eq_true, false_or] at hc
    have hc := hc.2
    unfold actTy at hc
    split at hc
    · cases o with
      | copy n =>
        rw [ValOut.ty] at hc
        rw [ValOut.Gives] at h2
        obtain ⟨w, hw, rfl⟩ := kinds_get hc
        rw [hw] at h2
        cases h2; rfl
      | mk es => exact exs_ak h2 hc
    · cases hc
  | .a act :: i :: is, ks, h, hk, vals, s, q, hc, hv => by
    rw [parseItems_mid] at hv
    obtain ⟨p, h1, hv⟩ := run_bind_ok hv
    obtain ⟨h2, h3⟩ := perform_gives h1
    rw [ValOut.Gives, exGives] at h3
    rw [checkTy] at hc
    · simp only [Bool.and_eq_true, h2, Bool.false_or] at hc
      refine items_ak (i :: is) ks (by simpa [syms] using h) hk _ _ _ ?_ hv
      rw [List.map_append, takeSaved_atoms, List.map_cons, List.map_nil, h3]
      simpa [kinds] using hc.2.2
    · intro h; cases h
  | .t tok :: is, ks, h, hk, vals, s, q, hc, hv => by
    cases ks with
    | nil => simp [syms, shapeL, rootsL] at h
    | cons k ks =>
      simp only [syms, Option.map_map, shapeL, rootsL, Option.map_eq_some_iff] at h
      obtain ⟨a, ha1, ha2⟩ := h
      simp only [Function.comp, List.map_cons, List.cons.injEq] at ha2
      have hk1 := hk k (by simp)
      unfold KindOk at hk1
      rw [← ha2.1] at hk1
      obtain ⟨tk, rfl⟩ := hk1
      rw [parseL, TTree.parse, parseItems] at hv
      refine items_ak is ks (by simp [ha1, ha2.2]) (fun t ht => hk t (by simp [ht])) _ _ _ ?_ hv
      rw [checkTy] at hc
      simpa [kinds, Atom.ak] using hc
  | .n y :: is, ks, h, hk, vals, s, q, hc, hv => by
    cases ks with
    | nil => simp [syms, shapeL, rootsL] at h
    | cons k ks =>
      simp only [syms, Option.map_map, shapeL, rootsL, Option.map_eq_some_iff] at h
      obtain ⟨a, ha1, ha2⟩ := h
      simp only [Function.comp, List.map_cons, List.cons.injEq] at ha2
      have hk1 := hk k (by simp)
      unfold KindOk at hk1
      rw [← ha2.1] at hk1
      rw [parseL, parseItems] at hv
      obtain ⟨p, h1, hv⟩ := run_bind_ok hv
      refine items_ak is ks (by simp [ha1, ha2.2]) (fun t ht => hk t (by simp [ht])) _ _ _ ?_ hv
      rw [checkTy, hk1 _ _ h1] at hc
      simpa [kinds] using hc

mutual
theorem parse_ak : ∀ (t : TTree), t.shape.wf = true → KindOk ext dedent t
  | .leaf tok, _ => ⟨tok, rfl⟩
  | .node r kids, h => by
    have hk := parseL_ak kids
    rw [TTree.shape] at h
    unfold Tree.wf at h
    unfold KindOk
    rw [TTree.shape]
    unfold Tree.root
    split at h
    · simp at h
    · rename_i ρ hρ
      rw [Bool.and_eq_true, decide_eq_true_iff] at h
      simp only [hρ, Option.map_some]
      obtain ⟨o, ho⟩ := outs_some hρ
      obtain ⟨-, c3, c4⟩ := rule_parse_checked hρ ho
      intro s q hq
      rw [TTree.parse] at hq
      simp only [hρ, ho] at hq
      have h4 := items_ak _ kids h.1 (hk h.2) [] s q c3 hq
      obtain ⟨h1, -⟩ := items_evals _ kids (parseL_evals kids) _ _ _ hq
      rcases hs : sig ρ.lhs with _ | k
      · rw [c4 hs] at h1; cases h1
      · rw [h4, hs]; rfl
theorem parseL_ak : ∀ (ts : List TTree), wfL (shapeL ts) = true → ∀ t ∈ ts, KindOk ext dedent t
  | [], _ => by simp
  | t :: ts, h => by
    simp only [shapeL, wfL, Bool.and_eq_true] at h
    have h1 := parse_ak t h.1
    have h2 := parseL_ak ts h.2
    intro t' ht'
    rcases List.mem_cons.mp ht' with rfl | ht'
    · exact h1
    · exact h2 t' ht'
end

end Verif.Grammar
