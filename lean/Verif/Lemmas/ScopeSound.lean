import Verif.Lemmas.ScopeWalk
import Verif.Lemmas.ScopeFits
/-!
Every production keeps the tables and the bindings of its value in step.
-/
namespace Verif
open Grammar hiding Loose
open Builder ScopeSpec

section
variable {ext : BldExt} {x : Text} {V : List (List Atom)} {d0 dp : Prop} {dedent : List Atom → Int} {st st' : SS}
  {vals : List PVal} {s0 s s' : BState} {v : List Atom}

theorem parts_bv {k : SK} : BV ext x k v ↔ ∃ p ∈ partsOf k (V.length + 1) (v.map Atom.ak), Bat ext x (V ++ [v]) p := by
  have hV : (V ++ [v])[V.length]? = some v := by simp
  constructor
  · rintro ⟨a, h1, h2, h3⟩
    obtain ⟨i, hi, rfl⟩ := List.mem_iff_getElem.mp h1
    refine ⟨(V.length + 1, i), ?_, _, by rw [Nat.add_sub_cancel, hV]; simp [hi], h3⟩
    unfold partsOf
    refine List.mem_map.mpr ⟨i, List.mem_filter.mpr ⟨by simpa using hi, ?_⟩, rfl⟩
    rcases h2 with rfl | h2
    · rfl
    · rw [isTok_ak] at h2
      simp only [List.getElem?_map, List.getElem?_eq_getElem hi, Option.map_some]
      cases hb : v[i].ak <;> rw [hb] at h2 <;> first | (cases h2; done) | simp
  · rintro ⟨p, h1, a, h2, h3⟩
    unfold partsOf at h1
    obtain ⟨i, g1, rfl⟩ := List.mem_map.mp h1
    have h1 := (List.mem_filter.mp g1).2
    rw [Nat.add_sub_cancel, hV] at h2
    have h2 : v[i]? = some a := h2
    refine ⟨a, List.mem_of_getElem? h2, ?_, h3⟩
    simp only [List.getElem?_map, h2, Option.map_some, Bool.or_eq_true, beq_iff_eq] at h1
    refine h1.imp_right fun h1 => ?_
    rw [isTok_ak]
    cases hb : a.ak <;> rw [hb] at h1 <;> first | rfl | (exact absurd h1 (by decide))
theorem parts_some {k : SK} {p : Pos} (h : p ∈ partsOf k (V.length + 1) (v.map Atom.ak)) : ((V ++ [v])[p.1 - 1]?).isSome = true := by
  unfold partsOf at h
  obtain ⟨i, _, rfl⟩ := List.mem_map.mp h
  simp
theorem holds_add {l : Lv} {ps : List Pos} : (l.add ps).holds ext x V d0 ↔ l.holds ext x V d0 ∨ ∃ p ∈ ps, Bat ext x V p := by
  simp only [Lv.holds, Lv.add, List.mem_append, or_and_right, exists_or]
  constructor
  · rintro (h | h | h)
    exacts [.inl (.inl h), .inr h, .inl (.inr h)]
  · rintro ((h | h) | h)
    exacts [.inl h, .inr (.inr h), .inr (.inl h)]

/-- The tables after a nonterminal. -/
def afterNT (k : SK) (ctx : Lv) (ps : List Pos) (r : List Lv) (nm : Nm) (m : List Nm) (st : SS) (K : List Fd) : SS :=
  match k with
  | .sealed | .raw => { st with K }
  | .head => { env := Lv.none :: ctx :: r, num := ⟨false, []⟩ :: nm :: m, K }
  | .params => { env := ctx :: r, num := { nm with G := ps ++ nm.G } :: m, K }
  | _ => { st with env := ctx :: r, K }

theorem nt_tabs {k : SK} {cur : Lv} {r : List Lv} {nm : Nm} {m : List Nm} {K : List Fd} (he : st.env = cur :: r) (hn : st.num = nm :: m)
    (h : TabsS ext x V s0 st s) (hk : NTOk ext x k s s' v) :
    TabsS ext x (V ++ [v]) s0 (afterNT k (cur.add (partsOf k (V.length + 1) (v.map Atom.ak))) (partsOf k (V.length + 1) (v.map Atom.ak)) r nm m st K) s' := by
  have h := h.append (v := v)
  unfold TabsS
  rw [he, hn] at h
  have hctx : Dcl x s ∨ BV ext x k v → (cur.add (partsOf k (V.length + 1) (v.map Atom.ak))).holds ext x (V ++ [v]) (Dcl x s0) := by
    rw [holds_add]
    exact Or.imp h.head parts_bv.mp
  by_cases hh : k = .head
  · subst hh
    obtain ⟨g1, ⟨w, g2, g3⟩, c, l, g4, g5⟩ := hk.head rfl
    refine ⟨?_, ?_, nofun⟩
    · obtain ⟨vs, k1, k2⟩ := h.env
      cases k2 with | cons k2 k3 =>
      rename_i w0 ws
      simp only [List.cons_append, List.cons.injEq] at k1
      exact ⟨s'.staticEnv.variables :: w :: ws, by rw [g2, k1.2]; rfl, .cons (fun g => absurd g g1) (.cons (fun g => hctx (g3 g)) k3)⟩
    · refine ⟨c, l, g4, ⟨nofun, nofun⟩, ?_⟩
      exact h.num.step (b := ⟨l⟩) g5
  · obtain ⟨g1, g2, g3⟩ := hk.flat hh
    have hnum := h.num.step g2
    by_cases hs : k = .sealed ∨ k = .raw
    · have : Tabs ext x (V ++ [v]) (Dcl x s0) s0.staticEnv s0.numparams st.env st.num s'.staticEnv s'.numparams := by
        rw [he, hn]
        refine (h.setEnv g1 fun g => ?_).setNum hnum
        rcases g3 g with g | g
        · exact h.head g
        · rcases hs with rfl | rfl
          · exact absurd rfl g.1
          · exact absurd rfl g.2.1
      rcases hs with rfl | rfl <;> exact this
    · have hset := h.setEnv (l' := cur.add (partsOf k (V.length + 1) (v.map Atom.ak))) g1 fun g => hctx ((g3 g).imp_right fun g => g.2.2)
      by_cases hp : k = .params
      · subst hp
        refine hset.setNum (hnum.set rfl rfl id ⟨hnum.top.1, fun p hp => ?_⟩)
        rcases List.mem_append.mp hp with hp | hp
        · exact ⟨parts_some hp, fun b => hk.params rfl (parts_bv.mpr ⟨p, hp, b⟩)⟩
        · exact hnum.top.2 p hp
      · have := hset.setNum hnum
        rw [← hn] at this
        cases k <;> first | exact this | exact absurd rfl hh | exact absurd rfl hp | exact absurd (.inl rfl) hs | exact absurd (.inr rfl) hs

/-- What is known of the tree for a symbol. -/
def KidS (ext : BldExt) (x : Text) (dedent : List Atom → Int) (t : TTree) : Prop :=
  match t.shape.root with
  | none => False
  | some (.t _) => ∃ tok, t = .leaf tok
  | some (.n y) => ∀ s q, t.parse ext dedent s = .ok q → ¬ Clash q.2 → NTOk ext x (sk y) s q.2 q.1.atoms ∧ sig y = some (q.1.atoms.map Atom.ak) ∧
      (y = NT.method_call → ∀ a ∈ q.1.atoms, fitsAtom a) ∧
      (y = NT.opt_ensure → q.1.atoms[0]? = some (.otok none) → ∀ a, q.1.atoms[1]? = some a → a.trees = [])
/-- A report stays. -/
def StaysC (ext : BldExt) (dedent : List Atom → Int) (t : TTree) : Prop := ∀ s q, t.parse ext dedent s = .ok q → Clash s → Clash q.2

theorem items_clash {o : ValOut} : ∀ (is : List Item) (ks : List TTree), (∀ t ∈ ks, StaysC ext dedent t) →
    ∀ (vals : List PVal) (s : BState) (q : PVal × BState), parseItems ext dedent o is (parseL ext dedent ks) vals s = .ok q → Clash s → Clash q.2
  | [], ks, _, vals, s, q, h, _ => by rw [parseItems] at h <;> first | cases h | (intros; contradiction)
  | .err :: _, ks, _, vals, s, q, h, _ => by rw [parseItems] at h <;> first | cases h | (intros; contradiction)
  | [.a act], [], _, vals, s, q, h, hc => by
    rw [parseL, parseItems] at h
    exact perform_clash h hc
  | [.a act], k :: ks, _, vals, s, q, h, hc => by
    rw [parseL, parseItems] at h
    · obtain ⟨p, _, h⟩ := run_bind_ok h
      change parseItems ext dedent o [] _ _ _ = _ at h
      rw [parseItems] at h <;> first | cases h | (intros; contradiction)
    · intros; contradiction
  | .a act :: i :: is, ks, hk, vals, s, q, h, hc => by
    rw [parseItems_mid] at h
    obtain ⟨p, h1, h⟩ := run_bind_ok h
    exact items_clash (i :: is) ks hk _ _ _ h (perform_clash h1 hc)
  | .t tok :: is, [], _, vals, s, q, h, _ => by rw [parseL, parseItems] at h <;> first | cases h | (intros; contradiction)
  | .n y :: is, [], _, vals, s, q, h, _ => by rw [parseL, parseItems] at h <;> first | cases h | (intros; contradiction)
  | .t tok :: is, k :: ks, hk, vals, s, q, h, hc => by
    rw [parseL, parseItems] at h
    obtain ⟨p, h1, h⟩ := run_bind_ok h
    exact items_clash is ks (fun t ht => hk t (by simp [ht])) _ _ _ h (hk k (by simp) _ _ h1 hc)
  | .n y :: is, k :: ks, hk, vals, s, q, h, hc => by
    rw [parseL, parseItems] at h
    obtain ⟨p, h1, h⟩ := run_bind_ok h
    exact items_clash is ks (fun t ht => hk t (by simp [ht])) _ _ _ h (hk k (by simp) _ _ h1 hc)

mutual
theorem parse_clash : ∀ (t : TTree), StaysC ext dedent t
  | .leaf tok, s, q, h, hc => by
    rw [TTree.parse] at h
    cases h
    exact hc
  | .node r kids, s, q, h, hc => by
    have hk := parseL_clash kids
    rw [TTree.parse] at h
    split at h
    · exact items_clash _ kids hk _ _ _ h hc
    · cases h
theorem parseL_clash : ∀ (ts : List TTree), ∀ t ∈ ts, StaysC ext dedent t
  | [], t, h => by simp at h
  | t :: ts, t', ht' => by
    have h1 := parse_clash t
    have h2 := parseL_clash ts
    rcases List.mem_cons.mp ht' with rfl | ht'
    · exact h1
    · exact h2 t' ht'
end

theorem walkS_mid {k : SK} {block : Bool} {o : ValOut} {act : Act} {i : Item} {is : List Item} :
    walkS k block o (.a act :: i :: is) st = (act.fails || (match opsSc ((extra act.line).writes.foldl writeS st) act.ops with
    | some st => walkS k block o (i :: is) { st with K := st.K ++ [{ ak := [], ctx := Lv.none }] }
    | none => false)) := by
  rw [walkS]
  · rfl
  · intro h; cases h
theorem walkS_nt {k : SK} {block : Bool} {o : ValOut} {y : NT} {is : List Item} {cur : Lv} {r : List Lv} {nm : Nm} {m : List Nm} {ak : List AK}
    (he : st.env = cur :: r) (hn : st.num = nm :: m) (ha : sig y = some ak) : walkS k block o (.n y :: is) st =
    walkS k block o is (afterNT (sk y) (cur.add (partsOf (sk y) (st.K.length + 1) ak)) (partsOf (sk y) (st.K.length + 1) ak) r nm m st
      (st.K ++ [{ raw := sk y == .raw, bare := sk y == .bare, fits := y == NT.method_call || (block && (st.K.length + 1) == 1),
                  pair := y == NT.opt_ensure, ak := ak, ctx := cur.add (partsOf (sk y) (st.K.length + 1) ak) }])) := by
  obtain ⟨E, N, K⟩ := st
  cases he
  cases hn
  rw [walkS]
  simp only [ha]
  unfold afterNT
  cases sk y <;> rfl

theorem items_scope (hx : Plain x) {k : SK} {block : Bool} {o : ValOut} : ∀ (is : List Item) (ks : List TTree),
    (syms is).map (·.map some) = some (rootsL (shapeL ks)) → (∀ t ∈ ks, KidS ext x dedent t) → ∀ (vals : List PVal) (st : SS) (s : BState) (q : PVal × BState),
    (block = true → vals = [] → ∀ t ∈ ks.head?, ∀ s q, t.parse ext dedent s = .ok q → ∀ a ∈ q.1.atoms, fitsAtom a) →
    walkS k block o is st = true → TabsS ext x (vals.map (·.atoms)) s0 st s →
    List.Forall₂ (FdOk ext x (vals.map (·.atoms)) (Dcl x s0)) st.K (vals.map (·.atoms)) →
    parseItems ext dedent o is (parseL ext dedent ks) vals s = .ok q → ¬ Clash q.2 → NTOk ext x k s0 q.2 q.1.atoms
  | [], ks, _, _, vals, st, s, q, _, hc, _, _, _, _ => by rw [walkS] at hc; cases hc
  | .err :: _, ks, h, _, vals, st, s, q, _, hc, _, _, _, _ => by simp [syms] at h
  | [.a act], ks, h, _, vals, st, s, q, _, hc, ht, hK, hv, hq => by
    obtain rfl : ks = [] := by
      cases ks with
      | nil => rfl
      | cons => simp [syms, shapeL, rootsL] at h
    rw [parseL, parseItems] at hv
    obtain ⟨h1, -⟩ := perform_gives hv
    rw [walkS, h1, Bool.false_or] at hc
    exact last_sound hx hK hc ht hv hq
  | .a act :: i :: is, ks, h, hk, vals, st, s, q, _, hc, ht, hK, hv, hq => by
    rw [parseItems_mid] at hv
    obtain ⟨p, h1, hv⟩ := run_bind_ok hv
    obtain ⟨h2, -⟩ := perform_gives h1
    rw [walkS_mid, h2, Bool.false_or] at hc
    split at hc
    case h_2 => cases hc
    rename_i st1 hst1
    obtain ⟨g1, g2, g3⟩ := mid_sound hx hst1 ht h1
    have hV : (takeSaved vals act.uses ++ [p.1]).map (·.atoms) = vals.map (·.atoms) ++ [[]] := by
      rw [List.map_append, takeSaved_atoms, List.map_cons, List.map_nil, g3]
    refine items_scope hx (i :: is) ks (by simpa [syms] using h) hk _ _ _ _ (fun _ e => by simp at e) hc ?_ ?_ hv hq
    · rw [hV]; exact Tabs.append g1
    · rw [hV]
      rw [← g2] at hK
      exact fds_append hK ⟨rfl, by simp, by simp, by simp, by simp, by simp, by simp⟩
  | .t tok :: is, ks, h, hk, vals, st, s, q, _, hc, ht, hK, hv, hq => by
    cases ks with
    | nil => simp [syms, shapeL, rootsL] at h
    | cons k ks =>
      simp only [syms, Option.map_map, shapeL, rootsL, Option.map_eq_some_iff] at h
      obtain ⟨a, ha1, ha2⟩ := h
      simp only [Function.comp, List.map_cons, List.cons.injEq] at ha2
      have hk1 := hk k (by simp)
      unfold KidS at hk1
      rw [← ha2.1] at hk1
      obtain ⟨tk, rfl⟩ := hk1
      rw [parseL, TTree.parse, parseItems] at hv
      change parseItems ext dedent o is (parseL ext dedent ks) (vals ++ [⟨[.tok tk], none⟩]) s = .ok q at hv
      rw [walkS] at hc
      have hV : (vals ++ [(⟨[.tok tk], none⟩ : PVal)]).map (·.atoms) = vals.map (·.atoms) ++ [[.tok tk]] := by simp
      refine items_scope hx is ks (by simp [ha1, ha2.2]) (fun t ht => hk t (by simp [ht])) _ _ _ _ (fun _ e => by simp at e) hc ?_ ?_ hv hq
      · rw [hV]; exact Tabs.append ht
      · rw [hV]
        exact fds_append hK ⟨rfl, by simp [LA, Atom.trees], by simp [UA, Atom.trees], by simp, by simp, by simp, by simp⟩
  | .n y :: is, ks, h, hk, vals, st, s, q, hb, hc, ht, hK, hv, hq => by
    cases ks with
    | nil => simp [syms, shapeL, rootsL] at h
    | cons k ks =>
      simp only [syms, Option.map_map, shapeL, rootsL, Option.map_eq_some_iff] at h
      obtain ⟨a, ha1, ha2⟩ := h
      simp only [Function.comp, List.map_cons, List.cons.injEq] at ha2
      have hk1 := hk k (by simp)
      unfold KidS at hk1
      rw [← ha2.1] at hk1
      rw [parseL, parseItems] at hv
      obtain ⟨p, h1, hv⟩ := run_bind_ok hv
      have hcl : ¬ Clash p.2 := fun c => hq (items_clash is ks (fun t _ => parse_clash t) _ _ _ hv c)
      obtain ⟨g1, g2, g3, g4⟩ := hk1 _ _ h1 hcl
      obtain ⟨cur, r, he⟩ := List.exists_cons_of_ne_nil ht.ne
      obtain ⟨nm, m, hn⟩ : ∃ nm N, st.num = nm :: N := by
        cases hn : st.num with
        | nil => have := ht.num; rw [hn] at this; exact this.elim
        | cons nm N => exact ⟨nm, N, rfl⟩
      rw [walkS_nt he hn g2] at hc
      have hlen : st.K.length = (vals.map (·.atoms)).length := hK.length_eq
      rw [hlen] at hc
      have hV : (vals ++ [p.1]).map (·.atoms) = vals.map (·.atoms) ++ [p.1.atoms] := by simp
      refine items_scope hx is ks (by simp [ha1, ha2.2]) (fun t ht => hk t (by simp [ht])) _ _ _ _ (fun _ e => by simp at e) hc ?_ ?_ hv hq
      · rw [hV]; exact nt_tabs he hn ht g1
      · rw [hV]
        have hKK : ∀ {k ctx ps K}, (afterNT k ctx ps r nm m st K).K = K := by intro k ctx ps K; cases k <;> rfl
        rw [hKK]
        refine fds_append hK ⟨rfl, g1.loose, fun hr a ha hu => ?_, fun hr => g1.raw (by simpa using hr), fun hr => g1.bare (by simpa using hr), fun hr => ?_,
          fun hr => g4 (by simpa using hr)⟩
        · rw [holds_add]
          have hr : sk y ≠ .raw := by simpa using hr
          rcases g1.uses hr a ha hu with g | g
          · refine .inl (holds_append ?_)
            unfold TabsS at ht
            rw [he] at ht
            exact ht.head g
          · exact .inr (parts_bv.mp g)
        · simp only [Bool.or_eq_true, beq_iff_eq, Bool.and_eq_true, Nat.add_eq_right, List.length_map, List.length_eq_zero_iff] at hr
          rcases hr with hr | ⟨hr1, hr2⟩
          · exact g3 hr
          · exact hb hr1 hr2 k (by simp) _ _ h1

/-! ### The whole table -/

/-- Every production of the grammar passes. -/
theorem rules_scope : ((rules.zip outs).all fun p => checkScope p.1 p.2.2) = true := by decide +kernel

mutual
theorem parse_scope (hx : Plain x) : ∀ (t : TTree), t.shape.wf = true → t.blocksFit = true → KidS ext x dedent t
  | .leaf tok, _, _ => ⟨tok, rfl⟩
  | .node r kids, hw, hb => by
    have hF := fineAll (ext := ext) _ hw hb
    have hA := parse_ak (ext := ext) (dedent := dedent) _ hw
    have hk := parseL_scope hx kids
    have hfits : ∀ t ∈ kids.head?, ((rules[r]?).any (·.doBlockCall)) = true → ∀ s q, t.parse ext dedent s = .ok q → ∀ a ∈ q.1.atoms, fitsAtom a := by
      intro t ht hd s q hq
      rw [TTree.blocksFit, hd, Bool.not_true, Bool.false_or, Bool.and_eq_true] at hb
      cases kids with
      | nil => cases ht
      | cons k ks =>
        obtain rfl : k = t := by simpa using ht
        have hw' : wfL (shapeL (k :: ks)) = true := by
          rw [TTree.shape, Tree.wf] at hw
          split at hw
          · cases hw
          · rw [Bool.and_eq_true] at hw; exact hw.2
        rw [shapeL] at hw'
        rw [FineAll, FineAllL] at hF
        exact fits_first (by simpa using hb.1) (wfL_cons hw').1 hF.2.1 (parse_evals _ _ _ hq)
    have hall : ∀ y, (TTree.node r kids).shape.root = some (.n y) → ∀ s q, (TTree.node r kids).parse ext dedent s = .ok q → ¬ Clash q.2 →
        NTOk ext x (sk y) s q.2 q.1.atoms := by
      intro y hy s q hq hc
      rw [TTree.shape] at hw hy
      unfold Tree.wf at hw
      unfold Tree.root at hy
      split at hw
      · simp at hw
      · rename_i ρ hρ
        rw [Bool.and_eq_true, decide_eq_true_iff] at hw
        simp only [hρ, Option.map_some, Option.some.injEq, Sym.n.injEq] at hy
        subst hy
        rw [TTree.blocksFit, Bool.and_eq_true] at hb
        obtain ⟨o, ho⟩ := outs_some hρ
        have hch := List.all_eq_true.mp rules_scope _ (rule_mem hρ ho)
        rw [TTree.parse] at hq
        simp only [hρ, ho] at hq
        refine items_scope hx _ kids hw.1 (hk hw.2 hb.2) [] startS s q ?_ hch ?_ .nil hq hc
        · intro h1 _ t ht
          exact hfits t ht (by rw [hρ]; exact h1)
        · refine ⟨⟨[s.staticEnv.variables], rfl, .cons (fun h => .inl ⟨rfl, h⟩) .nil⟩, ⟨.refl _, nofun, nofun⟩, nofun⟩
    unfold KidS
    unfold KindOk at hA
    cases hr : (TTree.node r kids).shape.root with
    | none => rw [hr] at hA; exact hA
    | some y =>
      cases y with
      | t y => rw [TTree.shape, Tree.root] at hr; cases h : rules[r]? <;> rw [h] at hr <;> cases hr
      | n y =>
        rw [hr] at hA
        intro s q hq hc
        refine ⟨hall y hr s q hq hc, hA s q hq, ?_, ?_⟩
        · rintro rfl
          exact fits_method hF.fine hr (parse_evals _ _ _ hq)
        · rintro rfl
          exact pair_ensure hr (parse_evals _ _ _ hq)
theorem parseL_scope (hx : Plain x) : ∀ (ts : List TTree), wfL (shapeL ts) = true → blocksFitL ts = true → ∀ t ∈ ts, KidS ext x dedent t
  | [], _, _ => by simp
  | t :: ts, h, hb => by
    simp only [shapeL, wfL, Bool.and_eq_true] at h
    rw [blocksFitL, Bool.and_eq_true] at hb
    have h1 := parse_scope hx t h.1 hb.1
    have h2 := parseL_scope hx ts h.2 hb.2
    intro t' ht'
    rcases List.mem_cons.mp ht' with rfl | ht'
    · exact h1
    · exact h2 t' ht'
end

/-- What is declared at the end of a program is bound in its tree. -/
theorem program_bound (hx : Plain x) {t : TTree} (hw : t.shape.wf = true) (hr : t.shape.root = some (.n NT.program)) (hb : t.blocksFit = true)
    {s : BState} {n : Node} {c : Option Saved} (h0 : ¬ Dcl x s) (hp : t.parse ext dedent s = .ok (⟨[.onode (some n)], c⟩, s')) (hc : ¬ Clash s') :
    Dcl x s' → Binds ext x n := by
  have h := parse_scope (ext := ext) (dedent := dedent) hx t hw hb
  unfold KidS at h
  rw [hr] at h
  obtain ⟨h1, -⟩ := h s _ hp hc
  have hk : sk NT.program = .ok := by decide
  rw [hk] at h1
  intro hd
  obtain ⟨-, -, b, h3, h4, h5⟩ := ((h1.flat (by decide)).2.2 hd).resolve_left h0
  cases List.mem_singleton.mp h3
  obtain ⟨m, hm, h5⟩ := (BA_node (h4.resolve_left (by decide))).mp h5
  cases List.mem_singleton.mp hm
  exact h5

/-- Every local variable of a tree of a program is bound in its scope. -/
theorem program_scoped (hx : Plain x) {t : TTree} (hw : t.shape.wf = true) (hr : t.shape.root = some (.n NT.program)) (hb : t.blocksFit = true)
    {s : BState} {q : PVal × BState} (h0 : ¬ Dcl x s) (hp : t.parse ext dedent s = .ok q) (hc : ¬ Clash q.2) :
    ∀ a ∈ q.1.atoms, ∀ n ∈ a.trees, Scoped ext x n := by
  have h := parse_scope (ext := ext) (dedent := dedent) hx t hw hb
  unfold KidS at h
  rw [hr] at h
  obtain ⟨h1, h2, -, -⟩ := h s q hp hc
  have hk : sk NT.program = .ok := by decide
  rw [hk] at h1
  intro a ha n hn
  refine ⟨fun hl => h1.loose a ha ⟨n, hn, hl⟩, fun hu => ?_⟩
  obtain ⟨b, h3, h4, h5⟩ := (h1.uses (by decide) a ha ⟨n, hn, hu⟩).resolve_left h0
  have hs : sig NT.program = some [.onode] := by decide
  rw [hs] at h2
  rcases hq : q.1.atoms with _ | ⟨c, _ | ⟨d, l⟩⟩
  · rw [hq] at ha; cases ha
  · rw [hq] at ha h3 h2
    cases List.mem_singleton.mp ha
    cases List.mem_singleton.mp h3
    rw [BA_node (h4.resolve_left (by decide))] at h5
    obtain ⟨m, hm, h5⟩ := h5
    cases a <;> simp only [List.map_cons, List.map_nil, Option.some.injEq, List.cons.injEq, and_true, Atom.ak, reduceCtorEq] at h2
    rename_i o
    rw [Atom.trees, Option.mem_toList] at hm hn
    rw [hm] at hn
    cases hn
    exact h5
  · rw [hq] at h2; simp at h2

end
end Verif
