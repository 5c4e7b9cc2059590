import Verif.Lemmas.ScopeGrow
import Verif.Lemmas.ScopeFn
import Verif.Lemmas.ParseEvals
import Mathlib.Data.List.Forall2
/-!
What the checker says of an expression holds for its value.
-/
namespace Verif
open Builder Grammar ScopeSpec

/-! ### Changes of the tables -/

/-- Numbered parameters were reported next to ordinary ones. -/
def Clash (s : BState) : Prop := ∃ l, ⟨.error, .OrdinaryParamDefined, l⟩ ∈ s.diagnostics
/-- Only the top is replaced, and ordinary parameters stay noted. -/
structure NumStep (a b : NumStack) : Prop where
  tail : b.stack.tail = a.stack.tail
  len : b.stack.length = a.stack.length
  ord : a.hasOrdinaryParams = true → b.hasOrdinaryParams = true
theorem NumStep.refl (a : NumStack) : NumStep a a := ⟨rfl, rfl, id⟩
theorem NumStep.trans (h : NumStep a b) (g : NumStep b c) : NumStep a c := ⟨g.tail.trans h.tail, g.len.trans h.len, g.ord ∘ h.ord⟩
/-- What every function leaves alone. -/
structure Keeps (s s' : BState) : Prop where
  stack : s'.staticEnv.stack = s.staticEnv.stack
  clash : Clash s → Clash s'
  num : ¬ Clash s' → NumStep s.numparams s'.numparams
instance : Frame Keeps where
  refl s := ⟨rfl, id, fun _ => .refl _⟩
  trans h g := ⟨g.stack.trans h.stack, g.clash ∘ h.clash, fun n => (h.num (n ∘ g.clash)).trans (g.num n)⟩
  diag s d := ⟨rfl, fun ⟨l, h⟩ => ⟨l, List.mem_append_left _ h⟩, fun _ => .refl _⟩

theorem set_step {n n' : NumStack} {v : Int} (h : n.set v = .ok n') : n'.stack.tail = n.stack.tail ∧ n'.stack.length = n.stack.length ∧ n'.top = v := by
  unfold NumStack.set at h
  split at h
  · cases h
  · rename_i e
    cases h
    exact ⟨by simp [e], by simp [e], rfl⟩

section
variable {ext : BldExt} {x : Text} {indent : Int} {f : BFn} {xs : List Atom}
theorem fn_keeps : BldR.Steps Keeps (applyFn ext indent f xs) := by
  refine fn_steps ⟨fun _ => ?_, fun _ _ => ?_, fun _ => ?_, fun _ => ?_⟩
  · intro s n k num d l _ _ _ hk hl
    refine ⟨rfl, fun ⟨l, h⟩ => ⟨l, List.mem_append_left _ h⟩, fun hn => ?_⟩
    obtain ⟨h1, h2, -⟩ := set_step hk
    exact ⟨h1, h2, fun h => absurd ⟨l, List.mem_append_right _ (hl h)⟩ hn⟩
  · exact fun s n => ⟨rfl, id, fun _ => .refl _⟩
  · exact fun s n v _ => ⟨rfl, id, fun _ => .refl _⟩
  · exact fun s n v _ => ⟨rfl, id, fun _ => .refl _⟩

/-- Functions that declare variables. -/
def growFn : BFn → Bool
  | .assignable | .matchVar | .matchRest | .matchLabel | .matchOp => true
  | _ => false
theorem fn_same (hx : isNumparamName x = false) (hf : growFn f = false) : BldR.Steps (Same x) (applyFn ext indent f xs) := by
  refine fn_steps ⟨fun _ => allowsNum_same hx, fun h1 h2 => ?_, fun _ => ?_, fun _ => ?_⟩
  · exfalso
    cases f <;> first | (simp [BFn.touches] at h1; done) | (simp [BFn.touches] at h2; done) | (simp [growFn] at hf; done)
  · exact fun s n v _ h => h
  · exact fun s n v _ h => h
end

/-! ### Parts -/

section
variable (ext : BldExt) (x : Text) (V : List (List Atom)) (d0 : Prop)

/-- Part `p` binds `x`. -/
def Bat (p : Pos) : Prop := ∃ a, (V[p.1 - 1]?).bind (·[p.2]?) = some a ∧ BA ext x a
/-- `x` was declared there; `d0` says that it was before the production. -/
def Grammar.Lv.holds (l : Lv) : Prop := (l.base = true ∧ d0) ∨ ∃ p ∈ l.S, Bat ext x V p

/-- What the checker says of an atom; `dp` says that `x` was declared before its expression. -/
structure AtomOk (dp : Prop) (r : ER) (a : Atom) : Prop where
  tok : a.isTok = r.tok
  cov : ∀ p ∈ r.cov, Bat ext x V p → BA ext x a
  used : r.own = false → BA ext x a → ∃ p ∈ r.used, Bat ext x V p
  uses : r.raw = false → UA ext x a → r.req.holds ext x V d0 ∨ (r.acc = true ∧ dp)
  raw : r.raw = true → (∃ y l, a = .node (.Lvar y l)) ∨ ¬ UA ext x a
  loose : ¬ LA ext x a
  bare : r.bare = true → bareAtom a
  fits : r.fits = true → fitsAtom a
  one : r.one = true → ∃ n, a = .nodes [n]

/-- What it says of several. -/
structure Joined (dp : Prop) (J : ER) (xs : List Atom) : Prop where
  cov : ∀ p ∈ J.cov, Bat ext x V p → Some_ (Binds ext x) (treesOf xs)
  used : J.own = false → Some_ (Binds ext x) (treesOf xs) → ∃ p ∈ J.used, Bat ext x V p
  uses : Some_ (Uses ext x) (treesOf xs) → J.req.holds ext x V d0 ∨ (J.acc = true ∧ dp)
  loose : ¬ Some_ (Loose ext x) (treesOf xs)

/-- What is known of the value `$n`. -/
structure FdOk (fd : Fd) (v : List Atom) : Prop where
  ak : v.map Atom.ak = fd.ak
  loose : ∀ a ∈ v, ¬ LA ext x a
  uses : fd.raw = false → ∀ a ∈ v, UA ext x a → fd.ctx.holds ext x V d0
  raw : fd.raw = true → ∀ a ∈ v, (∃ y l, a = .node (.Lvar y l)) ∨ ¬ UA ext x a
  bare : fd.bare = true → ∀ a ∈ v, bareAtom a
  fits : fd.fits = true → ∀ a ∈ v, fitsAtom a
  pair : fd.pair = true → v[0]? = some (.otok none) → ∀ a, v[1]? = some a → a.trees = []

/-- Ordinary parameters are noted as the checker says. -/
def NmOk (nm : Nm) (n : NumStack) : Prop :=
  (nm.ord = true → n.hasOrdinaryParams = true) ∧
  ∀ p ∈ nm.G, (V[p.1 - 1]?).isSome = true ∧ (Bat ext x V p → n.hasOrdinaryParams = true)
end

section
variable {ext : BldExt} {x : Text} {V : List (List Atom)} {d0 dp : Prop} {indent : Int} {dedent : List Atom → Int}
  {st : SS} {f : BFn} {es : List Ex} {rs : List ER} {r : ER} {xs : List Atom} {a : Atom} {s s1 s' : BState}

theorem isTok_ak : a.isTok = (a.ak == .tok || a.ak == .otok) := by cases a <;> rfl

theorem NmOk.step {nm : Nm} {n n' : NumStack} (h : NmOk ext x V nm n) (g : NumStep n n') : NmOk ext x V nm n' :=
  ⟨fun e => g.ord (h.1 e), fun p hp => ⟨(h.2 p hp).1, fun e => g.ord ((h.2 p hp).2 e)⟩⟩

theorem holds_union {a b : Lv} : (a.union b).holds ext x V d0 ↔ a.holds ext x V d0 ∨ b.holds ext x V d0 := by
  simp only [Lv.holds, Lv.union, Bool.or_eq_true, List.mem_append, or_and_right, exists_or]
  exact or_or_or_comm ..
theorem holds_none : ¬ Lv.none.holds ext x V d0 := by simp [Lv.holds, Lv.none]
theorem holds_minus {l : Lv} {cov : List Pos} (h : l.holds ext x V d0) : (l.minus cov).holds ext x V d0 ∨ ∃ p ∈ cov, Bat ext x V p := by
  rcases h with h | ⟨p, hp, h⟩
  · exact .inl (.inl h)
  · by_cases hc : p ∈ cov
    · exact .inr ⟨p, hc, h⟩
    · exact .inl (.inr ⟨p, by simp [Lv.minus, hp, hc], h⟩)

theorem joinN_flags : ∀ rs : List ER, (joinN rs).raw = false ∧ (joinN rs).tok = false ∧ (joinN rs).bare = false ∧ (joinN rs).fits = false ∧
    (joinN rs).one = false
  | [] => ⟨rfl, rfl, rfl, rfl, rfl⟩
  | r :: rs => by
    rw [joinN]
    split
    · exact joinN_flags rs
    · exact ⟨rfl, rfl, rfl, rfl, rfl⟩

theorem AtomOk.later {dp' : Prop} (h : AtomOk ext x V d0 dp r a) (hd : r.tok = false → r.acc = true → dp → dp') :
    AtomOk ext x V d0 dp' r a :=
  { h with
    uses := fun hr hu => (h.uses hr hu).imp_right fun ⟨h1, h2⟩ => ⟨h1, hd (by
      rcases ht : r.tok with _ | _
      · rfl
      · rw [UA, tok_trees (h.tok.trans ht)] at hu; simp at hu) h1 h2⟩ }

theorem joined : ∀ {rs : List ER} {xs : List Atom}, List.Forall₂ (AtomOk ext x V d0 dp) rs xs → rs.any (·.raw) = false →
    Joined ext x V d0 dp (joinN rs) xs
  | [], _, .nil, _ => by constructor <;> simp [joinN, treesOf]
  | r :: rs, a :: xs, .cons h hs, hr => by
    simp only [List.any_cons, Bool.or_eq_false_iff] at hr
    have ih := joined hs hr.2
    rw [joinN]
    split
    · rename_i ht
      have ht' : treesOf (a :: xs) = treesOf xs := by simp [treesOf, tok_trees (h.tok.trans ht)]
      constructor
      · rw [ht']; exact ih.cov
      · rw [ht']; exact ih.used
      · rw [ht']; exact ih.uses
      · rw [ht']; exact ih.loose
    · rename_i ht
      have ht : a.isTok = false := h.tok.trans (by simpa using ht)
      have hb := BA_node (ext := ext) (x := x) ht
      constructor
      · intro p hp e
        rw [treesOf, List.flatMap_cons, some_append, ← hb]
        simp only [ER.join, List.mem_append] at hp
        exact hp.imp (fun hp => h.cov p hp e) fun hp => ih.cov p hp e
      · intro ho e
        rw [treesOf, List.flatMap_cons, some_append, ← hb] at e
        simp only [ER.join, Bool.or_eq_false_iff] at ho
        rcases e with e | e
        · obtain ⟨p, hp, e⟩ := h.used ho.1 e
          exact ⟨p, by simp [ER.join, hp], e⟩
        · obtain ⟨p, hp, e⟩ := ih.used ho.2 e
          exact ⟨p, by simp [ER.join, hp], e⟩
      · intro e
        rw [treesOf, List.flatMap_cons, some_append] at e
        simp only [ER.join, holds_union, Bool.or_eq_true]
        rcases e with e | e
        · have := h.uses hr.1 e; tauto
        · have := ih.uses e; tauto
      · intro e
        rw [treesOf, List.flatMap_cons, some_append] at e
        exact e.elim h.loose ih.loose

theorem forall_pick {P : α → β → Prop} (is : List Nat) : ∀ {k : Nat} {l : List α} {m : List β}, List.Forall₂ P l m →
    List.Forall₂ P (pick is k l) (pick is k m)
  | _, _, _, .nil => .nil
  | k, _, _, .cons h hs => by
    rw [pick, pick]
    split
    · exact .cons h (forall_pick is hs)
    · exact forall_pick is hs
theorem forall_drop {P : α → β → Prop} (is : List Nat) : ∀ {k : Nat} {l : List α} {m : List β}, List.Forall₂ P l m →
    List.Forall₂ P (drop is k l) (drop is k m)
  | _, _, _, .nil => .nil
  | k, _, _, .cons h hs => by
    rw [drop, drop]
    split
    · exact forall_drop is hs
    · exact .cons h (forall_drop is hs)
theorem pick_raw (is : List Nat) : ∀ {k : Nat} {rs : List ER}, rs.any (·.raw) = false → (pick is k rs).any (·.raw) = false
  | _, [], _ => rfl
  | k, r :: rs, h => by
    simp only [List.any_cons, Bool.or_eq_false_iff] at h
    rw [pick]
    split
    · simp [h.1, pick_raw is h.2]
    · exact pick_raw is h.2
theorem drop_raw (is : List Nat) : ∀ {k : Nat} {rs : List ER}, rs.any (·.raw) = false → (drop is k rs).any (·.raw) = false
  | _, [], _ => rfl
  | k, r :: rs, h => by
    simp only [List.any_cons, Bool.or_eq_false_iff] at h
    rw [drop]
    split
    · exact drop_raw is h.2
    · simp [h.1, drop_raw is h.2]
theorem some_pick_drop {Q : Node → Prop} (is : List Nat) : ∀ {k : Nat} {xs : List Atom},
    Some_ Q (treesOf xs) ↔ Some_ Q (treesOf (pick is k xs)) ∨ Some_ Q (treesOf (drop is k xs))
  | _, [] => by simp [treesOf, pick, drop]
  | k, y :: xs => by
    have := some_pick_drop (Q := Q) is (k := k + 1) (xs := xs)
    rw [pick, drop]
    simp only [treesOf, List.flatMap_cons, some_append] at this ⊢
    split <;> simp only [List.flatMap_cons, some_append] <;> tauto

/-- A function that keeps all its parts. -/
theorem AtomOk.of_joined {J : ER} (hJ : Joined ext x V d0 dp J xs) (ht : a.isTok = false)
    (hb : Some_ (Binds ext x) a.trees ↔ Some_ (Binds ext x) (treesOf xs)) (hu : Some_ (Uses ext x) a.trees → Some_ (Uses ext x) (treesOf xs))
    (hl : Some_ (Loose ext x) a.trees → Some_ (Loose ext x) (treesOf xs))
    (e1 : r.cov = J.cov) (e2 : r.used = J.used) (e3 : r.req = J.req) (e4 : r.acc = J.acc) (e5 : r.own = J.own) (e6 : r.raw = false)
    (e7 : r.tok = false) (hbare : r.bare = true → bareAtom a) (hfits : r.fits = true → fitsAtom a) (hone : r.one = true → ∃ n, a = .nodes [n]) :
    AtomOk ext x V d0 dp r a := by
  have hn := BA_node (ext := ext) (x := x) ht
  constructor
  · rw [ht, e7]
  · intro p hp e
    rw [hn, hb]
    exact hJ.cov p (e1 ▸ hp) e
  · intro ho e
    rw [e2]
    exact hJ.used (e5 ▸ ho) (hb.mp (hn.mp e))
  · intro _ e
    rw [e3, e4]
    exact hJ.uses (hu e)
  · intro h; rw [e6] at h; cases h
  · exact fun e => hJ.loose (hl e)
  · exact hbare
  · exact hfits
  · exact hone

end
end Verif
