import Verif.Lemmas.PlaceTac
/-!
What the results of builder functions satisfy whenever there is one (`Gives`), and the location of a collection.
-/
namespace Verif
open Builder

/-- Whatever `r` returns satisfies `P`. -/
def Res.Gives (r : Res α) (P : α → Prop) : Prop := ∀ a, r = .ok a → P a
/-- The same over the tables. -/
def BldM.Gives (m : BldM α) (P : α → Prop) : Prop := ∀ s a s', m s = .ok (a, s') → P a
/-- The same for `Result<_, ()>`. -/
def BldR.Gives (m : BldR α) (P : α → Prop) : Prop := ∀ s a s', m.run s = .ok (.ok a, s') → P a

theorem Res.gives_ok {P : α → Prop} (h : P a) : Res.Gives (.ok a) P := by intro b hb; cases hb; exact h
theorem Res.gives_pure {P : α → Prop} (h : P a) : Res.Gives (pure a) P := by intro b hb; cases hb; exact h
theorem Res.gives_error {P : α → Prop} : Res.Gives (.error e) P := by intro b hb; cases hb
theorem Res.gives_bind {r : Res α} {f : α → Res β} {P : α → Prop} {Q : β → Prop} (h : Res.Gives r P)
    (hf : ∀ a, P a → Res.Gives (f a) Q) : Res.Gives (r >>= f) Q := by
  intro b hb
  cases r with
  | error e => cases hb
  | ok a => exact hf a (h a rfl) b hb
theorem Res.gives_any {r : Res α} {f : α → Res β} {Q : β → Prop} (hf : ∀ a, Res.Gives (f a) Q) : Res.Gives (r >>= f) Q :=
  Res.gives_bind (P := fun _ => True) (fun _ _ => trivial) fun a _ => hf a
theorem Res.Gives.imp {r : Res α} {P Q : α → Prop} (h : Res.Gives r P) (hi : ∀ a, P a → Q a) : Res.Gives r Q :=
  fun a ha => hi a (h a ha)

theorem BldM.gives_pure {P : α → Prop} (h : P a) : BldM.Gives (pure a) P := by intro s b s' hb; cases hb; exact h
theorem BldM.gives_panic {P : α → Prop} : BldM.Gives (panic e) P := by intro s b s' hb; cases hb
theorem BldM.gives_liftR {r : Res α} {P : α → Prop} (h : Res.Gives r P) : BldM.Gives (liftR r) P := by
  intro s b s' hb
  cases r with
  | error e => cases hb
  | ok a => cases hb; exact h _ rfl
theorem BldM.gives_bind {m : BldM α} {f : α → BldM β} {P : α → Prop} {Q : β → Prop} (h : BldM.Gives m P)
    (hf : ∀ a, P a → BldM.Gives (f a) Q) : BldM.Gives (m >>= f) Q := by
  intro s b s' hb
  rw [show (m >>= f) s = (m s >>= fun p => f p.1 p.2) from rfl] at hb
  cases hm : m s with
  | error e => rw [hm] at hb; cases hb
  | ok p => rw [hm] at hb; exact hf p.1 (h s p.1 p.2 hm) _ _ _ hb
theorem BldM.gives_any {m : BldM α} {f : α → BldM β} {Q : β → Prop} (hf : ∀ a, BldM.Gives (f a) Q) :
    BldM.Gives (m >>= f) Q :=
  BldM.gives_bind (P := fun _ => True) (fun _ _ _ _ => trivial) fun a _ => hf a
theorem BldM.Gives.imp {r : BldM α} {P Q : α → Prop} (h : BldM.Gives r P) (hi : ∀ a, P a → Q a) : BldM.Gives r Q :=
  fun s a s' ha => hi a (h s a s' ha)

theorem BldR.gives_pure {P : α → Prop} (h : P a) : BldR.Gives (pure a) P := by intro s b s' hb; cases hb; exact h
theorem BldR.gives_err {P : α → Prop} : BldR.Gives err P := by intro s b s' hb; cases hb
theorem BldR.gives_lift {m : BldM α} {P : α → Prop} (h : BldM.Gives m P) : BldR.Gives (m : BldR α) P := by
  intro s b s' hb
  rw [show ExceptT.run (m : BldR α) s = (m s >>= fun p => .ok (.ok p.1, p.2)) from rfl] at hb
  cases hm : m s with
  | error e => rw [hm] at hb; cases hb
  | ok p => rw [hm] at hb; cases hb; exact h s _ _ hm
theorem BldR.gives_bind {m : BldR α} {f : α → BldR β} {P : α → Prop} {Q : β → Prop} (h : BldR.Gives m P)
    (hf : ∀ a, P a → BldR.Gives (f a) Q) : BldR.Gives (m >>= f) Q := by
  intro s b s' hb
  rw [show (m >>= f).run s = (m.run s >>= fun p => match p.1 with
    | .ok a => (f a).run p.2
    | .error e => pure (.error e, p.2)) from by
      show (ExceptT.bind m f) s = _
      unfold ExceptT.bind ExceptT.mk ExceptT.bindCont
      show (m.run s >>= fun p => _) = _
      congr; funext p; rcases p with ⟨p, s⟩; cases p <;> rfl] at hb
  cases hm : m.run s with
  | error e => rw [hm] at hb; cases hb
  | ok p =>
    rw [hm] at hb
    obtain ⟨r, s1⟩ := p
    cases r with
    | error e => cases hb
    | ok a => exact hf a (h s a s1 hm) _ _ _ hb
theorem BldR.gives_any {m : BldR α} {f : α → BldR β} {Q : β → Prop} (hf : ∀ a, BldR.Gives (f a) Q) :
    BldR.Gives (m >>= f) Q :=
  BldR.gives_bind (P := fun _ => True) (fun _ _ _ _ => trivial) fun a _ => hf a
theorem BldR.Gives.imp {r : BldR α} {P Q : α → Prop} (h : BldR.Gives r P) (hi : ∀ a, P a → Q a) : BldR.Gives r Q :=
  fun s a s' ha => hi a (h s a s' ha)

/-! ### Collections -/

theorem oloc_in {o : Option Token} (h : OTok.At o a b) (h1 : x.begin ≤ a) (h2 : b ≤ x.stop) : OLoc.In (maybeLoc o) x :=
  oloc_of h h1 h2

/-- The expression of a collection contains its delimiters and elements. -/
theorem collectionMap_at {o : Option Token} {ns : List Node} {e : Option Token}
    (h1 : OTok.At o a b) (h2 : Nodes.At ns b c) (h3 : OTok.At e c d) :
    Res.Gives (collectionMap o ns e) fun m => m.beginL = maybeLoc o ∧ m.endL = maybeLoc e ∧
      a ≤ m.expressionL.begin ∧ m.expressionL.begin ≤ m.expressionL.stop ∧ m.expressionL.stop ≤ d ∧
      Kids ns m.expressionL ∧ OLoc.In (maybeLoc o) m.expressionL ∧ OLoc.In (maybeLoc e) m.expressionL := by
  intro m hm
  have l1 := h1.le; have l2 := h2.le; have l3 := h3.le
  have key : ∀ f l : Nat, b ≤ f → f ≤ l → l ≤ c → Span ns f l →
      collectionExpr ns = some ⟨f, l⟩ → m.beginL = maybeLoc o ∧ m.endL = maybeLoc e ∧
      a ≤ m.expressionL.begin ∧ m.expressionL.begin ≤ m.expressionL.stop ∧ m.expressionL.stop ≤ d ∧
      Kids ns m.expressionL ∧ OLoc.In (maybeLoc o) m.expressionL ∧ OLoc.In (maybeLoc e) m.expressionL := by
    intro f l g1 g2 g3 g4 g5
    unfold collectionMap at hm
    rw [g5] at hm
    rcases o with _ | o <;> rcases e with _ | e <;>
      simp only [maybeLoc, Option.map_none, Option.map_some, joinMaybeLocs, Loc.join, Except.ok.injEq] at hm <;> subst hm <;>
      simp only [OTok.At, Token.At] at h1 h3 <;>
      simp only [maybeLoc, Option.map_none, Option.map_some, oloc_none, oloc_some, Loc.Within, true_and, and_true] <;>
      (repeat' apply And.intro) <;>
      first | omega | exact kids_of_span g4 (by simp only []; omega) (by simp only []; omega)
  by_cases hne : ns = []
  · subst hne
    unfold collectionMap at hm
    rcases o with _ | o <;> rcases e with _ | e <;>
      simp only [maybeLoc, Option.map_none, Option.map_some, collectionExpr, joinMaybeExprs, maybeExpr, List.head?_nil,
        List.getLast?_nil, joinMaybeLocs, Loc.join, Except.ok.injEq, reduceCtorEq] at hm <;> subst hm <;>
      simp only [OTok.At, Token.At] at h1 h3 <;>
      simp only [maybeLoc, Option.map_none, Option.map_some, oloc_none, oloc_some, Loc.Within, true_and, and_true, kids_nil] <;>
      (repeat' apply And.intro) <;> omega
  · obtain ⟨f, l, hf, hl, g1, g2, g3, g4⟩ := h2.bounds hne
    refine key _ _ g1 g2 g3 g4 ?_
    have m1 := g4.mem f (List.mem_of_mem_head? (by rw [hf]; rfl))
    have m2 := g4.mem l (List.mem_of_getLast? hl)
    rw [collectionExpr, hf, hl]
    simp only [joinMaybeExprs, maybeExpr, Option.map_some, joinMaybeLocs, Loc.join, Option.some.injEq, Loc.mk.injEq]
    omega

/-- The expression of a list of nodes, when it is not empty. -/
theorem collectionExpr_at {ns : List Node} (h : Nodes.At ns a b) : (ns = [] ∧ collectionExpr ns = none) ∨
    ∃ l, collectionExpr ns = some l ∧ a ≤ l.begin ∧ l.begin ≤ l.stop ∧ l.stop ≤ b ∧ Kids ns l := by
  by_cases hne : ns = []
  · subst hne; exact Or.inl ⟨rfl, rfl⟩
  · obtain ⟨f, l, hf, hl, g1, g2, g3, g4⟩ := h.bounds hne
    have m1 := g4.mem f (List.mem_of_mem_head? (by rw [hf]; rfl))
    have m2 := g4.mem l (List.mem_of_getLast? hl)
    refine Or.inr ⟨⟨f.expression.begin, l.expression.stop⟩, ?_, g1, g2, g3, kids_of_span g4 (Nat.le_refl _) (Nat.le_refl _)⟩
    rw [collectionExpr, hf, hl]
    simp only [joinMaybeExprs, maybeExpr, Option.map_some, joinMaybeLocs, Loc.join, Option.some.injEq, Loc.mk.injEq]
    omega

end Verif
