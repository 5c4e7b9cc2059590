import Verif.Model.Grammar.Values
import Verif.Lemmas.PlaceBuild7
/-!
Types of the components of semantic values, what it means for a component to be placed between two positions, and that every
function called by an action keeps to its type and place.
-/
namespace Verif.Grammar
open Builder

/-- Types of components. -/
inductive Ty where
  /-- a token of at least `k` bytes -/
  | tok (k : Nat)
  | otok | node | onode | nodes | args | label | tail | parens | exc
  /-- no value at all -/
  | never
deriving DecidableEq, Repr

/-- The arguments of a call in parentheses, if there are any. -/
def ParensAt : Option Token × List Node × Option Token → Nat → Nat → Prop
  | (none, ns, none), a, b => ns = [] ∧ a ≤ b
  | (some t, ns, some u), a, b => ∃ p q, t.At a p ∧ Nodes.At ns p q ∧ u.At q b
  | _, _, _ => False

/-- `=> variable`, if there. -/
def ExcAt : Option Token × Option Node → Nat → Nat → Prop
  | (none, none), a, b => a ≤ b
  | (some t, some n), a, b => ∃ p, t.At a p ∧ n.At p b
  | _, _, _ => False

/-- The component is of the type and lies between the positions. -/
def Ty.At : Ty → Atom → Nat → Nat → Prop
  | .tok 0, .tok t, a, b => t.At a b
  | .tok (k + 1), .tok t, a, b => t.At a b ∧ t.loc.begin + (k + 1) ≤ t.loc.stop
  | .otok, .otok t, a, b => OTok.At t a b
  | .node, .node n, a, b => n.At a b
  | .onode, .onode n, a, b => ONode.At n a b
  | .nodes, .nodes ns, a, b => Nodes.At ns a b
  | .args, .args x, a, b => ArgsAt x a b
  | .label, .label k, a, b => LabelAt k a b
  | .tail, .tail t, a, b => TailAt t.1 t.2 a b
  | .parens, .parens g, a, b => ParensAt g a b
  | .exc, .exc e, a, b => ExcAt e a b
  | _, _, _, _ => False

theorem ParensAt.le {g : Option Token × List Node × Option Token} (h : ParensAt g a b) : a ≤ b := by
  rcases g with ⟨_ | t, ns, _ | u⟩
  · exact h.2
  · exact absurd h id
  · exact absurd h id
  · obtain ⟨p, q, h1, h2, h3⟩ := h
    have := h1.le; have := h2.le; have := h3.le
    omega

theorem ExcAt.le {e : Option Token × Option Node} (h : ExcAt e a b) : a ≤ b := by
  rcases e with ⟨_ | t, _ | u⟩
  · exact h
  · exact absurd h id
  · exact absurd h id
  · obtain ⟨p, h1, h2⟩ := h
    have := h1.le; have := h2.le
    omega

theorem Ty.At.le {ty : Ty} {x : Atom} (h : ty.At x a b) : a ≤ b := by
  unfold Ty.At at h
  split at h
  · exact Token.At.le h
  · exact h.1.le
  · exact OTok.At.le h
  · exact Node.At.le h
  · exact ONode.At.le h
  · exact Nodes.At.le h
  · exact ArgsAt.le h
  · exact LabelAt.le h
  · exact OTok.At.le h.1
  · exact ParensAt.le h
  · exact ExcAt.le h
  · exact absurd h id

/-- Components one after the other. -/
def Chain : List Ty → List Atom → Nat → Nat → Prop
  | [], [], a, b => a ≤ b
  | t :: ts, x :: xs, a, b => ∃ m, t.At x a m ∧ Chain ts xs m b
  | _, _, _, _ => False

theorem Chain.le {ts : List Ty} {xs : List Atom} (h : Chain ts xs a b) : a ≤ b := by
  induction ts generalizing xs a with
  | nil => cases xs with
    | nil => exact h
    | cons x xs => exact absurd h id
  | cons t ts ih => cases xs with
    | nil => exact absurd h id
    | cons x xs =>
      obtain ⟨m, h1, h2⟩ := h
      have := h1.le; have := ih h2
      omega

theorem chain_cons {t : Ty} {ts : List Ty} {xs : List Atom} (h : Chain (t :: ts) xs a b) :
    ∃ y ys m, xs = y :: ys ∧ t.At y a m ∧ Chain ts ys m b := by
  cases xs with
  | nil => exact absurd h id
  | cons y ys => obtain ⟨m, h1, h2⟩ := h; exact ⟨y, ys, m, rfl, h1, h2⟩

theorem chain_one {t : Ty} {xs : List Atom} (h : Chain [t] xs a b) : ∃ y m, xs = [y] ∧ t.At y a m ∧ m ≤ b := by
  obtain ⟨y, ys, m, rfl, h1, h2⟩ := chain_cons h
  cases ys with
  | nil => exact ⟨y, m, rfl, h1, h2⟩
  | cons z zs => exact absurd h2 id

theorem chain_nil {xs : List Atom} (h : Chain [] xs a b) : xs = [] ∧ a ≤ b := by
  cases xs with
  | nil => exact ⟨rfl, h⟩
  | cons z zs => exact absurd h id

theorem at_tok0 {y : Atom} (h : Ty.At (.tok 0) y a b) : ∃ t, y = .tok t ∧ t.At a b := by
  cases y <;> first | exact ⟨_, rfl, h⟩ | exact absurd h id
theorem at_tok1 {y : Atom} (h : Ty.At (.tok 1) y a b) : ∃ t, y = .tok t ∧ (t.At a b ∧ t.loc.begin + 1 ≤ t.loc.stop) := by
  cases y <;> first | exact ⟨_, rfl, h⟩ | exact absurd h id
theorem at_tok2 {y : Atom} (h : Ty.At (.tok 2) y a b) : ∃ t, y = .tok t ∧ (t.At a b ∧ t.loc.begin + 2 ≤ t.loc.stop) := by
  cases y <;> first | exact ⟨_, rfl, h⟩ | exact absurd h id
theorem at_otok {y : Atom} (h : Ty.At .otok y a b) : ∃ t, y = .otok t ∧ OTok.At t a b := by
  cases y <;> first | exact ⟨_, rfl, h⟩ | exact absurd h id
theorem at_node {y : Atom} (h : Ty.At .node y a b) : ∃ t, y = .node t ∧ t.At a b := by
  cases y <;> first | exact ⟨_, rfl, h⟩ | exact absurd h id
theorem at_onode {y : Atom} (h : Ty.At .onode y a b) : ∃ t, y = .onode t ∧ ONode.At t a b := by
  cases y <;> first | exact ⟨_, rfl, h⟩ | exact absurd h id
theorem at_nodes {y : Atom} (h : Ty.At .nodes y a b) : ∃ t, y = .nodes t ∧ Nodes.At t a b := by
  cases y <;> first | exact ⟨_, rfl, h⟩ | exact absurd h id
theorem at_args {y : Atom} (h : Ty.At .args y a b) : ∃ t, y = .args t ∧ ArgsAt t a b := by
  cases y <;> first | exact ⟨_, rfl, h⟩ | exact absurd h id
theorem at_label {y : Atom} (h : Ty.At .label y a b) : ∃ t, y = .label t ∧ LabelAt t a b := by
  cases y <;> first | exact ⟨_, rfl, h⟩ | exact absurd h id
theorem at_tail {y : Atom} (h : Ty.At .tail y a b) : ∃ t, y = .tail t ∧ TailAt t.1 t.2 a b := by
  cases y <;> first | exact ⟨_, rfl, h⟩ | exact absurd h id
theorem at_parens {y : Atom} (h : Ty.At .parens y a b) : ∃ t, y = .parens t ∧ ParensAt t a b := by
  cases y <;> first | exact ⟨_, rfl, h⟩ | exact absurd h id
theorem at_exc {y : Atom} (h : Ty.At .exc y a b) : ∃ t, y = .exc t ∧ ExcAt t a b := by
  cases y <;> first | exact ⟨_, rfl, h⟩ | exact absurd h id

/-- Widening the interval. -/
theorem LabelAt.mono {k : PKwLabel} (h : LabelAt k a b) (ha : a' ≤ a) (hb : b ≤ b') : LabelAt k a' b' := by
  cases k with
  | PlainLabel t => exact ⟨h.1.mono ha hb, h.2⟩
  | QuotedLabel t ps e =>
    obtain ⟨p, q, h1, h2, h3, h4⟩ := h
    exact ⟨p, q, h1.mono ha (Nat.le_refl _), h2, h3.mono (Nat.le_refl _) hb, h4⟩
theorem ParensAt.mono {g : Option Token × List Node × Option Token} (h : ParensAt g a b) (ha : a' ≤ a) (hb : b ≤ b') :
    ParensAt g a' b' := by
  rcases g with ⟨_ | t, ns, _ | u⟩
  · exact ⟨h.1, by have := h.2; omega⟩
  · exact absurd h id
  · exact absurd h id
  · obtain ⟨p, q, h1, h2, h3⟩ := h
    exact ⟨p, q, h1.mono ha (Nat.le_refl _), h2, h3.mono (Nat.le_refl _) hb⟩
theorem ExcAt.mono {e : Option Token × Option Node} (h : ExcAt e a b) (ha : a' ≤ a) (hb : b ≤ b') : ExcAt e a' b' := by
  rcases e with ⟨_ | t, _ | u⟩
  · have : a ≤ b := h
    show a' ≤ b'; omega
  · exact absurd h id
  · exact absurd h id
  · obtain ⟨p, h1, h2⟩ := h
    exact ⟨p, h1.mono ha (Nat.le_refl _), h2.mono (Nat.le_refl _) hb⟩
theorem ArgsAt.mono {g : ArgsType} (h : ArgsAt g a b) (ha : a' ≤ a) (hb : b ≤ b') : ArgsAt g a' b' := by
  have := h.le
  cases g with
  | Args a => exact ONode.At.mono h ha hb
  | Numargs n => show a' ≤ b'; omega
theorem Ty.At.mono {ty : Ty} {x : Atom} (h : ty.At x a b) (ha : a' ≤ a) (hb : b ≤ b') : ty.At x a' b' := by
  unfold Ty.At at *
  split at h
  · exact Token.At.mono h ha hb
  · exact ⟨h.1.mono ha hb, h.2⟩
  · exact OTok.At.mono h ha hb
  · exact Node.At.mono h ha hb
  · exact ONode.At.mono h ha hb
  · exact Nodes.At.mono h ha hb
  · exact ArgsAt.mono h ha hb
  · exact LabelAt.mono h ha hb
  · exact ⟨OTok.At.mono h.1 ha hb, ONode.At.mono h.2.1 ha hb, h.2.2⟩
  · exact ParensAt.mono h ha hb
  · exact ExcAt.mono h ha hb
  · exact absurd h id
theorem Chain.mono {ts : List Ty} {xs : List Atom} (h : Chain ts xs a b) (ha : a' ≤ a) (hb : b ≤ b') : Chain ts xs a' b' := by
  induction ts generalizing xs a a' with
  | nil =>
    obtain ⟨rfl, h⟩ := chain_nil h
    show a' ≤ b'; omega
  | cons t ts ih =>
    obtain ⟨y, ys, m, rfl, h1, h2⟩ := chain_cons h
    exact ⟨m, h1.mono ha (Nat.le_refl _), ih h2 (Nat.le_refl _)⟩

theorem outp_gives {c : α → Atom} {P : Atom → Prop} (h : P (c x)) : BldR.Gives (outp c x) P := BldR.gives_pure h
theorem outB_gives {c : α → Atom} {r : BldR α} {P : Atom → Prop} {Q : α → Prop} (h : BldR.Gives r Q) (hq : ∀ x, Q x → P (c x)) :
    BldR.Gives (outB c r) P := BldR.gives_bind h fun x hx => BldR.gives_pure (hq x hx)
theorem outM_gives {c : α → Atom} {r : BldM α} {P : Atom → Prop} {Q : α → Prop} (h : BldM.Gives r Q) (hq : ∀ x, Q x → P (c x)) :
    BldR.Gives (outM c r) P := BldR.gives_bind (BldR.gives_lift h) fun x hx => BldR.gives_pure (hq x hx)
theorem outR_gives {c : α → Atom} {r : Res α} {P : Atom → Prop} {Q : α → Prop} (h : Res.Gives r Q) (hq : ∀ x, Q x → P (c x)) :
    BldR.Gives (outR c r) P := outM_gives (BldM.gives_liftR h) hq

/-! ### The functions outside `src/builder.rs` -/

theorem endlessName_at {x0 : Token} (h0 : x0.At a b) : BldR.Gives (endlessName x0) (·.At a b) := by
  unfold endlessName
  dsimp only
  split
  · exact BldR.gives_pure h0
  split
  · exact BldR.gives_err
  · exact BldR.gives_pure h0
theorem kwargName_at {x0 : Token} (h0 : x0.At a b ∧ x0.loc.begin + 1 ≤ x0.loc.stop) :
    BldR.Gives (kwargName ext x0) (fun t => t.At a b ∧ t.loc.begin + 1 ≤ t.loc.stop) := by
  unfold kwargName
  split
  · exact BldR.gives_lift BldM.gives_panic
  split
  · exact BldR.gives_pure h0
  · exact BldR.gives_err
theorem singletonExpr_at {x0 : Node} (h0 : x0.At a b) : BldR.Gives (singletonExpr x0) (·.At a b) := by
  unfold singletonExpr
  split <;> first | exact BldR.gives_err | exact BldR.gives_any fun _ => BldR.gives_pure h0
theorem argsType_at {x0 : Option Node} (h0 : ONode.At x0 a b) : BldR.Gives (argsType x0) (ArgsAt · a b) := by
  unfold argsType
  refine BldR.gives_any fun s => ?_
  split
  · exact BldR.gives_pure (show a ≤ b from h0.le)
  · exact BldR.gives_pure h0
theorem rescueClause_at {x0 : Token} {x1 : List Node} {x2 : Option Token × Option Node} {x3 : Token} {x4 : Option Node}
    (h0 : x0.At p0 p1) (h1 : Nodes.At x1 p1 p2) (h2 : ExcAt x2 p2 p3) (h3 : x3.At p3 p4) (h4 : ONode.At x4 p4 p5) :
    Res.Gives (rescueClause x0 x1 x2 x3 x4) (·.At p0 p5) := by
  have key : ∀ l, ONode.At l p1 p2 → (rescueBody x0 l x2.1 x2.2 (some x3) x4).At p0 p5 := by
    intro l hl
    rcases x2 with ⟨_ | t, _ | u⟩
    · exact rescueBody_at h0 hl (Nat.le_refl _) h2 h3 h4 (.inl rfl)
    · exact absurd h2 id
    · exact absurd h2 id
    · obtain ⟨p, h5, h6⟩ := h2
      exact rescueBody_at h0 hl h5 h6 h3 h4 (.inr nofun)
  unfold rescueClause
  split
  · exact Res.gives_ok (key none h1.le)
  · exact Res.gives_bind (array_at (Nat.le_refl _) h1 (Nat.le_refl _)) fun l hl => Res.gives_pure (key (some l) hl)
theorem rescueMod_at {x0 : Node} {x1 : Token} {x2 : Node} (h0 : x0.At p0 p1) (h1 : x1.At p1 p2) (h2 : x2.At p2 p3) :
    Res.Gives (rescueMod x0 x1 x2) (ONode.At · p0 p3) := by
  have hr : (rescueBody x1 none none none none (some x2)).At p1 p3 :=
    rescueBody_at h1 (Nat.le_refl _) (Nat.le_refl _) (Nat.le_refl _) (Nat.le_refl _) h2 (.inl rfl)
  exact beginBody_at (x0 := some x0) (x2 := none) (x3 := none) (x4 := none) (x5 := none) h0 (Nodes.at_singleton hr) (Nat.le_refl _)
    (Nat.le_refl _) (Nat.le_refl _) (Nat.le_refl _) (.inl rfl)
theorem rescueMod!_at {x0 : Node} {x1 : Token} {x2 : Node} (h0 : x0.At p0 p1) (h1 : x1.At p1 p2) (h2 : x2.At p2 p3) :
    Res.Gives (rescueMod! x0 x1 x2) (·.At p0 p3) := by
  refine Res.gives_bind (rescueMod_at h0 h1 h2) fun r hr => ?_
  cases r with
  | none => exact Res.gives_error
  | some n => exact Res.gives_pure hr
theorem bodystmt_at {x0 : Option Node} {x1 : List Node} {x2 : Option Token} {x3 : Option Node} (h0 : ONode.At x0 p0 p1)
    (h1 : Nodes.At x1 p1 p2) (h2 : OTok.At x2 p2 p3) (h3 : ONode.At x3 p3 p4) :
    Res.Gives (beginBody x0 x1 none (x2.map fun t => (t, x3))) (ONode.At · p0 p4) :=
  beginBody_at (x2 := none) (x3 := none) h0 h1 (Nat.le_refl _) (Nat.le_refl _) h2 h3 (.inl rfl)
theorem bodystmtElse_at {x0 : Option Node} {x1 : List Node} {x2 : Token} {x3 : Option Node} {x4 : Option Token} {x5 : Option Node}
    (h0 : ONode.At x0 p0 p1) (h1 : Nodes.At x1 p1 p2) (h2 : x2.At p2 p3) (h3 : ONode.At x3 p3 p4) (h4 : OTok.At x4 p4 p5)
    (h5 : ONode.At x5 p5 p6) : BldR.Gives (bodystmtElse x0 x1 x2 x3 x4 x5) (ONode.At · p0 p6) := by
  unfold bodystmtElse
  split
  · exact BldR.gives_err
  · rename_i hne
    exact BldR.gives_lift (BldM.gives_liftR (beginBody_at (x2 := some x2) h0 h1 h2 h3 h4 h5
      (.inr fun h => hne (by rw [h]; rfl))))
theorem procargs_at {x0 x1 : List Node} (h0 : Nodes.At x0 p0 p1) (h1 : Nodes.At x1 p1 p2) :
    Res.Gives (procargs x0 x1) (Nodes.At · p0 p2) := by
  unfold procargs
  split
  · obtain ⟨m, h2, h3⟩ := h0
    have h4 : m ≤ p1 := h3
    have h5 : p1 ≤ p2 := h1
    exact Res.gives_bind (procarg0_at h2) fun r hr => Res.gives_pure ⟨m, hr, by show m ≤ p2; omega⟩
  · exact Res.gives_ok (h0.append h1)
theorem attrAsgnMasgn_at {x0 : Node} {x1 x2 : Token} (h0 : x0.At p0 p1) (h1 : x1.At p1 p2) (h2 : x2.At p2 p3) :
    BldR.Gives (attrAsgnMasgn x0 x1 x2) (·.At p0 p3) := by
  unfold attrAsgnMasgn
  split
  · exact BldR.gives_err
  · exact BldR.gives_lift (BldM.gives_liftR (attrAsgn_at h0 h1 h2))
theorem mlhsInner_at {x0 : Token} {x1 : Node} {x2 : Token} (h0 : x0.At p0 p1) (h1 : x1.At p1 p2) (h2 : x2.At p2 p3) :
    Res.Gives (mlhsInner x0 x1 x2) (·.At p0 p3) := by
  unfold mlhsInner
  split
  · rename_i items b e x
    rw [at_Mlhs] at h1
    obtain ⟨⟨g1, g2⟩, g3, g4, -, -⟩ := h1
    have key : ∀ l : Loc, x.begin ≤ l.begin → l.begin ≤ l.stop → l.stop ≤ x.stop →
        (Node.Mlhs items (some x0.loc) (some x2.loc) ((l.join x0.loc).join x2.loc)).At p0 p3 := by
      intro l l1 l2 l3
      rw [at_Mlhs]
      have w : Loc.Within x ((l.join x0.loc).join x2.loc) := by
        simp only [Loc.Within, Loc.join, Token.At] at *; omega
      refine ⟨?_, ?_, kids_within g4 w, ?_, ?_⟩
      · simp only [Loc.join, Token.At] at *; omega
      · simp only [Loc.join, Token.At] at *; omega
      · intro k hk
        simp only [Option.toList, List.mem_singleton] at hk
        subst hk
        simp only [Loc.Within, Loc.join, Token.At] at *; omega
      · intro k hk
        simp only [Option.toList, List.mem_singleton] at hk
        subst hk
        simp only [Loc.Within, Loc.join, Token.At] at *; omega
    have h4 : (Node.Mlhs [] (some x0.loc) (some x2.loc) (x0.loc.join x2.loc)).At p0 p3 := by
      rw [at_Mlhs]
      refine ⟨?_, ?_, nofun, ?_, ?_⟩
      · simp only [Loc.join, Token.At] at *; omega
      · simp only [Loc.join, Token.At] at *; omega
      · intro k hk
        simp only [Option.toList, List.mem_singleton] at hk
        subst hk
        simp only [Loc.Within, Loc.join, Token.At] at *; omega
      · intro k hk
        simp only [Option.toList, List.mem_singleton] at hk
        subst hk
        simp only [Loc.Within, Loc.join, Token.At] at *; omega
    unfold multiLhs collectionMap
    cases items with
    | nil => exact Res.gives_ok h4
    | cons n ns =>
      have k1 := g4 n (by simp)
      obtain ⟨l, hl⟩ : ∃ l, (n :: ns).getLast? = some l := ⟨(n :: ns).getLast (by simp), List.getLast?_eq_some_getLast (by simp)⟩
      have k2 := g4 l (List.mem_of_getLast? hl)
      have e : collectionExpr (n :: ns) = some (n.expression.join l.expression) := by
        unfold collectionExpr
        rw [hl]
        rfl
      rw [e]
      refine Res.gives_ok (key _ ?_ ?_ ?_)
      · have := k1.2; have := k2.2; simp only [Loc.Within, Loc.join] at *; omega
      · have := k1.2; have := k2.2; simp only [Loc.Within, Loc.join] at *; omega
      · have := k1.2; have := k2.2; simp only [Loc.Within, Loc.join] at *; omega
  · exact Res.gives_error
theorem callDotOpt_at {x0 : Node} {x1 x2 : Token} {x3 : Option Token × List Node × Option Token} (h0 : x0.At p0 p1)
    (h1 : x1.At p1 p2) (h2 : x2.At p2 p3) (h3 : ParensAt x3 p3 p4) :
    Res.Gives (callMethod (some x0) (some x1) (some x2) x3.1 x3.2.1 x3.2.2) (·.At p0 p4) := by
  rcases x3 with ⟨_ | t, ns, _ | u⟩
  · obtain ⟨h4, h5⟩ := h3
    cases h4
    exact callDot_at h0 h1 h2 h5
  · exact absurd h3 id
  · exact absurd h3 id
  · obtain ⟨p, q, h4, h5, h6⟩ := h3
    exact callDotParen_at h0 h1 h2 h4 h5 h6
theorem string1_at {x0 : Token} {x1 : List Node} {x2 : Token} {w : Int} (h0 : x0.At p0 p1) (h1 : Nodes.At x1 p1 p2)
    (h2 : x2.At p2 p3) : Res.Gives (string1 w x0 x1 x2) (·.At p0 p3) := by
  refine Res.gives_bind ?_ fun r hr => heredocDedent_at hr
  cases hh : isHeredoc (some x0) with
  | false => exact stringCompose_at (x0 := some x0) (x2 := some x2) h0 h1 h2 hh
  | true =>
    have := h1.le; have := h2.le
    exact (stringCompose_heredoc_at h0 (fun c hc => (h1.mem hc).1) hh).imp fun r hr => hr.mono (Nat.le_refl _) (by omega)
theorem constPatternEmpty_at {x0 : Node} {x1 x2 : Token} (h0 : x0.At p0 p1) (h1 : x1.At p1 p2) (h2 : x2.At p2 p3) :
    Res.Gives (constPatternEmpty x0 x1 x2) (·.At p0 p3) := by
  refine Res.gives_bind (P := fun n => Nested n ∧ n.expression.begin = x1.loc.begin ∧ n.expression.stop = x2.loc.stop) ?_ fun r hr => Res.gives_pure ?_
  · intro n hn
    cases hn
    have h3 : (Node.ArrayPattern [] (some x1.loc) (some x2.loc) (x1.loc.join x2.loc)).At p1 p3 := by
      rw [at_ArrayPattern]
      refine ⟨?_, ?_, nofun, ?_, ?_⟩
      · simp only [Loc.join, Token.At] at *; omega
      · simp only [Loc.join, Token.At] at *; omega
      · intro k hk
        simp only [Option.toList, List.mem_singleton] at hk
        subst hk
        simp only [Loc.Within, Loc.join, Token.At] at *; omega
      · intro k hk
        simp only [Option.toList, List.mem_singleton] at hk
        subst hk
        simp only [Loc.Within, Loc.join, Token.At] at *; omega
    refine ⟨h3.1, ?_, ?_⟩
    · show min x1.loc.begin x2.loc.begin = _
      simp only [Token.At] at *; omega
    · show max x1.loc.stop x2.loc.stop = _
      simp only [Token.At] at *; omega
  · obtain ⟨r1, r2, r3⟩ := hr
    unfold constPattern
    rw [at_ConstPattern]
    obtain ⟨n1, n2, n3, n4⟩ := h0
    simp only [Token.At] at h1 h2
    refine ⟨?_, ?_, ⟨n1, ?_⟩, ⟨r1, ?_⟩, ?_, ?_⟩ <;> simp only [Loc.Within, Loc.join] <;> omega

/-! ### Every function -/

/-- The types of the arguments, and of the result. -/
def BFn.sig : BFn → List Ty × Ty
  | .someT => ([.tok 0], .otok)
  | .someN => ([.node], .onode)
  | .noneT => ([], .otok)
  | .noneN => ([], .onode)
  | .nilL => ([], .nodes)
  | .single => ([.node], .nodes)
  | .append => ([.nodes, .nodes], .nodes)
  | .checked => ([.node], .node)
  | .endlessName => ([.tok 0], .tok 0)
  | .kwargName => ([.tok 1], .tok 1)
  | .singletonExpr => ([.node], .node)
  | .argsType => ([.onode], .args)
  | .noParens => ([], .parens)
  | .someParens => ([.tok 0, .nodes, .tok 0], .parens)
  | .noExc => ([], .exc)
  | .someExc => ([.tok 0, .node], .exc)
  | .elseTail => ([.otok, .onode], .tail)
  | .elsifTail => ([.tok 0, .node, .tok 0, .onode, .tail], .tail)
  | .plainLabel => ([.tok 1], .label)
  | .quotedLabel => ([.tok 0, .nodes, .tok 2], .label)
  | .nil => ([.tok 0], .node)
  | .true_ => ([.tok 0], .node)
  | .false_ => ([.tok 0], .node)
  | .line => ([.tok 0], .node)
  | .file => ([.tok 0], .node)
  | .self_ => ([.tok 0], .node)
  | .encoding => ([.tok 0], .node)
  | .forwardArg => ([.tok 0], .node)
  | .forwardedArgs => ([.tok 0], .node)
  | .stringInternal => ([.tok 0], .node)
  | .integer => ([.tok 0], .node)
  | .float => ([.tok 0], .node)
  | .rational => ([.tok 0], .node)
  | .complex => ([.tok 0], .node)
  | .lvar => ([.tok 0], .node)
  | .ivar => ([.tok 0], .node)
  | .gvar => ([.tok 0], .node)
  | .cvar => ([.tok 0], .node)
  | .backRef => ([.tok 0], .node)
  | .const_ => ([.tok 0], .node)
  | .constFetch => ([.node, .tok 0, .tok 0], .node)
  | .constGlobal => ([.tok 0, .tok 0], .node)
  | .arg => ([.tok 0], .node)
  | .shadowarg => ([.tok 0], .node)
  | .optarg => ([.tok 0, .tok 0, .node], .node)
  | .kwnilarg => ([.tok 0, .tok 0], .node)
  | .alias => ([.tok 0, .node, .node], .node)
  | .pair => ([.node, .tok 0, .node], .node)
  | .kwsplat => ([.tok 0, .node], .node)
  | .multiAssign => ([.node, .tok 0, .node], .node)
  | .defClass => ([.tok 0, .node, .otok, .onode, .onode, .tok 0], .node)
  | .defSclass => ([.tok 0, .tok 0, .node, .onode, .tok 0], .node)
  | .defModule => ([.tok 0, .node, .onode, .tok 0], .node)
  | .defMethod => ([.tok 0, .tok 0, .onode, .onode, .tok 0], .node)
  | .defSingleton => ([.tok 0, .node, .tok 0, .tok 0, .onode, .onode, .tok 0], .node)
  | .indexAsgn => ([.node, .tok 0, .nodes, .tok 0], .node)
  | .ternary => ([.node, .tok 0, .node, .tok 0, .node], .node)
  | .case => ([.tok 0, .onode, .nodes, .otok, .onode, .tok 0], .node)
  | .for_ => ([.tok 0, .node, .tok 0, .node, .tok 0, .onode, .tok 0], .node)
  | .preexe => ([.tok 0, .tok 0, .onode, .tok 0], .node)
  | .postexe => ([.tok 0, .tok 0, .onode, .tok 0], .node)
  | .matchPattern => ([.node, .tok 0, .node], .node)
  | .matchPatternP => ([.node, .tok 0, .node], .node)
  | .ifGuard => ([.tok 0, .node], .node)
  | .unlessGuard => ([.tok 0, .node], .node)
  | .constPattern => ([.node, .tok 0, .node, .tok 0], .node)
  | .pin => ([.tok 0, .node], .node)
  | .matchAlt => ([.node, .tok 0, .node], .node)
  | .matchAs => ([.node, .tok 0, .node], .node)
  | .matchNilPattern => ([.tok 0, .tok 0], .node)
  | .wordsCompose => ([.tok 0, .nodes, .tok 0], .node)
  | .character => ([.tok 1], .node)
  | .splat => ([.tok 0, .onode], .node)
  | .blockPass => ([.tok 0, .onode], .node)
  | .rangeInclusive => ([.onode, .tok 0, .onode], .node)
  | .rangeExclusive => ([.onode, .tok 0, .onode], .node)
  | .restarg => ([.tok 0, .otok], .node)
  | .kwrestarg => ([.tok 0, .otok], .node)
  | .blockarg => ([.tok 0, .otok], .node)
  | .unaryNum => ([.tok 0, .node], .node)
  | .symbol => ([.tok 0, .tok 0], .node)
  | .symbolInternal => ([.tok 0], .node)
  | .nthRef => ([.tok 0], .node)
  | .matchVar => ([.tok 0], .node)
  | .array => ([.otok, .nodes, .otok], .node)
  | .multiLhs => ([.otok, .nodes, .otok], .node)
  | .hashPattern => ([.otok, .nodes, .otok], .node)
  | .findPattern => ([.otok, .nodes, .otok], .node)
  | .associate => ([.otok, .nodes, .otok], .node)
  | .args => ([.otok, .nodes, .otok], .onode)
  | .arrayPattern => ([.otok, .nodes, .otok, .otok], .node)
  | .logical _ => ([.node, .tok 0, .node], .node)
  | .binaryOp => ([.node, .tok 0, .node], .node)
  | .unaryOp => ([.tok 0, .node], .node)
  | .matchOp => ([.node, .tok 0, .node], .node)
  | .notOp => ([.tok 0, .node], .node)
  | .notParen => ([.tok 0, .tok 0, .node, .tok 0], .node)
  | .notEmpty => ([.tok 0, .tok 0, .tok 0], .node)
  | .ifMod => ([.node, .tok 0, .node], .node)
  | .unlessMod => ([.node, .tok 0, .node], .node)
  | .loopMod _ => ([.node, .tok 0, .node], .node)
  | .loop_ _ => ([.tok 0, .node, .tok 0, .onode, .tok 0], .node)
  | .condition => ([.tok 0, .node, .tok 0, .onode, .tail, .tok 0], .node)
  | .unless_ => ([.tok 0, .node, .tok 0, .onode, .otok, .onode, .tok 0], .node)
  | .when => ([.tok 0, .nodes, .tok 0, .onode], .node)
  | .inPattern => ([.tok 0, .node, .onode, .tok 0, .onode], .node)
  | .caseMatch => ([.tok 0, .node, .nodes, .otok, .onode, .tok 0], .node)
  | .rescueClause => ([.tok 0, .nodes, .exc, .tok 0, .onode], .node)
  | .rescueModOpt => ([.node, .tok 0, .node], .onode)
  | .rescueMod => ([.node, .tok 0, .node], .node)
  | .compstmt => ([.nodes], .onode)
  | .begin => ([.tok 0, .onode, .tok 0], .node)
  | .beginKeyword => ([.tok 0, .onode, .tok 0], .node)
  | .bodystmtElse => ([.onode, .nodes, .tok 0, .onode, .otok, .onode], .onode)
  | .bodystmt => ([.onode, .nodes, .otok, .onode], .onode)
  | .accessible => ([.node], .node)
  | .assignable => ([.node], .node)
  | .constOpAssignable => ([.node], .node)
  | .assign => ([.node, .tok 0, .node], .node)
  | .opAssign => ([.node, .tok 0, .node], .node)
  | .defEndless => ([.tok 0, .tok 0, .onode, .tok 0, .onode], .node)
  | .defEndlessSingleton => ([.tok 0, .node, .tok 0, .tok 0, .onode, .tok 0, .onode], .node)
  | .undefMethod => ([.tok 0, .nodes], .node)
  | .kwarg => ([.tok 1], .node)
  | .kwoptarg => ([.tok 1, .node], .node)
  | .procargs => ([.nodes, .nodes], .nodes)
  | .callDot => ([.node, .tok 0, .tok 0, .nodes], .node)
  | .callFn => ([.tok 0, .nodes], .node)
  | .callFnParen => ([.tok 0, .tok 0, .nodes, .tok 0], .node)
  | .callDotParen => ([.node, .tok 0, .tok 0, .tok 0, .nodes, .tok 0], .node)
  | .callDotOpt => ([.node, .tok 0, .tok 0, .parens], .node)
  | .callParen => ([.node, .tok 0, .tok 0, .nodes, .tok 0], .node)
  | .block => ([.node, .tok 0, .args, .onode, .tok 0], .node)
  | .lambda => ([.tok 0, .args, .tok 0, .onode, .tok 0], .node)
  | .attrAsgn => ([.node, .tok 0, .tok 0], .node)
  | .attrAsgnMasgn => ([.node, .tok 0, .tok 0], .node)
  | .index => ([.node, .tok 0, .nodes, .tok 0], .node)
  | .keyword _ => ([.tok 0, .nodes], .node)
  | .keywordParen _ => ([.tok 0, .tok 0, .nodes, .tok 0], .node)
  | .mlhsInner => ([.tok 0, .node, .tok 0], .node)
  | .strings => ([.nodes], .node)
  | .string1 => ([.tok 0, .nodes, .tok 0], .node)
  | .xstring => ([.tok 0, .nodes, .tok 0], .node)
  | .regexp => ([.tok 0, .nodes, .tok 1], .node)
  | .word => ([.nodes], .node)
  | .symbolsCompose => ([.tok 0, .nodes, .tok 0], .node)
  | .symbolCompose => ([.tok 0, .nodes, .tok 0], .node)
  | .pairKeyword => ([.tok 1, .node], .node)
  | .pairLabel => ([.tok 1], .node)
  | .pairQuoted => ([.tok 0, .nodes, .tok 2, .node], .node)
  | .matchRest => ([.tok 0, .otok], .node)
  | .matchPair => ([.label, .node], .node)
  | .matchLabel => ([.label], .node)
  | .constPatternEmpty => ([.node, .tok 0, .tok 0], .node)

/-- Arguments in order, between two positions, give a result between the same positions. -/
def Sound (f : BFn) : Prop := ∀ ext indent xs a b, Chain f.sig.1 xs a b →
  BldR.Gives (applyFn ext indent f xs) (fun r => f.sig.2.At r a b)

theorem sound_someT : Sound .someT := by
  intro ext indent xs a b h
  obtain ⟨y0, m0, rfl, h0, h⟩ := chain_one h
  replace h0 := h0.mono (Nat.le_refl _) h
  obtain ⟨x0, rfl, h0⟩ := at_tok0 h0
  exact outp_gives (P := fun r => Ty.At (.otok) r a b) (c := .otok) (h0)
theorem sound_someN : Sound .someN := by
  intro ext indent xs a b h
  obtain ⟨y0, m0, rfl, h0, h⟩ := chain_one h
  replace h0 := h0.mono (Nat.le_refl _) h
  obtain ⟨x0, rfl, h0⟩ := at_node h0
  exact outp_gives (P := fun r => Ty.At (.onode) r a b) (c := .onode) (h0)
theorem sound_noneT : Sound .noneT := by
  intro ext indent xs a b h
  obtain ⟨rfl, h⟩ := chain_nil h
  exact outp_gives (P := fun r => Ty.At (.otok) r a b) (c := .otok) (h)
theorem sound_noneN : Sound .noneN := by
  intro ext indent xs a b h
  obtain ⟨rfl, h⟩ := chain_nil h
  exact outp_gives (P := fun r => Ty.At (.onode) r a b) (c := .onode) (h)
theorem sound_nilL : Sound .nilL := by
  intro ext indent xs a b h
  obtain ⟨rfl, h⟩ := chain_nil h
  exact outp_gives (P := fun r => Ty.At (.nodes) r a b) (c := .nodes) (h)
theorem sound_single : Sound .single := by
  intro ext indent xs a b h
  obtain ⟨y0, m0, rfl, h0, h⟩ := chain_one h
  replace h0 := h0.mono (Nat.le_refl _) h
  obtain ⟨x0, rfl, h0⟩ := at_node h0
  exact outp_gives (P := fun r => Ty.At (.nodes) r a b) (c := .nodes) (Nodes.at_singleton h0)
theorem sound_append : Sound .append := by
  intro ext indent xs a b h
  obtain ⟨y0, xs0, m0, rfl, h0, h⟩ := chain_cons h
  obtain ⟨y1, m1, rfl, h1, h⟩ := chain_one h
  replace h1 := h1.mono (Nat.le_refl _) h
  obtain ⟨x0, rfl, h0⟩ := at_nodes h0
  obtain ⟨x1, rfl, h1⟩ := at_nodes h1
  exact outp_gives (P := fun r => Ty.At (.nodes) r a b) (c := .nodes) (Nodes.At.append h0 h1)
theorem sound_checked : Sound .checked := by
  intro ext indent xs a b h
  obtain ⟨y0, m0, rfl, h0, h⟩ := chain_one h
  replace h0 := h0.mono (Nat.le_refl _) h
  obtain ⟨x0, rfl, h0⟩ := at_node h0
  exact outB_gives (BldR.gives_any fun _ => BldR.gives_pure h0) fun _ h => h
theorem sound_endlessName : Sound .endlessName := by
  intro ext indent xs a b h
  obtain ⟨y0, m0, rfl, h0, h⟩ := chain_one h
  replace h0 := h0.mono (Nat.le_refl _) h
  obtain ⟨x0, rfl, h0⟩ := at_tok0 h0
  exact outB_gives (endlessName_at h0) fun _ h => h
theorem sound_kwargName : Sound .kwargName := by
  intro ext indent xs a b h
  obtain ⟨y0, m0, rfl, h0, h⟩ := chain_one h
  replace h0 := h0.mono (Nat.le_refl _) h
  obtain ⟨x0, rfl, h0⟩ := at_tok1 h0
  exact outB_gives (kwargName_at h0) fun _ h => h
theorem sound_singletonExpr : Sound .singletonExpr := by
  intro ext indent xs a b h
  obtain ⟨y0, m0, rfl, h0, h⟩ := chain_one h
  replace h0 := h0.mono (Nat.le_refl _) h
  obtain ⟨x0, rfl, h0⟩ := at_node h0
  exact outB_gives (singletonExpr_at h0) fun _ h => h
theorem sound_argsType : Sound .argsType := by
  intro ext indent xs a b h
  obtain ⟨y0, m0, rfl, h0, h⟩ := chain_one h
  replace h0 := h0.mono (Nat.le_refl _) h
  obtain ⟨x0, rfl, h0⟩ := at_onode h0
  exact outB_gives (argsType_at h0) fun _ h => h
theorem sound_noParens : Sound .noParens := by
  intro ext indent xs a b h
  obtain ⟨rfl, h⟩ := chain_nil h
  exact outp_gives (P := fun r => Ty.At (.parens) r a b) (c := .parens) (⟨rfl, h⟩)
theorem sound_someParens : Sound .someParens := by
  intro ext indent xs a b h
  obtain ⟨y0, xs0, m0, rfl, h0, h⟩ := chain_cons h
  obtain ⟨y1, xs1, m1, rfl, h1, h⟩ := chain_cons h
  obtain ⟨y2, m2, rfl, h2, h⟩ := chain_one h
  replace h2 := h2.mono (Nat.le_refl _) h
  obtain ⟨x0, rfl, h0⟩ := at_tok0 h0
  obtain ⟨x1, rfl, h1⟩ := at_nodes h1
  obtain ⟨x2, rfl, h2⟩ := at_tok0 h2
  exact outp_gives (P := fun r => Ty.At (.parens) r a b) (c := .parens) (⟨_, _, h0, h1, h2⟩)
theorem sound_noExc : Sound .noExc := by
  intro ext indent xs a b h
  obtain ⟨rfl, h⟩ := chain_nil h
  exact outp_gives (P := fun r => Ty.At (.exc) r a b) (c := .exc) (h)
theorem sound_someExc : Sound .someExc := by
  intro ext indent xs a b h
  obtain ⟨y0, xs0, m0, rfl, h0, h⟩ := chain_cons h
  obtain ⟨y1, m1, rfl, h1, h⟩ := chain_one h
  replace h1 := h1.mono (Nat.le_refl _) h
  obtain ⟨x0, rfl, h0⟩ := at_tok0 h0
  obtain ⟨x1, rfl, h1⟩ := at_node h1
  exact outp_gives (P := fun r => Ty.At (.exc) r a b) (c := .exc) (⟨_, h0, h1⟩)
theorem sound_elseTail : Sound .elseTail := by
  intro ext indent xs a b h
  obtain ⟨y0, xs0, m0, rfl, h0, h⟩ := chain_cons h
  obtain ⟨y1, m1, rfl, h1, h⟩ := chain_one h
  replace h1 := h1.mono (Nat.le_refl _) h
  obtain ⟨x0, rfl, h0⟩ := at_otok h0
  obtain ⟨x1, rfl, h1⟩ := at_onode h1
  exact outp_gives (P := fun r => Ty.At (.tail) r a b) (c := .tail) (else_tail_at h0 h1)
theorem sound_elsifTail : Sound .elsifTail := by
  intro ext indent xs a b h
  obtain ⟨y0, xs0, m0, rfl, h0, h⟩ := chain_cons h
  obtain ⟨y1, xs1, m1, rfl, h1, h⟩ := chain_cons h
  obtain ⟨y2, xs2, m2, rfl, h2, h⟩ := chain_cons h
  obtain ⟨y3, xs3, m3, rfl, h3, h⟩ := chain_cons h
  obtain ⟨y4, m4, rfl, h4, h⟩ := chain_one h
  replace h4 := h4.mono (Nat.le_refl _) h
  obtain ⟨x0, rfl, h0⟩ := at_tok0 h0
  obtain ⟨x1, rfl, h1⟩ := at_node h1
  obtain ⟨x2, rfl, h2⟩ := at_tok0 h2
  obtain ⟨x3, rfl, h3⟩ := at_onode h3
  obtain ⟨x4, rfl, h4⟩ := at_tail h4
  exact outp_gives (P := fun r => Ty.At (.tail) r a b) (c := .tail) (elsif_tail_at h0 h1 h2 h3 h4)
theorem sound_plainLabel : Sound .plainLabel := by
  intro ext indent xs a b h
  obtain ⟨y0, m0, rfl, h0, h⟩ := chain_one h
  replace h0 := h0.mono (Nat.le_refl _) h
  obtain ⟨x0, rfl, h0⟩ := at_tok1 h0
  exact outp_gives (P := fun r => Ty.At (.label) r a b) (c := .label) (h0)
theorem sound_quotedLabel : Sound .quotedLabel := by
  intro ext indent xs a b h
  obtain ⟨y0, xs0, m0, rfl, h0, h⟩ := chain_cons h
  obtain ⟨y1, xs1, m1, rfl, h1, h⟩ := chain_cons h
  obtain ⟨y2, m2, rfl, h2, h⟩ := chain_one h
  replace h2 := h2.mono (Nat.le_refl _) h
  obtain ⟨x0, rfl, h0⟩ := at_tok0 h0
  obtain ⟨x1, rfl, h1⟩ := at_nodes h1
  obtain ⟨x2, rfl, h2⟩ := at_tok2 h2
  exact outp_gives (P := fun r => Ty.At (.label) r a b) (c := .label) (⟨_, _, h0, h1, h2⟩)
theorem sound_nil : Sound .nil := by
  intro ext indent xs a b h
  obtain ⟨y0, m0, rfl, h0, h⟩ := chain_one h
  replace h0 := h0.mono (Nat.le_refl _) h
  obtain ⟨x0, rfl, h0⟩ := at_tok0 h0
  exact outp_gives (P := fun r => Ty.At (.node) r a b) (c := .node) (nil_at h0)
theorem sound_true_ : Sound .true_ := by
  intro ext indent xs a b h
  obtain ⟨y0, m0, rfl, h0, h⟩ := chain_one h
  replace h0 := h0.mono (Nat.le_refl _) h
  obtain ⟨x0, rfl, h0⟩ := at_tok0 h0
  exact outp_gives (P := fun r => Ty.At (.node) r a b) (c := .node) (true_at h0)
theorem sound_false_ : Sound .false_ := by
  intro ext indent xs a b h
  obtain ⟨y0, m0, rfl, h0, h⟩ := chain_one h
  replace h0 := h0.mono (Nat.le_refl _) h
  obtain ⟨x0, rfl, h0⟩ := at_tok0 h0
  exact outp_gives (P := fun r => Ty.At (.node) r a b) (c := .node) (false_at h0)
theorem sound_line : Sound .line := by
  intro ext indent xs a b h
  obtain ⟨y0, m0, rfl, h0, h⟩ := chain_one h
  replace h0 := h0.mono (Nat.le_refl _) h
  obtain ⟨x0, rfl, h0⟩ := at_tok0 h0
  exact outp_gives (P := fun r => Ty.At (.node) r a b) (c := .node) (line_at h0)
theorem sound_file : Sound .file := by
  intro ext indent xs a b h
  obtain ⟨y0, m0, rfl, h0, h⟩ := chain_one h
  replace h0 := h0.mono (Nat.le_refl _) h
  obtain ⟨x0, rfl, h0⟩ := at_tok0 h0
  exact outp_gives (P := fun r => Ty.At (.node) r a b) (c := .node) (file_at h0)
theorem sound_self_ : Sound .self_ := by
  intro ext indent xs a b h
  obtain ⟨y0, m0, rfl, h0, h⟩ := chain_one h
  replace h0 := h0.mono (Nat.le_refl _) h
  obtain ⟨x0, rfl, h0⟩ := at_tok0 h0
  exact outp_gives (P := fun r => Ty.At (.node) r a b) (c := .node) (self_at h0)
theorem sound_encoding : Sound .encoding := by
  intro ext indent xs a b h
  obtain ⟨y0, m0, rfl, h0, h⟩ := chain_one h
  replace h0 := h0.mono (Nat.le_refl _) h
  obtain ⟨x0, rfl, h0⟩ := at_tok0 h0
  exact outp_gives (P := fun r => Ty.At (.node) r a b) (c := .node) (encoding_at h0)
theorem sound_forwardArg : Sound .forwardArg := by
  intro ext indent xs a b h
  obtain ⟨y0, m0, rfl, h0, h⟩ := chain_one h
  replace h0 := h0.mono (Nat.le_refl _) h
  obtain ⟨x0, rfl, h0⟩ := at_tok0 h0
  exact outp_gives (P := fun r => Ty.At (.node) r a b) (c := .node) (forwardArg_at h0)
theorem sound_forwardedArgs : Sound .forwardedArgs := by
  intro ext indent xs a b h
  obtain ⟨y0, m0, rfl, h0, h⟩ := chain_one h
  replace h0 := h0.mono (Nat.le_refl _) h
  obtain ⟨x0, rfl, h0⟩ := at_tok0 h0
  exact outp_gives (P := fun r => Ty.At (.node) r a b) (c := .node) (forwardedArgs_at h0)
theorem sound_stringInternal : Sound .stringInternal := by
  intro ext indent xs a b h
  obtain ⟨y0, m0, rfl, h0, h⟩ := chain_one h
  replace h0 := h0.mono (Nat.le_refl _) h
  obtain ⟨x0, rfl, h0⟩ := at_tok0 h0
  exact outp_gives (P := fun r => Ty.At (.node) r a b) (c := .node) (stringInternal_at h0)
theorem sound_integer : Sound .integer := by
  intro ext indent xs a b h
  obtain ⟨y0, m0, rfl, h0, h⟩ := chain_one h
  replace h0 := h0.mono (Nat.le_refl _) h
  obtain ⟨x0, rfl, h0⟩ := at_tok0 h0
  exact outR_gives (integer_at h0) fun _ h => h
theorem sound_float : Sound .float := by
  intro ext indent xs a b h
  obtain ⟨y0, m0, rfl, h0, h⟩ := chain_one h
  replace h0 := h0.mono (Nat.le_refl _) h
  obtain ⟨x0, rfl, h0⟩ := at_tok0 h0
  exact outR_gives (float_at h0) fun _ h => h
theorem sound_rational : Sound .rational := by
  intro ext indent xs a b h
  obtain ⟨y0, m0, rfl, h0, h⟩ := chain_one h
  replace h0 := h0.mono (Nat.le_refl _) h
  obtain ⟨x0, rfl, h0⟩ := at_tok0 h0
  exact outR_gives (rational_at h0) fun _ h => h
theorem sound_complex : Sound .complex := by
  intro ext indent xs a b h
  obtain ⟨y0, m0, rfl, h0, h⟩ := chain_one h
  replace h0 := h0.mono (Nat.le_refl _) h
  obtain ⟨x0, rfl, h0⟩ := at_tok0 h0
  exact outR_gives (complex_at h0) fun _ h => h
theorem sound_lvar : Sound .lvar := by
  intro ext indent xs a b h
  obtain ⟨y0, m0, rfl, h0, h⟩ := chain_one h
  replace h0 := h0.mono (Nat.le_refl _) h
  obtain ⟨x0, rfl, h0⟩ := at_tok0 h0
  exact outR_gives (lvar_at h0) fun _ h => h
theorem sound_ivar : Sound .ivar := by
  intro ext indent xs a b h
  obtain ⟨y0, m0, rfl, h0, h⟩ := chain_one h
  replace h0 := h0.mono (Nat.le_refl _) h
  obtain ⟨x0, rfl, h0⟩ := at_tok0 h0
  exact outR_gives (ivar_at h0) fun _ h => h
theorem sound_gvar : Sound .gvar := by
  intro ext indent xs a b h
  obtain ⟨y0, m0, rfl, h0, h⟩ := chain_one h
  replace h0 := h0.mono (Nat.le_refl _) h
  obtain ⟨x0, rfl, h0⟩ := at_tok0 h0
  exact outR_gives (gvar_at h0) fun _ h => h
theorem sound_cvar : Sound .cvar := by
  intro ext indent xs a b h
  obtain ⟨y0, m0, rfl, h0, h⟩ := chain_one h
  replace h0 := h0.mono (Nat.le_refl _) h
  obtain ⟨x0, rfl, h0⟩ := at_tok0 h0
  exact outR_gives (cvar_at h0) fun _ h => h
theorem sound_backRef : Sound .backRef := by
  intro ext indent xs a b h
  obtain ⟨y0, m0, rfl, h0, h⟩ := chain_one h
  replace h0 := h0.mono (Nat.le_refl _) h
  obtain ⟨x0, rfl, h0⟩ := at_tok0 h0
  exact outR_gives (backRef_at h0) fun _ h => h
theorem sound_const_ : Sound .const_ := by
  intro ext indent xs a b h
  obtain ⟨y0, m0, rfl, h0, h⟩ := chain_one h
  replace h0 := h0.mono (Nat.le_refl _) h
  obtain ⟨x0, rfl, h0⟩ := at_tok0 h0
  exact outR_gives (const_at h0) fun _ h => h
theorem sound_constFetch : Sound .constFetch := by
  intro ext indent xs a b h
  obtain ⟨y0, xs0, m0, rfl, h0, h⟩ := chain_cons h
  obtain ⟨y1, xs1, m1, rfl, h1, h⟩ := chain_cons h
  obtain ⟨y2, m2, rfl, h2, h⟩ := chain_one h
  replace h2 := h2.mono (Nat.le_refl _) h
  obtain ⟨x0, rfl, h0⟩ := at_node h0
  obtain ⟨x1, rfl, h1⟩ := at_tok0 h1
  obtain ⟨x2, rfl, h2⟩ := at_tok0 h2
  exact outR_gives (constFetch_at h0 h1 h2) fun _ h => h
theorem sound_constGlobal : Sound .constGlobal := by
  intro ext indent xs a b h
  obtain ⟨y0, xs0, m0, rfl, h0, h⟩ := chain_cons h
  obtain ⟨y1, m1, rfl, h1, h⟩ := chain_one h
  replace h1 := h1.mono (Nat.le_refl _) h
  obtain ⟨x0, rfl, h0⟩ := at_tok0 h0
  obtain ⟨x1, rfl, h1⟩ := at_tok0 h1
  exact outR_gives (constGlobal_at h0 h1) fun _ h => h
theorem sound_arg : Sound .arg := by
  intro ext indent xs a b h
  obtain ⟨y0, m0, rfl, h0, h⟩ := chain_one h
  replace h0 := h0.mono (Nat.le_refl _) h
  obtain ⟨x0, rfl, h0⟩ := at_tok0 h0
  exact outB_gives (arg_at h0) fun _ h => h
theorem sound_shadowarg : Sound .shadowarg := by
  intro ext indent xs a b h
  obtain ⟨y0, m0, rfl, h0, h⟩ := chain_one h
  replace h0 := h0.mono (Nat.le_refl _) h
  obtain ⟨x0, rfl, h0⟩ := at_tok0 h0
  exact outB_gives (shadowarg_at h0) fun _ h => h
theorem sound_optarg : Sound .optarg := by
  intro ext indent xs a b h
  obtain ⟨y0, xs0, m0, rfl, h0, h⟩ := chain_cons h
  obtain ⟨y1, xs1, m1, rfl, h1, h⟩ := chain_cons h
  obtain ⟨y2, m2, rfl, h2, h⟩ := chain_one h
  replace h2 := h2.mono (Nat.le_refl _) h
  obtain ⟨x0, rfl, h0⟩ := at_tok0 h0
  obtain ⟨x1, rfl, h1⟩ := at_tok0 h1
  obtain ⟨x2, rfl, h2⟩ := at_node h2
  exact outB_gives (optarg_at h0 h1 h2) fun _ h => h
theorem sound_kwnilarg : Sound .kwnilarg := by
  intro ext indent xs a b h
  obtain ⟨y0, xs0, m0, rfl, h0, h⟩ := chain_cons h
  obtain ⟨y1, m1, rfl, h1, h⟩ := chain_one h
  replace h1 := h1.mono (Nat.le_refl _) h
  obtain ⟨x0, rfl, h0⟩ := at_tok0 h0
  obtain ⟨x1, rfl, h1⟩ := at_tok0 h1
  exact outp_gives (P := fun r => Ty.At (.node) r a b) (c := .node) (kwnilarg_at h0 h1)
theorem sound_alias : Sound .alias := by
  intro ext indent xs a b h
  obtain ⟨y0, xs0, m0, rfl, h0, h⟩ := chain_cons h
  obtain ⟨y1, xs1, m1, rfl, h1, h⟩ := chain_cons h
  obtain ⟨y2, m2, rfl, h2, h⟩ := chain_one h
  replace h2 := h2.mono (Nat.le_refl _) h
  obtain ⟨x0, rfl, h0⟩ := at_tok0 h0
  obtain ⟨x1, rfl, h1⟩ := at_node h1
  obtain ⟨x2, rfl, h2⟩ := at_node h2
  exact outp_gives (P := fun r => Ty.At (.node) r a b) (c := .node) (alias_at h0 h1 h2)
theorem sound_pair : Sound .pair := by
  intro ext indent xs a b h
  obtain ⟨y0, xs0, m0, rfl, h0, h⟩ := chain_cons h
  obtain ⟨y1, xs1, m1, rfl, h1, h⟩ := chain_cons h
  obtain ⟨y2, m2, rfl, h2, h⟩ := chain_one h
  replace h2 := h2.mono (Nat.le_refl _) h
  obtain ⟨x0, rfl, h0⟩ := at_node h0
  obtain ⟨x1, rfl, h1⟩ := at_tok0 h1
  obtain ⟨x2, rfl, h2⟩ := at_node h2
  exact outp_gives (P := fun r => Ty.At (.node) r a b) (c := .node) (pair_at h0 h1 h2)
theorem sound_kwsplat : Sound .kwsplat := by
  intro ext indent xs a b h
  obtain ⟨y0, xs0, m0, rfl, h0, h⟩ := chain_cons h
  obtain ⟨y1, m1, rfl, h1, h⟩ := chain_one h
  replace h1 := h1.mono (Nat.le_refl _) h
  obtain ⟨x0, rfl, h0⟩ := at_tok0 h0
  obtain ⟨x1, rfl, h1⟩ := at_node h1
  exact outp_gives (P := fun r => Ty.At (.node) r a b) (c := .node) (kwsplat_at h0 h1)
theorem sound_multiAssign : Sound .multiAssign := by
  intro ext indent xs a b h
  obtain ⟨y0, xs0, m0, rfl, h0, h⟩ := chain_cons h
  obtain ⟨y1, xs1, m1, rfl, h1, h⟩ := chain_cons h
  obtain ⟨y2, m2, rfl, h2, h⟩ := chain_one h
  replace h2 := h2.mono (Nat.le_refl _) h
  obtain ⟨x0, rfl, h0⟩ := at_node h0
  obtain ⟨x1, rfl, h1⟩ := at_tok0 h1
  obtain ⟨x2, rfl, h2⟩ := at_node h2
  exact outp_gives (P := fun r => Ty.At (.node) r a b) (c := .node) (multiAssign_at h0 h1 h2)
theorem sound_defClass : Sound .defClass := by
  intro ext indent xs a b h
  obtain ⟨y0, xs0, m0, rfl, h0, h⟩ := chain_cons h
  obtain ⟨y1, xs1, m1, rfl, h1, h⟩ := chain_cons h
  obtain ⟨y2, xs2, m2, rfl, h2, h⟩ := chain_cons h
  obtain ⟨y3, xs3, m3, rfl, h3, h⟩ := chain_cons h
  obtain ⟨y4, xs4, m4, rfl, h4, h⟩ := chain_cons h
  obtain ⟨y5, m5, rfl, h5, h⟩ := chain_one h
  replace h5 := h5.mono (Nat.le_refl _) h
  obtain ⟨x0, rfl, h0⟩ := at_tok0 h0
  obtain ⟨x1, rfl, h1⟩ := at_node h1
  obtain ⟨x2, rfl, h2⟩ := at_otok h2
  obtain ⟨x3, rfl, h3⟩ := at_onode h3
  obtain ⟨x4, rfl, h4⟩ := at_onode h4
  obtain ⟨x5, rfl, h5⟩ := at_tok0 h5
  exact outp_gives (P := fun r => Ty.At (.node) r a b) (c := .node) (defClass_at h0 h1 h2 h3 h4 h5)
theorem sound_defSclass : Sound .defSclass := by
  intro ext indent xs a b h
  obtain ⟨y0, xs0, m0, rfl, h0, h⟩ := chain_cons h
  obtain ⟨y1, xs1, m1, rfl, h1, h⟩ := chain_cons h
  obtain ⟨y2, xs2, m2, rfl, h2, h⟩ := chain_cons h
  obtain ⟨y3, xs3, m3, rfl, h3, h⟩ := chain_cons h
  obtain ⟨y4, m4, rfl, h4, h⟩ := chain_one h
  replace h4 := h4.mono (Nat.le_refl _) h
  obtain ⟨x0, rfl, h0⟩ := at_tok0 h0
  obtain ⟨x1, rfl, h1⟩ := at_tok0 h1
  obtain ⟨x2, rfl, h2⟩ := at_node h2
  obtain ⟨x3, rfl, h3⟩ := at_onode h3
  obtain ⟨x4, rfl, h4⟩ := at_tok0 h4
  exact outp_gives (P := fun r => Ty.At (.node) r a b) (c := .node) (defSclass_at h0 h1 h2 h3 h4)
theorem sound_defModule : Sound .defModule := by
  intro ext indent xs a b h
  obtain ⟨y0, xs0, m0, rfl, h0, h⟩ := chain_cons h
  obtain ⟨y1, xs1, m1, rfl, h1, h⟩ := chain_cons h
  obtain ⟨y2, xs2, m2, rfl, h2, h⟩ := chain_cons h
  obtain ⟨y3, m3, rfl, h3, h⟩ := chain_one h
  replace h3 := h3.mono (Nat.le_refl _) h
  obtain ⟨x0, rfl, h0⟩ := at_tok0 h0
  obtain ⟨x1, rfl, h1⟩ := at_node h1
  obtain ⟨x2, rfl, h2⟩ := at_onode h2
  obtain ⟨x3, rfl, h3⟩ := at_tok0 h3
  exact outp_gives (P := fun r => Ty.At (.node) r a b) (c := .node) (defModule_at h0 h1 h2 h3)
theorem sound_defMethod : Sound .defMethod := by
  intro ext indent xs a b h
  obtain ⟨y0, xs0, m0, rfl, h0, h⟩ := chain_cons h
  obtain ⟨y1, xs1, m1, rfl, h1, h⟩ := chain_cons h
  obtain ⟨y2, xs2, m2, rfl, h2, h⟩ := chain_cons h
  obtain ⟨y3, xs3, m3, rfl, h3, h⟩ := chain_cons h
  obtain ⟨y4, m4, rfl, h4, h⟩ := chain_one h
  replace h4 := h4.mono (Nat.le_refl _) h
  obtain ⟨x0, rfl, h0⟩ := at_tok0 h0
  obtain ⟨x1, rfl, h1⟩ := at_tok0 h1
  obtain ⟨x2, rfl, h2⟩ := at_onode h2
  obtain ⟨x3, rfl, h3⟩ := at_onode h3
  obtain ⟨x4, rfl, h4⟩ := at_tok0 h4
  exact outB_gives (defMethod_at h0 h1 h2 h3 h4) fun _ h => h
theorem sound_defSingleton : Sound .defSingleton := by
  intro ext indent xs a b h
  obtain ⟨y0, xs0, m0, rfl, h0, h⟩ := chain_cons h
  obtain ⟨y1, xs1, m1, rfl, h1, h⟩ := chain_cons h
  obtain ⟨y2, xs2, m2, rfl, h2, h⟩ := chain_cons h
  obtain ⟨y3, xs3, m3, rfl, h3, h⟩ := chain_cons h
  obtain ⟨y4, xs4, m4, rfl, h4, h⟩ := chain_cons h
  obtain ⟨y5, xs5, m5, rfl, h5, h⟩ := chain_cons h
  obtain ⟨y6, m6, rfl, h6, h⟩ := chain_one h
  replace h6 := h6.mono (Nat.le_refl _) h
  obtain ⟨x0, rfl, h0⟩ := at_tok0 h0
  obtain ⟨x1, rfl, h1⟩ := at_node h1
  obtain ⟨x2, rfl, h2⟩ := at_tok0 h2
  obtain ⟨x3, rfl, h3⟩ := at_tok0 h3
  obtain ⟨x4, rfl, h4⟩ := at_onode h4
  obtain ⟨x5, rfl, h5⟩ := at_onode h5
  obtain ⟨x6, rfl, h6⟩ := at_tok0 h6
  exact outB_gives (defSingleton_at h0 h1 h2 h3 h4 h5 h6) fun _ h => h
theorem sound_indexAsgn : Sound .indexAsgn := by
  intro ext indent xs a b h
  obtain ⟨y0, xs0, m0, rfl, h0, h⟩ := chain_cons h
  obtain ⟨y1, xs1, m1, rfl, h1, h⟩ := chain_cons h
  obtain ⟨y2, xs2, m2, rfl, h2, h⟩ := chain_cons h
  obtain ⟨y3, m3, rfl, h3, h⟩ := chain_one h
  replace h3 := h3.mono (Nat.le_refl _) h
  obtain ⟨x0, rfl, h0⟩ := at_node h0
  obtain ⟨x1, rfl, h1⟩ := at_tok0 h1
  obtain ⟨x2, rfl, h2⟩ := at_nodes h2
  obtain ⟨x3, rfl, h3⟩ := at_tok0 h3
  exact outp_gives (P := fun r => Ty.At (.node) r a b) (c := .node) (indexAsgn_at h0 h1 h2 h3)
theorem sound_ternary : Sound .ternary := by
  intro ext indent xs a b h
  obtain ⟨y0, xs0, m0, rfl, h0, h⟩ := chain_cons h
  obtain ⟨y1, xs1, m1, rfl, h1, h⟩ := chain_cons h
  obtain ⟨y2, xs2, m2, rfl, h2, h⟩ := chain_cons h
  obtain ⟨y3, xs3, m3, rfl, h3, h⟩ := chain_cons h
  obtain ⟨y4, m4, rfl, h4, h⟩ := chain_one h
  replace h4 := h4.mono (Nat.le_refl _) h
  obtain ⟨x0, rfl, h0⟩ := at_node h0
  obtain ⟨x1, rfl, h1⟩ := at_tok0 h1
  obtain ⟨x2, rfl, h2⟩ := at_node h2
  obtain ⟨x3, rfl, h3⟩ := at_tok0 h3
  obtain ⟨x4, rfl, h4⟩ := at_node h4
  exact outp_gives (P := fun r => Ty.At (.node) r a b) (c := .node) (ternary_at h0 h1 h2 h3 h4)
theorem sound_case : Sound .case := by
  intro ext indent xs a b h
  obtain ⟨y0, xs0, m0, rfl, h0, h⟩ := chain_cons h
  obtain ⟨y1, xs1, m1, rfl, h1, h⟩ := chain_cons h
  obtain ⟨y2, xs2, m2, rfl, h2, h⟩ := chain_cons h
  obtain ⟨y3, xs3, m3, rfl, h3, h⟩ := chain_cons h
  obtain ⟨y4, xs4, m4, rfl, h4, h⟩ := chain_cons h
  obtain ⟨y5, m5, rfl, h5, h⟩ := chain_one h
  replace h5 := h5.mono (Nat.le_refl _) h
  obtain ⟨x0, rfl, h0⟩ := at_tok0 h0
  obtain ⟨x1, rfl, h1⟩ := at_onode h1
  obtain ⟨x2, rfl, h2⟩ := at_nodes h2
  obtain ⟨x3, rfl, h3⟩ := at_otok h3
  obtain ⟨x4, rfl, h4⟩ := at_onode h4
  obtain ⟨x5, rfl, h5⟩ := at_tok0 h5
  exact outp_gives (P := fun r => Ty.At (.node) r a b) (c := .node) (case_at h0 h1 h2 h3 h4 h5)
theorem sound_for_ : Sound .for_ := by
  intro ext indent xs a b h
  obtain ⟨y0, xs0, m0, rfl, h0, h⟩ := chain_cons h
  obtain ⟨y1, xs1, m1, rfl, h1, h⟩ := chain_cons h
  obtain ⟨y2, xs2, m2, rfl, h2, h⟩ := chain_cons h
  obtain ⟨y3, xs3, m3, rfl, h3, h⟩ := chain_cons h
  obtain ⟨y4, xs4, m4, rfl, h4, h⟩ := chain_cons h
  obtain ⟨y5, xs5, m5, rfl, h5, h⟩ := chain_cons h
  obtain ⟨y6, m6, rfl, h6, h⟩ := chain_one h
  replace h6 := h6.mono (Nat.le_refl _) h
  obtain ⟨x0, rfl, h0⟩ := at_tok0 h0
  obtain ⟨x1, rfl, h1⟩ := at_node h1
  obtain ⟨x2, rfl, h2⟩ := at_tok0 h2
  obtain ⟨x3, rfl, h3⟩ := at_node h3
  obtain ⟨x4, rfl, h4⟩ := at_tok0 h4
  obtain ⟨x5, rfl, h5⟩ := at_onode h5
  obtain ⟨x6, rfl, h6⟩ := at_tok0 h6
  exact outp_gives (P := fun r => Ty.At (.node) r a b) (c := .node) (for_at h0 h1 h2 h3 h4 h5 h6)
theorem sound_preexe : Sound .preexe := by
  intro ext indent xs a b h
  obtain ⟨y0, xs0, m0, rfl, h0, h⟩ := chain_cons h
  obtain ⟨y1, xs1, m1, rfl, h1, h⟩ := chain_cons h
  obtain ⟨y2, xs2, m2, rfl, h2, h⟩ := chain_cons h
  obtain ⟨y3, m3, rfl, h3, h⟩ := chain_one h
  replace h3 := h3.mono (Nat.le_refl _) h
  obtain ⟨x0, rfl, h0⟩ := at_tok0 h0
  obtain ⟨x1, rfl, h1⟩ := at_tok0 h1
  obtain ⟨x2, rfl, h2⟩ := at_onode h2
  obtain ⟨x3, rfl, h3⟩ := at_tok0 h3
  exact outp_gives (P := fun r => Ty.At (.node) r a b) (c := .node) (preexe_at h0 h1 h2 h3)
theorem sound_postexe : Sound .postexe := by
  intro ext indent xs a b h
  obtain ⟨y0, xs0, m0, rfl, h0, h⟩ := chain_cons h
  obtain ⟨y1, xs1, m1, rfl, h1, h⟩ := chain_cons h
  obtain ⟨y2, xs2, m2, rfl, h2, h⟩ := chain_cons h
  obtain ⟨y3, m3, rfl, h3, h⟩ := chain_one h
  replace h3 := h3.mono (Nat.le_refl _) h
  obtain ⟨x0, rfl, h0⟩ := at_tok0 h0
  obtain ⟨x1, rfl, h1⟩ := at_tok0 h1
  obtain ⟨x2, rfl, h2⟩ := at_onode h2
  obtain ⟨x3, rfl, h3⟩ := at_tok0 h3
  exact outp_gives (P := fun r => Ty.At (.node) r a b) (c := .node) (postexe_at h0 h1 h2 h3)
theorem sound_matchPattern : Sound .matchPattern := by
  intro ext indent xs a b h
  obtain ⟨y0, xs0, m0, rfl, h0, h⟩ := chain_cons h
  obtain ⟨y1, xs1, m1, rfl, h1, h⟩ := chain_cons h
  obtain ⟨y2, m2, rfl, h2, h⟩ := chain_one h
  replace h2 := h2.mono (Nat.le_refl _) h
  obtain ⟨x0, rfl, h0⟩ := at_node h0
  obtain ⟨x1, rfl, h1⟩ := at_tok0 h1
  obtain ⟨x2, rfl, h2⟩ := at_node h2
  exact outp_gives (P := fun r => Ty.At (.node) r a b) (c := .node) (matchPattern_at h0 h1 h2)
theorem sound_matchPatternP : Sound .matchPatternP := by
  intro ext indent xs a b h
  obtain ⟨y0, xs0, m0, rfl, h0, h⟩ := chain_cons h
  obtain ⟨y1, xs1, m1, rfl, h1, h⟩ := chain_cons h
  obtain ⟨y2, m2, rfl, h2, h⟩ := chain_one h
  replace h2 := h2.mono (Nat.le_refl _) h
  obtain ⟨x0, rfl, h0⟩ := at_node h0
  obtain ⟨x1, rfl, h1⟩ := at_tok0 h1
  obtain ⟨x2, rfl, h2⟩ := at_node h2
  exact outp_gives (P := fun r => Ty.At (.node) r a b) (c := .node) (matchPatternP_at h0 h1 h2)
theorem sound_ifGuard : Sound .ifGuard := by
  intro ext indent xs a b h
  obtain ⟨y0, xs0, m0, rfl, h0, h⟩ := chain_cons h
  obtain ⟨y1, m1, rfl, h1, h⟩ := chain_one h
  replace h1 := h1.mono (Nat.le_refl _) h
  obtain ⟨x0, rfl, h0⟩ := at_tok0 h0
  obtain ⟨x1, rfl, h1⟩ := at_node h1
  exact outp_gives (P := fun r => Ty.At (.node) r a b) (c := .node) (ifGuard_at h0 h1)
theorem sound_unlessGuard : Sound .unlessGuard := by
  intro ext indent xs a b h
  obtain ⟨y0, xs0, m0, rfl, h0, h⟩ := chain_cons h
  obtain ⟨y1, m1, rfl, h1, h⟩ := chain_one h
  replace h1 := h1.mono (Nat.le_refl _) h
  obtain ⟨x0, rfl, h0⟩ := at_tok0 h0
  obtain ⟨x1, rfl, h1⟩ := at_node h1
  exact outp_gives (P := fun r => Ty.At (.node) r a b) (c := .node) (unlessGuard_at h0 h1)
theorem sound_constPattern : Sound .constPattern := by
  intro ext indent xs a b h
  obtain ⟨y0, xs0, m0, rfl, h0, h⟩ := chain_cons h
  obtain ⟨y1, xs1, m1, rfl, h1, h⟩ := chain_cons h
  obtain ⟨y2, xs2, m2, rfl, h2, h⟩ := chain_cons h
  obtain ⟨y3, m3, rfl, h3, h⟩ := chain_one h
  replace h3 := h3.mono (Nat.le_refl _) h
  obtain ⟨x0, rfl, h0⟩ := at_node h0
  obtain ⟨x1, rfl, h1⟩ := at_tok0 h1
  obtain ⟨x2, rfl, h2⟩ := at_node h2
  obtain ⟨x3, rfl, h3⟩ := at_tok0 h3
  exact outp_gives (P := fun r => Ty.At (.node) r a b) (c := .node) (constPattern_at h0 h1 h2 h3)
theorem sound_pin : Sound .pin := by
  intro ext indent xs a b h
  obtain ⟨y0, xs0, m0, rfl, h0, h⟩ := chain_cons h
  obtain ⟨y1, m1, rfl, h1, h⟩ := chain_one h
  replace h1 := h1.mono (Nat.le_refl _) h
  obtain ⟨x0, rfl, h0⟩ := at_tok0 h0
  obtain ⟨x1, rfl, h1⟩ := at_node h1
  exact outp_gives (P := fun r => Ty.At (.node) r a b) (c := .node) (pin_at h0 h1)
theorem sound_matchAlt : Sound .matchAlt := by
  intro ext indent xs a b h
  obtain ⟨y0, xs0, m0, rfl, h0, h⟩ := chain_cons h
  obtain ⟨y1, xs1, m1, rfl, h1, h⟩ := chain_cons h
  obtain ⟨y2, m2, rfl, h2, h⟩ := chain_one h
  replace h2 := h2.mono (Nat.le_refl _) h
  obtain ⟨x0, rfl, h0⟩ := at_node h0
  obtain ⟨x1, rfl, h1⟩ := at_tok0 h1
  obtain ⟨x2, rfl, h2⟩ := at_node h2
  exact outp_gives (P := fun r => Ty.At (.node) r a b) (c := .node) (matchAlt_at h0 h1 h2)
theorem sound_matchAs : Sound .matchAs := by
  intro ext indent xs a b h
  obtain ⟨y0, xs0, m0, rfl, h0, h⟩ := chain_cons h
  obtain ⟨y1, xs1, m1, rfl, h1, h⟩ := chain_cons h
  obtain ⟨y2, m2, rfl, h2, h⟩ := chain_one h
  replace h2 := h2.mono (Nat.le_refl _) h
  obtain ⟨x0, rfl, h0⟩ := at_node h0
  obtain ⟨x1, rfl, h1⟩ := at_tok0 h1
  obtain ⟨x2, rfl, h2⟩ := at_node h2
  exact outp_gives (P := fun r => Ty.At (.node) r a b) (c := .node) (matchAs_at h0 h1 h2)
theorem sound_matchNilPattern : Sound .matchNilPattern := by
  intro ext indent xs a b h
  obtain ⟨y0, xs0, m0, rfl, h0, h⟩ := chain_cons h
  obtain ⟨y1, m1, rfl, h1, h⟩ := chain_one h
  replace h1 := h1.mono (Nat.le_refl _) h
  obtain ⟨x0, rfl, h0⟩ := at_tok0 h0
  obtain ⟨x1, rfl, h1⟩ := at_tok0 h1
  exact outp_gives (P := fun r => Ty.At (.node) r a b) (c := .node) (matchNilPattern_at h0 h1)
theorem sound_wordsCompose : Sound .wordsCompose := by
  intro ext indent xs a b h
  obtain ⟨y0, xs0, m0, rfl, h0, h⟩ := chain_cons h
  obtain ⟨y1, xs1, m1, rfl, h1, h⟩ := chain_cons h
  obtain ⟨y2, m2, rfl, h2, h⟩ := chain_one h
  replace h2 := h2.mono (Nat.le_refl _) h
  obtain ⟨x0, rfl, h0⟩ := at_tok0 h0
  obtain ⟨x1, rfl, h1⟩ := at_nodes h1
  obtain ⟨x2, rfl, h2⟩ := at_tok0 h2
  exact outp_gives (P := fun r => Ty.At (.node) r a b) (c := .node) (wordsCompose_at h0 h1 h2)
theorem sound_character : Sound .character := by
  intro ext indent xs a b h
  obtain ⟨y0, m0, rfl, h0, h⟩ := chain_one h
  replace h0 := h0.mono (Nat.le_refl _) h
  obtain ⟨x0, rfl, h0⟩ := at_tok1 h0
  exact outp_gives (P := fun r => Ty.At (.node) r a b) (c := .node) (character_at h0.1 h0.2)
theorem sound_splat : Sound .splat := by
  intro ext indent xs a b h
  obtain ⟨y0, xs0, m0, rfl, h0, h⟩ := chain_cons h
  obtain ⟨y1, m1, rfl, h1, h⟩ := chain_one h
  replace h1 := h1.mono (Nat.le_refl _) h
  obtain ⟨x0, rfl, h0⟩ := at_tok0 h0
  obtain ⟨x1, rfl, h1⟩ := at_onode h1
  exact outp_gives (P := fun r => Ty.At (.node) r a b) (c := .node) (splat_at h0 h1)
theorem sound_blockPass : Sound .blockPass := by
  intro ext indent xs a b h
  obtain ⟨y0, xs0, m0, rfl, h0, h⟩ := chain_cons h
  obtain ⟨y1, m1, rfl, h1, h⟩ := chain_one h
  replace h1 := h1.mono (Nat.le_refl _) h
  obtain ⟨x0, rfl, h0⟩ := at_tok0 h0
  obtain ⟨x1, rfl, h1⟩ := at_onode h1
  exact outp_gives (P := fun r => Ty.At (.node) r a b) (c := .node) (blockPass_at h0 h1)
theorem sound_rangeInclusive : Sound .rangeInclusive := by
  intro ext indent xs a b h
  obtain ⟨y0, xs0, m0, rfl, h0, h⟩ := chain_cons h
  obtain ⟨y1, xs1, m1, rfl, h1, h⟩ := chain_cons h
  obtain ⟨y2, m2, rfl, h2, h⟩ := chain_one h
  replace h2 := h2.mono (Nat.le_refl _) h
  obtain ⟨x0, rfl, h0⟩ := at_onode h0
  obtain ⟨x1, rfl, h1⟩ := at_tok0 h1
  obtain ⟨x2, rfl, h2⟩ := at_onode h2
  exact outp_gives (P := fun r => Ty.At (.node) r a b) (c := .node) (rangeInclusive_at h0 h1 h2)
theorem sound_rangeExclusive : Sound .rangeExclusive := by
  intro ext indent xs a b h
  obtain ⟨y0, xs0, m0, rfl, h0, h⟩ := chain_cons h
  obtain ⟨y1, xs1, m1, rfl, h1, h⟩ := chain_cons h
  obtain ⟨y2, m2, rfl, h2, h⟩ := chain_one h
  replace h2 := h2.mono (Nat.le_refl _) h
  obtain ⟨x0, rfl, h0⟩ := at_onode h0
  obtain ⟨x1, rfl, h1⟩ := at_tok0 h1
  obtain ⟨x2, rfl, h2⟩ := at_onode h2
  exact outp_gives (P := fun r => Ty.At (.node) r a b) (c := .node) (rangeExclusive_at h0 h1 h2)
theorem sound_restarg : Sound .restarg := by
  intro ext indent xs a b h
  obtain ⟨y0, xs0, m0, rfl, h0, h⟩ := chain_cons h
  obtain ⟨y1, m1, rfl, h1, h⟩ := chain_one h
  replace h1 := h1.mono (Nat.le_refl _) h
  obtain ⟨x0, rfl, h0⟩ := at_tok0 h0
  obtain ⟨x1, rfl, h1⟩ := at_otok h1
  exact outB_gives (restarg_at h0 h1) fun _ h => h
theorem sound_kwrestarg : Sound .kwrestarg := by
  intro ext indent xs a b h
  obtain ⟨y0, xs0, m0, rfl, h0, h⟩ := chain_cons h
  obtain ⟨y1, m1, rfl, h1, h⟩ := chain_one h
  replace h1 := h1.mono (Nat.le_refl _) h
  obtain ⟨x0, rfl, h0⟩ := at_tok0 h0
  obtain ⟨x1, rfl, h1⟩ := at_otok h1
  exact outB_gives (kwrestarg_at h0 h1) fun _ h => h
theorem sound_blockarg : Sound .blockarg := by
  intro ext indent xs a b h
  obtain ⟨y0, xs0, m0, rfl, h0, h⟩ := chain_cons h
  obtain ⟨y1, m1, rfl, h1, h⟩ := chain_one h
  replace h1 := h1.mono (Nat.le_refl _) h
  obtain ⟨x0, rfl, h0⟩ := at_tok0 h0
  obtain ⟨x1, rfl, h1⟩ := at_otok h1
  exact outB_gives (blockarg_at h0 h1) fun _ h => h
theorem sound_unaryNum : Sound .unaryNum := by
  intro ext indent xs a b h
  obtain ⟨y0, xs0, m0, rfl, h0, h⟩ := chain_cons h
  obtain ⟨y1, m1, rfl, h1, h⟩ := chain_one h
  replace h1 := h1.mono (Nat.le_refl _) h
  obtain ⟨x0, rfl, h0⟩ := at_tok0 h0
  obtain ⟨x1, rfl, h1⟩ := at_node h1
  exact outR_gives (unaryNum_at h0 h1) fun _ h => h
theorem sound_symbol : Sound .symbol := by
  intro ext indent xs a b h
  obtain ⟨y0, xs0, m0, rfl, h0, h⟩ := chain_cons h
  obtain ⟨y1, m1, rfl, h1, h⟩ := chain_one h
  replace h1 := h1.mono (Nat.le_refl _) h
  obtain ⟨x0, rfl, h0⟩ := at_tok0 h0
  obtain ⟨x1, rfl, h1⟩ := at_tok0 h1
  exact outM_gives (symbol_at h0 h1) fun _ h => h
theorem sound_symbolInternal : Sound .symbolInternal := by
  intro ext indent xs a b h
  obtain ⟨y0, m0, rfl, h0, h⟩ := chain_one h
  replace h0 := h0.mono (Nat.le_refl _) h
  obtain ⟨x0, rfl, h0⟩ := at_tok0 h0
  exact outM_gives (symbolInternal_at h0) fun _ h => h
theorem sound_nthRef : Sound .nthRef := by
  intro ext indent xs a b h
  obtain ⟨y0, m0, rfl, h0, h⟩ := chain_one h
  replace h0 := h0.mono (Nat.le_refl _) h
  obtain ⟨x0, rfl, h0⟩ := at_tok0 h0
  exact outM_gives (nthRef_at h0) fun _ h => h
theorem sound_matchVar : Sound .matchVar := by
  intro ext indent xs a b h
  obtain ⟨y0, m0, rfl, h0, h⟩ := chain_one h
  replace h0 := h0.mono (Nat.le_refl _) h
  obtain ⟨x0, rfl, h0⟩ := at_tok0 h0
  exact outB_gives (matchVar_at h0) fun _ h => h
theorem sound_array : Sound .array := by
  intro ext indent xs a b h
  obtain ⟨y0, xs0, m0, rfl, h0, h⟩ := chain_cons h
  obtain ⟨y1, xs1, m1, rfl, h1, h⟩ := chain_cons h
  obtain ⟨y2, m2, rfl, h2, h⟩ := chain_one h
  replace h2 := h2.mono (Nat.le_refl _) h
  obtain ⟨x0, rfl, h0⟩ := at_otok h0
  obtain ⟨x1, rfl, h1⟩ := at_nodes h1
  obtain ⟨x2, rfl, h2⟩ := at_otok h2
  exact outR_gives (array_at h0 h1 h2) fun _ h => h
theorem sound_multiLhs : Sound .multiLhs := by
  intro ext indent xs a b h
  obtain ⟨y0, xs0, m0, rfl, h0, h⟩ := chain_cons h
  obtain ⟨y1, xs1, m1, rfl, h1, h⟩ := chain_cons h
  obtain ⟨y2, m2, rfl, h2, h⟩ := chain_one h
  replace h2 := h2.mono (Nat.le_refl _) h
  obtain ⟨x0, rfl, h0⟩ := at_otok h0
  obtain ⟨x1, rfl, h1⟩ := at_nodes h1
  obtain ⟨x2, rfl, h2⟩ := at_otok h2
  exact outR_gives (multiLhs_at h0 h1 h2) fun _ h => h
theorem sound_hashPattern : Sound .hashPattern := by
  intro ext indent xs a b h
  obtain ⟨y0, xs0, m0, rfl, h0, h⟩ := chain_cons h
  obtain ⟨y1, xs1, m1, rfl, h1, h⟩ := chain_cons h
  obtain ⟨y2, m2, rfl, h2, h⟩ := chain_one h
  replace h2 := h2.mono (Nat.le_refl _) h
  obtain ⟨x0, rfl, h0⟩ := at_otok h0
  obtain ⟨x1, rfl, h1⟩ := at_nodes h1
  obtain ⟨x2, rfl, h2⟩ := at_otok h2
  exact outR_gives (hashPattern_at h0 h1 h2) fun _ h => h
theorem sound_findPattern : Sound .findPattern := by
  intro ext indent xs a b h
  obtain ⟨y0, xs0, m0, rfl, h0, h⟩ := chain_cons h
  obtain ⟨y1, xs1, m1, rfl, h1, h⟩ := chain_cons h
  obtain ⟨y2, m2, rfl, h2, h⟩ := chain_one h
  replace h2 := h2.mono (Nat.le_refl _) h
  obtain ⟨x0, rfl, h0⟩ := at_otok h0
  obtain ⟨x1, rfl, h1⟩ := at_nodes h1
  obtain ⟨x2, rfl, h2⟩ := at_otok h2
  exact outR_gives (findPattern_at h0 h1 h2) fun _ h => h
theorem sound_associate : Sound .associate := by
  intro ext indent xs a b h
  obtain ⟨y0, xs0, m0, rfl, h0, h⟩ := chain_cons h
  obtain ⟨y1, xs1, m1, rfl, h1, h⟩ := chain_cons h
  obtain ⟨y2, m2, rfl, h2, h⟩ := chain_one h
  replace h2 := h2.mono (Nat.le_refl _) h
  obtain ⟨x0, rfl, h0⟩ := at_otok h0
  obtain ⟨x1, rfl, h1⟩ := at_nodes h1
  obtain ⟨x2, rfl, h2⟩ := at_otok h2
  exact outM_gives (associate_at h0 h1 h2) fun _ h => h
theorem sound_args : Sound .args := by
  intro ext indent xs a b h
  obtain ⟨y0, xs0, m0, rfl, h0, h⟩ := chain_cons h
  obtain ⟨y1, xs1, m1, rfl, h1, h⟩ := chain_cons h
  obtain ⟨y2, m2, rfl, h2, h⟩ := chain_one h
  replace h2 := h2.mono (Nat.le_refl _) h
  obtain ⟨x0, rfl, h0⟩ := at_otok h0
  obtain ⟨x1, rfl, h1⟩ := at_nodes h1
  obtain ⟨x2, rfl, h2⟩ := at_otok h2
  exact outM_gives (args_at h0 h1 h2) fun _ h => h
theorem sound_arrayPattern : Sound .arrayPattern := by
  intro ext indent xs a b h
  obtain ⟨y0, xs0, m0, rfl, h0, h⟩ := chain_cons h
  obtain ⟨y1, xs1, m1, rfl, h1, h⟩ := chain_cons h
  obtain ⟨y2, xs2, m2, rfl, h2, h⟩ := chain_cons h
  obtain ⟨y3, m3, rfl, h3, h⟩ := chain_one h
  replace h3 := h3.mono (Nat.le_refl _) h
  obtain ⟨x0, rfl, h0⟩ := at_otok h0
  obtain ⟨x1, rfl, h1⟩ := at_nodes h1
  obtain ⟨x2, rfl, h2⟩ := at_otok h2
  obtain ⟨x3, rfl, h3⟩ := at_otok h3
  exact outR_gives (arrayPattern_at h0 h1 h2 h3) fun _ h => h
theorem sound_logical : Sound (.logical p) := by
  intro ext indent xs a b h
  obtain ⟨y0, xs0, m0, rfl, h0, h⟩ := chain_cons h
  obtain ⟨y1, xs1, m1, rfl, h1, h⟩ := chain_cons h
  obtain ⟨y2, m2, rfl, h2, h⟩ := chain_one h
  replace h2 := h2.mono (Nat.le_refl _) h
  obtain ⟨x0, rfl, h0⟩ := at_node h0
  obtain ⟨x1, rfl, h1⟩ := at_tok0 h1
  obtain ⟨x2, rfl, h2⟩ := at_node h2
  exact outB_gives (logicalOp_at h0 h1 h2) fun _ h => h
theorem sound_binaryOp : Sound .binaryOp := by
  intro ext indent xs a b h
  obtain ⟨y0, xs0, m0, rfl, h0, h⟩ := chain_cons h
  obtain ⟨y1, xs1, m1, rfl, h1, h⟩ := chain_cons h
  obtain ⟨y2, m2, rfl, h2, h⟩ := chain_one h
  replace h2 := h2.mono (Nat.le_refl _) h
  obtain ⟨x0, rfl, h0⟩ := at_node h0
  obtain ⟨x1, rfl, h1⟩ := at_tok0 h1
  obtain ⟨x2, rfl, h2⟩ := at_node h2
  exact outB_gives (binaryOp_at h0 h1 h2) fun _ h => h
theorem sound_unaryOp : Sound .unaryOp := by
  intro ext indent xs a b h
  obtain ⟨y0, xs0, m0, rfl, h0, h⟩ := chain_cons h
  obtain ⟨y1, m1, rfl, h1, h⟩ := chain_one h
  replace h1 := h1.mono (Nat.le_refl _) h
  obtain ⟨x0, rfl, h0⟩ := at_tok0 h0
  obtain ⟨x1, rfl, h1⟩ := at_node h1
  exact outB_gives (unaryOp_at h0 h1) fun _ h => h
theorem sound_matchOp : Sound .matchOp := by
  intro ext indent xs a b h
  obtain ⟨y0, xs0, m0, rfl, h0, h⟩ := chain_cons h
  obtain ⟨y1, xs1, m1, rfl, h1, h⟩ := chain_cons h
  obtain ⟨y2, m2, rfl, h2, h⟩ := chain_one h
  replace h2 := h2.mono (Nat.le_refl _) h
  obtain ⟨x0, rfl, h0⟩ := at_node h0
  obtain ⟨x1, rfl, h1⟩ := at_tok0 h1
  obtain ⟨x2, rfl, h2⟩ := at_node h2
  exact outB_gives (matchOp_at h0 h1 h2) fun _ h => h
theorem sound_notOp : Sound .notOp := by
  intro ext indent xs a b h
  obtain ⟨y0, xs0, m0, rfl, h0, h⟩ := chain_cons h
  obtain ⟨y1, m1, rfl, h1, h⟩ := chain_one h
  replace h1 := h1.mono (Nat.le_refl _) h
  obtain ⟨x0, rfl, h0⟩ := at_tok0 h0
  obtain ⟨x1, rfl, h1⟩ := at_node h1
  exact outB_gives (notOp_at h0 h1) fun _ h => h
theorem sound_notParen : Sound .notParen := by
  intro ext indent xs a b h
  obtain ⟨y0, xs0, m0, rfl, h0, h⟩ := chain_cons h
  obtain ⟨y1, xs1, m1, rfl, h1, h⟩ := chain_cons h
  obtain ⟨y2, xs2, m2, rfl, h2, h⟩ := chain_cons h
  obtain ⟨y3, m3, rfl, h3, h⟩ := chain_one h
  replace h3 := h3.mono (Nat.le_refl _) h
  obtain ⟨x0, rfl, h0⟩ := at_tok0 h0
  obtain ⟨x1, rfl, h1⟩ := at_tok0 h1
  obtain ⟨x2, rfl, h2⟩ := at_node h2
  obtain ⟨x3, rfl, h3⟩ := at_tok0 h3
  exact outB_gives (notOp_paren_at h0 h1 h2 h3) fun _ h => h
theorem sound_notEmpty : Sound .notEmpty := by
  intro ext indent xs a b h
  obtain ⟨y0, xs0, m0, rfl, h0, h⟩ := chain_cons h
  obtain ⟨y1, xs1, m1, rfl, h1, h⟩ := chain_cons h
  obtain ⟨y2, m2, rfl, h2, h⟩ := chain_one h
  replace h2 := h2.mono (Nat.le_refl _) h
  obtain ⟨x0, rfl, h0⟩ := at_tok0 h0
  obtain ⟨x1, rfl, h1⟩ := at_tok0 h1
  obtain ⟨x2, rfl, h2⟩ := at_tok0 h2
  exact outB_gives (notOp_empty_at h0 h1 h2) fun _ h => h
theorem sound_ifMod : Sound .ifMod := by
  intro ext indent xs a b h
  obtain ⟨y0, xs0, m0, rfl, h0, h⟩ := chain_cons h
  obtain ⟨y1, xs1, m1, rfl, h1, h⟩ := chain_cons h
  obtain ⟨y2, m2, rfl, h2, h⟩ := chain_one h
  replace h2 := h2.mono (Nat.le_refl _) h
  obtain ⟨x0, rfl, h0⟩ := at_node h0
  obtain ⟨x1, rfl, h1⟩ := at_tok0 h1
  obtain ⟨x2, rfl, h2⟩ := at_node h2
  exact outR_gives (ifMod_at h0 h1 h2) fun _ h => h
theorem sound_unlessMod : Sound .unlessMod := by
  intro ext indent xs a b h
  obtain ⟨y0, xs0, m0, rfl, h0, h⟩ := chain_cons h
  obtain ⟨y1, xs1, m1, rfl, h1, h⟩ := chain_cons h
  obtain ⟨y2, m2, rfl, h2, h⟩ := chain_one h
  replace h2 := h2.mono (Nat.le_refl _) h
  obtain ⟨x0, rfl, h0⟩ := at_node h0
  obtain ⟨x1, rfl, h1⟩ := at_tok0 h1
  obtain ⟨x2, rfl, h2⟩ := at_node h2
  exact outR_gives (unlessMod_at h0 h1 h2) fun _ h => h
theorem sound_loopMod : Sound (.loopMod p) := by
  intro ext indent xs a b h
  obtain ⟨y0, xs0, m0, rfl, h0, h⟩ := chain_cons h
  obtain ⟨y1, xs1, m1, rfl, h1, h⟩ := chain_cons h
  obtain ⟨y2, m2, rfl, h2, h⟩ := chain_one h
  replace h2 := h2.mono (Nat.le_refl _) h
  obtain ⟨x0, rfl, h0⟩ := at_node h0
  obtain ⟨x1, rfl, h1⟩ := at_tok0 h1
  obtain ⟨x2, rfl, h2⟩ := at_node h2
  exact outp_gives (P := fun r => Ty.At (.node) r a b) (c := .node) (loopMod_at h0 h1 h2)
theorem sound_loop_ : Sound (.loop_ p) := by
  intro ext indent xs a b h
  obtain ⟨y0, xs0, m0, rfl, h0, h⟩ := chain_cons h
  obtain ⟨y1, xs1, m1, rfl, h1, h⟩ := chain_cons h
  obtain ⟨y2, xs2, m2, rfl, h2, h⟩ := chain_cons h
  obtain ⟨y3, xs3, m3, rfl, h3, h⟩ := chain_cons h
  obtain ⟨y4, m4, rfl, h4, h⟩ := chain_one h
  replace h4 := h4.mono (Nat.le_refl _) h
  obtain ⟨x0, rfl, h0⟩ := at_tok0 h0
  obtain ⟨x1, rfl, h1⟩ := at_node h1
  obtain ⟨x2, rfl, h2⟩ := at_tok0 h2
  obtain ⟨x3, rfl, h3⟩ := at_onode h3
  obtain ⟨x4, rfl, h4⟩ := at_tok0 h4
  exact outp_gives (P := fun r => Ty.At (.node) r a b) (c := .node) (loop_at h0 h1 h2 h3 h4)
theorem sound_condition : Sound .condition := by
  intro ext indent xs a b h
  obtain ⟨y0, xs0, m0, rfl, h0, h⟩ := chain_cons h
  obtain ⟨y1, xs1, m1, rfl, h1, h⟩ := chain_cons h
  obtain ⟨y2, xs2, m2, rfl, h2, h⟩ := chain_cons h
  obtain ⟨y3, xs3, m3, rfl, h3, h⟩ := chain_cons h
  obtain ⟨y4, xs4, m4, rfl, h4, h⟩ := chain_cons h
  obtain ⟨y5, m5, rfl, h5, h⟩ := chain_one h
  replace h5 := h5.mono (Nat.le_refl _) h
  obtain ⟨x0, rfl, h0⟩ := at_tok0 h0
  obtain ⟨x1, rfl, h1⟩ := at_node h1
  obtain ⟨x2, rfl, h2⟩ := at_tok0 h2
  obtain ⟨x3, rfl, h3⟩ := at_onode h3
  obtain ⟨x4, rfl, h4⟩ := at_tail h4
  obtain ⟨x5, rfl, h5⟩ := at_tok0 h5
  exact outp_gives (P := fun r => Ty.At (.node) r a b) (c := .node) (condition_at h0 h1 h2 h3 h4 h5)
theorem sound_unless_ : Sound .unless_ := by
  intro ext indent xs a b h
  obtain ⟨y0, xs0, m0, rfl, h0, h⟩ := chain_cons h
  obtain ⟨y1, xs1, m1, rfl, h1, h⟩ := chain_cons h
  obtain ⟨y2, xs2, m2, rfl, h2, h⟩ := chain_cons h
  obtain ⟨y3, xs3, m3, rfl, h3, h⟩ := chain_cons h
  obtain ⟨y4, xs4, m4, rfl, h4, h⟩ := chain_cons h
  obtain ⟨y5, xs5, m5, rfl, h5, h⟩ := chain_cons h
  obtain ⟨y6, m6, rfl, h6, h⟩ := chain_one h
  replace h6 := h6.mono (Nat.le_refl _) h
  obtain ⟨x0, rfl, h0⟩ := at_tok0 h0
  obtain ⟨x1, rfl, h1⟩ := at_node h1
  obtain ⟨x2, rfl, h2⟩ := at_tok0 h2
  obtain ⟨x3, rfl, h3⟩ := at_onode h3
  obtain ⟨x4, rfl, h4⟩ := at_otok h4
  obtain ⟨x5, rfl, h5⟩ := at_onode h5
  obtain ⟨x6, rfl, h6⟩ := at_tok0 h6
  exact outp_gives (P := fun r => Ty.At (.node) r a b) (c := .node) (unless_at h0 h1 h2 h3 h4 h5 h6)
theorem sound_when : Sound .when := by
  intro ext indent xs a b h
  obtain ⟨y0, xs0, m0, rfl, h0, h⟩ := chain_cons h
  obtain ⟨y1, xs1, m1, rfl, h1, h⟩ := chain_cons h
  obtain ⟨y2, xs2, m2, rfl, h2, h⟩ := chain_cons h
  obtain ⟨y3, m3, rfl, h3, h⟩ := chain_one h
  replace h3 := h3.mono (Nat.le_refl _) h
  obtain ⟨x0, rfl, h0⟩ := at_tok0 h0
  obtain ⟨x1, rfl, h1⟩ := at_nodes h1
  obtain ⟨x2, rfl, h2⟩ := at_tok0 h2
  obtain ⟨x3, rfl, h3⟩ := at_onode h3
  exact outp_gives (P := fun r => Ty.At (.node) r a b) (c := .node) (when_at h0 h1 h2 h3)
theorem sound_inPattern : Sound .inPattern := by
  intro ext indent xs a b h
  obtain ⟨y0, xs0, m0, rfl, h0, h⟩ := chain_cons h
  obtain ⟨y1, xs1, m1, rfl, h1, h⟩ := chain_cons h
  obtain ⟨y2, xs2, m2, rfl, h2, h⟩ := chain_cons h
  obtain ⟨y3, xs3, m3, rfl, h3, h⟩ := chain_cons h
  obtain ⟨y4, m4, rfl, h4, h⟩ := chain_one h
  replace h4 := h4.mono (Nat.le_refl _) h
  obtain ⟨x0, rfl, h0⟩ := at_tok0 h0
  obtain ⟨x1, rfl, h1⟩ := at_node h1
  obtain ⟨x2, rfl, h2⟩ := at_onode h2
  obtain ⟨x3, rfl, h3⟩ := at_tok0 h3
  obtain ⟨x4, rfl, h4⟩ := at_onode h4
  exact outp_gives (P := fun r => Ty.At (.node) r a b) (c := .node) (inPattern_at h0 h1 h2 h3 h4)
theorem sound_caseMatch : Sound .caseMatch := by
  intro ext indent xs a b h
  obtain ⟨y0, xs0, m0, rfl, h0, h⟩ := chain_cons h
  obtain ⟨y1, xs1, m1, rfl, h1, h⟩ := chain_cons h
  obtain ⟨y2, xs2, m2, rfl, h2, h⟩ := chain_cons h
  obtain ⟨y3, xs3, m3, rfl, h3, h⟩ := chain_cons h
  obtain ⟨y4, xs4, m4, rfl, h4, h⟩ := chain_cons h
  obtain ⟨y5, m5, rfl, h5, h⟩ := chain_one h
  replace h5 := h5.mono (Nat.le_refl _) h
  obtain ⟨x0, rfl, h0⟩ := at_tok0 h0
  obtain ⟨x1, rfl, h1⟩ := at_node h1
  obtain ⟨x2, rfl, h2⟩ := at_nodes h2
  obtain ⟨x3, rfl, h3⟩ := at_otok h3
  obtain ⟨x4, rfl, h4⟩ := at_onode h4
  obtain ⟨x5, rfl, h5⟩ := at_tok0 h5
  exact outp_gives (P := fun r => Ty.At (.node) r a b) (c := .node) (caseMatch_at h0 h1 h2 h3 h4 h5)
theorem sound_rescueClause : Sound .rescueClause := by
  intro ext indent xs a b h
  obtain ⟨y0, xs0, m0, rfl, h0, h⟩ := chain_cons h
  obtain ⟨y1, xs1, m1, rfl, h1, h⟩ := chain_cons h
  obtain ⟨y2, xs2, m2, rfl, h2, h⟩ := chain_cons h
  obtain ⟨y3, xs3, m3, rfl, h3, h⟩ := chain_cons h
  obtain ⟨y4, m4, rfl, h4, h⟩ := chain_one h
  replace h4 := h4.mono (Nat.le_refl _) h
  obtain ⟨x0, rfl, h0⟩ := at_tok0 h0
  obtain ⟨x1, rfl, h1⟩ := at_nodes h1
  obtain ⟨x2, rfl, h2⟩ := at_exc h2
  obtain ⟨x3, rfl, h3⟩ := at_tok0 h3
  obtain ⟨x4, rfl, h4⟩ := at_onode h4
  exact outR_gives (rescueClause_at h0 h1 h2 h3 h4) fun _ h => h
theorem sound_rescueModOpt : Sound .rescueModOpt := by
  intro ext indent xs a b h
  obtain ⟨y0, xs0, m0, rfl, h0, h⟩ := chain_cons h
  obtain ⟨y1, xs1, m1, rfl, h1, h⟩ := chain_cons h
  obtain ⟨y2, m2, rfl, h2, h⟩ := chain_one h
  replace h2 := h2.mono (Nat.le_refl _) h
  obtain ⟨x0, rfl, h0⟩ := at_node h0
  obtain ⟨x1, rfl, h1⟩ := at_tok0 h1
  obtain ⟨x2, rfl, h2⟩ := at_node h2
  exact outR_gives (rescueMod_at h0 h1 h2) fun _ h => h
theorem sound_rescueMod : Sound .rescueMod := by
  intro ext indent xs a b h
  obtain ⟨y0, xs0, m0, rfl, h0, h⟩ := chain_cons h
  obtain ⟨y1, xs1, m1, rfl, h1, h⟩ := chain_cons h
  obtain ⟨y2, m2, rfl, h2, h⟩ := chain_one h
  replace h2 := h2.mono (Nat.le_refl _) h
  obtain ⟨x0, rfl, h0⟩ := at_node h0
  obtain ⟨x1, rfl, h1⟩ := at_tok0 h1
  obtain ⟨x2, rfl, h2⟩ := at_node h2
  exact outR_gives (rescueMod!_at h0 h1 h2) fun _ h => h
theorem sound_compstmt : Sound .compstmt := by
  intro ext indent xs a b h
  obtain ⟨y0, m0, rfl, h0, h⟩ := chain_one h
  replace h0 := h0.mono (Nat.le_refl _) h
  obtain ⟨x0, rfl, h0⟩ := at_nodes h0
  exact outR_gives (compstmt_at h0) fun _ h => h
theorem sound_begin : Sound .begin := by
  intro ext indent xs a b h
  obtain ⟨y0, xs0, m0, rfl, h0, h⟩ := chain_cons h
  obtain ⟨y1, xs1, m1, rfl, h1, h⟩ := chain_cons h
  obtain ⟨y2, m2, rfl, h2, h⟩ := chain_one h
  replace h2 := h2.mono (Nat.le_refl _) h
  obtain ⟨x0, rfl, h0⟩ := at_tok0 h0
  obtain ⟨x1, rfl, h1⟩ := at_onode h1
  obtain ⟨x2, rfl, h2⟩ := at_tok0 h2
  exact outp_gives (P := fun r => Ty.At (.node) r a b) (c := .node) (begin_at h0 h1 h2)
theorem sound_beginKeyword : Sound .beginKeyword := by
  intro ext indent xs a b h
  obtain ⟨y0, xs0, m0, rfl, h0, h⟩ := chain_cons h
  obtain ⟨y1, xs1, m1, rfl, h1, h⟩ := chain_cons h
  obtain ⟨y2, m2, rfl, h2, h⟩ := chain_one h
  replace h2 := h2.mono (Nat.le_refl _) h
  obtain ⟨x0, rfl, h0⟩ := at_tok0 h0
  obtain ⟨x1, rfl, h1⟩ := at_onode h1
  obtain ⟨x2, rfl, h2⟩ := at_tok0 h2
  exact outp_gives (P := fun r => Ty.At (.node) r a b) (c := .node) (beginKeyword_at h0 h1 h2)
theorem sound_bodystmtElse : Sound .bodystmtElse := by
  intro ext indent xs a b h
  obtain ⟨y0, xs0, m0, rfl, h0, h⟩ := chain_cons h
  obtain ⟨y1, xs1, m1, rfl, h1, h⟩ := chain_cons h
  obtain ⟨y2, xs2, m2, rfl, h2, h⟩ := chain_cons h
  obtain ⟨y3, xs3, m3, rfl, h3, h⟩ := chain_cons h
  obtain ⟨y4, xs4, m4, rfl, h4, h⟩ := chain_cons h
  obtain ⟨y5, m5, rfl, h5, h⟩ := chain_one h
  replace h5 := h5.mono (Nat.le_refl _) h
  obtain ⟨x0, rfl, h0⟩ := at_onode h0
  obtain ⟨x1, rfl, h1⟩ := at_nodes h1
  obtain ⟨x2, rfl, h2⟩ := at_tok0 h2
  obtain ⟨x3, rfl, h3⟩ := at_onode h3
  obtain ⟨x4, rfl, h4⟩ := at_otok h4
  obtain ⟨x5, rfl, h5⟩ := at_onode h5
  exact outB_gives (bodystmtElse_at h0 h1 h2 h3 h4 h5) fun _ h => h
theorem sound_bodystmt : Sound .bodystmt := by
  intro ext indent xs a b h
  obtain ⟨y0, xs0, m0, rfl, h0, h⟩ := chain_cons h
  obtain ⟨y1, xs1, m1, rfl, h1, h⟩ := chain_cons h
  obtain ⟨y2, xs2, m2, rfl, h2, h⟩ := chain_cons h
  obtain ⟨y3, m3, rfl, h3, h⟩ := chain_one h
  replace h3 := h3.mono (Nat.le_refl _) h
  obtain ⟨x0, rfl, h0⟩ := at_onode h0
  obtain ⟨x1, rfl, h1⟩ := at_nodes h1
  obtain ⟨x2, rfl, h2⟩ := at_otok h2
  obtain ⟨x3, rfl, h3⟩ := at_onode h3
  exact outR_gives (bodystmt_at h0 h1 h2 h3) fun _ h => h
theorem sound_accessible : Sound .accessible := by
  intro ext indent xs a b h
  obtain ⟨y0, m0, rfl, h0, h⟩ := chain_one h
  replace h0 := h0.mono (Nat.le_refl _) h
  obtain ⟨x0, rfl, h0⟩ := at_node h0
  exact outM_gives (accessible_at h0) fun _ h => h
theorem sound_assignable : Sound .assignable := by
  intro ext indent xs a b h
  obtain ⟨y0, m0, rfl, h0, h⟩ := chain_one h
  replace h0 := h0.mono (Nat.le_refl _) h
  obtain ⟨x0, rfl, h0⟩ := at_node h0
  exact outB_gives (assignable_at h0) fun _ h => h
theorem sound_constOpAssignable : Sound .constOpAssignable := by
  intro ext indent xs a b h
  obtain ⟨y0, m0, rfl, h0, h⟩ := chain_one h
  replace h0 := h0.mono (Nat.le_refl _) h
  obtain ⟨x0, rfl, h0⟩ := at_node h0
  exact outR_gives (constOpAssignable_at h0) fun _ h => h
theorem sound_assign : Sound .assign := by
  intro ext indent xs a b h
  obtain ⟨y0, xs0, m0, rfl, h0, h⟩ := chain_cons h
  obtain ⟨y1, xs1, m1, rfl, h1, h⟩ := chain_cons h
  obtain ⟨y2, m2, rfl, h2, h⟩ := chain_one h
  replace h2 := h2.mono (Nat.le_refl _) h
  obtain ⟨x0, rfl, h0⟩ := at_node h0
  obtain ⟨x1, rfl, h1⟩ := at_tok0 h1
  obtain ⟨x2, rfl, h2⟩ := at_node h2
  exact outR_gives (assign_at h0 h1 h2) fun _ h => h
theorem sound_opAssign : Sound .opAssign := by
  intro ext indent xs a b h
  obtain ⟨y0, xs0, m0, rfl, h0, h⟩ := chain_cons h
  obtain ⟨y1, xs1, m1, rfl, h1, h⟩ := chain_cons h
  obtain ⟨y2, m2, rfl, h2, h⟩ := chain_one h
  replace h2 := h2.mono (Nat.le_refl _) h
  obtain ⟨x0, rfl, h0⟩ := at_node h0
  obtain ⟨x1, rfl, h1⟩ := at_tok0 h1
  obtain ⟨x2, rfl, h2⟩ := at_node h2
  exact outB_gives (opAssign_at h0 h1 h2) fun _ h => h
theorem sound_defEndless : Sound .defEndless := by
  intro ext indent xs a b h
  obtain ⟨y0, xs0, m0, rfl, h0, h⟩ := chain_cons h
  obtain ⟨y1, xs1, m1, rfl, h1, h⟩ := chain_cons h
  obtain ⟨y2, xs2, m2, rfl, h2, h⟩ := chain_cons h
  obtain ⟨y3, xs3, m3, rfl, h3, h⟩ := chain_cons h
  obtain ⟨y4, m4, rfl, h4, h⟩ := chain_one h
  replace h4 := h4.mono (Nat.le_refl _) h
  obtain ⟨x0, rfl, h0⟩ := at_tok0 h0
  obtain ⟨x1, rfl, h1⟩ := at_tok0 h1
  obtain ⟨x2, rfl, h2⟩ := at_onode h2
  obtain ⟨x3, rfl, h3⟩ := at_tok0 h3
  obtain ⟨x4, rfl, h4⟩ := at_onode h4
  exact outB_gives (defEndlessMethod_at h0 h1 h2 h3 h4) fun _ h => h
theorem sound_defEndlessSingleton : Sound .defEndlessSingleton := by
  intro ext indent xs a b h
  obtain ⟨y0, xs0, m0, rfl, h0, h⟩ := chain_cons h
  obtain ⟨y1, xs1, m1, rfl, h1, h⟩ := chain_cons h
  obtain ⟨y2, xs2, m2, rfl, h2, h⟩ := chain_cons h
  obtain ⟨y3, xs3, m3, rfl, h3, h⟩ := chain_cons h
  obtain ⟨y4, xs4, m4, rfl, h4, h⟩ := chain_cons h
  obtain ⟨y5, xs5, m5, rfl, h5, h⟩ := chain_cons h
  obtain ⟨y6, m6, rfl, h6, h⟩ := chain_one h
  replace h6 := h6.mono (Nat.le_refl _) h
  obtain ⟨x0, rfl, h0⟩ := at_tok0 h0
  obtain ⟨x1, rfl, h1⟩ := at_node h1
  obtain ⟨x2, rfl, h2⟩ := at_tok0 h2
  obtain ⟨x3, rfl, h3⟩ := at_tok0 h3
  obtain ⟨x4, rfl, h4⟩ := at_onode h4
  obtain ⟨x5, rfl, h5⟩ := at_tok0 h5
  obtain ⟨x6, rfl, h6⟩ := at_onode h6
  exact outB_gives (defEndlessSingleton_at h0 h1 h2 h3 h4 h5 h6) fun _ h => h
theorem sound_undefMethod : Sound .undefMethod := by
  intro ext indent xs a b h
  obtain ⟨y0, xs0, m0, rfl, h0, h⟩ := chain_cons h
  obtain ⟨y1, m1, rfl, h1, h⟩ := chain_one h
  replace h1 := h1.mono (Nat.le_refl _) h
  obtain ⟨x0, rfl, h0⟩ := at_tok0 h0
  obtain ⟨x1, rfl, h1⟩ := at_nodes h1
  exact outp_gives (P := fun r => Ty.At (.node) r a b) (c := .node) (undefMethod_at h0 h1)
theorem sound_kwarg : Sound .kwarg := by
  intro ext indent xs a b h
  obtain ⟨y0, m0, rfl, h0, h⟩ := chain_one h
  replace h0 := h0.mono (Nat.le_refl _) h
  obtain ⟨x0, rfl, h0⟩ := at_tok1 h0
  exact outB_gives (kwarg_at h0.1 h0.2) fun _ h => h
theorem sound_kwoptarg : Sound .kwoptarg := by
  intro ext indent xs a b h
  obtain ⟨y0, xs0, m0, rfl, h0, h⟩ := chain_cons h
  obtain ⟨y1, m1, rfl, h1, h⟩ := chain_one h
  replace h1 := h1.mono (Nat.le_refl _) h
  obtain ⟨x0, rfl, h0⟩ := at_tok1 h0
  obtain ⟨x1, rfl, h1⟩ := at_node h1
  exact outB_gives (kwoptarg_at h0.1 h1 h0.2) fun _ h => h
theorem sound_procargs : Sound .procargs := by
  intro ext indent xs a b h
  obtain ⟨y0, xs0, m0, rfl, h0, h⟩ := chain_cons h
  obtain ⟨y1, m1, rfl, h1, h⟩ := chain_one h
  replace h1 := h1.mono (Nat.le_refl _) h
  obtain ⟨x0, rfl, h0⟩ := at_nodes h0
  obtain ⟨x1, rfl, h1⟩ := at_nodes h1
  exact outR_gives (procargs_at h0 h1) fun _ h => h
theorem sound_callDot : Sound .callDot := by
  intro ext indent xs a b h
  obtain ⟨y0, xs0, m0, rfl, h0, h⟩ := chain_cons h
  obtain ⟨y1, xs1, m1, rfl, h1, h⟩ := chain_cons h
  obtain ⟨y2, xs2, m2, rfl, h2, h⟩ := chain_cons h
  obtain ⟨y3, m3, rfl, h3, h⟩ := chain_one h
  replace h3 := h3.mono (Nat.le_refl _) h
  obtain ⟨x0, rfl, h0⟩ := at_node h0
  obtain ⟨x1, rfl, h1⟩ := at_tok0 h1
  obtain ⟨x2, rfl, h2⟩ := at_tok0 h2
  obtain ⟨x3, rfl, h3⟩ := at_nodes h3
  exact outR_gives (callDot_at h0 h1 h2 h3) fun _ h => h
theorem sound_callFn : Sound .callFn := by
  intro ext indent xs a b h
  obtain ⟨y0, xs0, m0, rfl, h0, h⟩ := chain_cons h
  obtain ⟨y1, m1, rfl, h1, h⟩ := chain_one h
  replace h1 := h1.mono (Nat.le_refl _) h
  obtain ⟨x0, rfl, h0⟩ := at_tok0 h0
  obtain ⟨x1, rfl, h1⟩ := at_nodes h1
  exact outR_gives (callFn_at h0 h1) fun _ h => h
theorem sound_callFnParen : Sound .callFnParen := by
  intro ext indent xs a b h
  obtain ⟨y0, xs0, m0, rfl, h0, h⟩ := chain_cons h
  obtain ⟨y1, xs1, m1, rfl, h1, h⟩ := chain_cons h
  obtain ⟨y2, xs2, m2, rfl, h2, h⟩ := chain_cons h
  obtain ⟨y3, m3, rfl, h3, h⟩ := chain_one h
  replace h3 := h3.mono (Nat.le_refl _) h
  obtain ⟨x0, rfl, h0⟩ := at_tok0 h0
  obtain ⟨x1, rfl, h1⟩ := at_tok0 h1
  obtain ⟨x2, rfl, h2⟩ := at_nodes h2
  obtain ⟨x3, rfl, h3⟩ := at_tok0 h3
  exact outR_gives (callFnParen_at h0 h1 h2 h3) fun _ h => h
theorem sound_callDotParen : Sound .callDotParen := by
  intro ext indent xs a b h
  obtain ⟨y0, xs0, m0, rfl, h0, h⟩ := chain_cons h
  obtain ⟨y1, xs1, m1, rfl, h1, h⟩ := chain_cons h
  obtain ⟨y2, xs2, m2, rfl, h2, h⟩ := chain_cons h
  obtain ⟨y3, xs3, m3, rfl, h3, h⟩ := chain_cons h
  obtain ⟨y4, xs4, m4, rfl, h4, h⟩ := chain_cons h
  obtain ⟨y5, m5, rfl, h5, h⟩ := chain_one h
  replace h5 := h5.mono (Nat.le_refl _) h
  obtain ⟨x0, rfl, h0⟩ := at_node h0
  obtain ⟨x1, rfl, h1⟩ := at_tok0 h1
  obtain ⟨x2, rfl, h2⟩ := at_tok0 h2
  obtain ⟨x3, rfl, h3⟩ := at_tok0 h3
  obtain ⟨x4, rfl, h4⟩ := at_nodes h4
  obtain ⟨x5, rfl, h5⟩ := at_tok0 h5
  exact outR_gives (callDotParen_at h0 h1 h2 h3 h4 h5) fun _ h => h
theorem sound_callDotOpt : Sound .callDotOpt := by
  intro ext indent xs a b h
  obtain ⟨y0, xs0, m0, rfl, h0, h⟩ := chain_cons h
  obtain ⟨y1, xs1, m1, rfl, h1, h⟩ := chain_cons h
  obtain ⟨y2, xs2, m2, rfl, h2, h⟩ := chain_cons h
  obtain ⟨y3, m3, rfl, h3, h⟩ := chain_one h
  replace h3 := h3.mono (Nat.le_refl _) h
  obtain ⟨x0, rfl, h0⟩ := at_node h0
  obtain ⟨x1, rfl, h1⟩ := at_tok0 h1
  obtain ⟨x2, rfl, h2⟩ := at_tok0 h2
  obtain ⟨x3, rfl, h3⟩ := at_parens h3
  exact outR_gives (callDotOpt_at h0 h1 h2 h3) fun _ h => h
theorem sound_callParen : Sound .callParen := by
  intro ext indent xs a b h
  obtain ⟨y0, xs0, m0, rfl, h0, h⟩ := chain_cons h
  obtain ⟨y1, xs1, m1, rfl, h1, h⟩ := chain_cons h
  obtain ⟨y2, xs2, m2, rfl, h2, h⟩ := chain_cons h
  obtain ⟨y3, xs3, m3, rfl, h3, h⟩ := chain_cons h
  obtain ⟨y4, m4, rfl, h4, h⟩ := chain_one h
  replace h4 := h4.mono (Nat.le_refl _) h
  obtain ⟨x0, rfl, h0⟩ := at_node h0
  obtain ⟨x1, rfl, h1⟩ := at_tok0 h1
  obtain ⟨x2, rfl, h2⟩ := at_tok0 h2
  obtain ⟨x3, rfl, h3⟩ := at_nodes h3
  obtain ⟨x4, rfl, h4⟩ := at_tok0 h4
  exact outR_gives (callParen_at h0 h1 h2 h3 h4) fun _ h => h
theorem sound_block : Sound .block := by
  intro ext indent xs a b h
  obtain ⟨y0, xs0, m0, rfl, h0, h⟩ := chain_cons h
  obtain ⟨y1, xs1, m1, rfl, h1, h⟩ := chain_cons h
  obtain ⟨y2, xs2, m2, rfl, h2, h⟩ := chain_cons h
  obtain ⟨y3, xs3, m3, rfl, h3, h⟩ := chain_cons h
  obtain ⟨y4, m4, rfl, h4, h⟩ := chain_one h
  replace h4 := h4.mono (Nat.le_refl _) h
  obtain ⟨x0, rfl, h0⟩ := at_node h0
  obtain ⟨x1, rfl, h1⟩ := at_tok0 h1
  obtain ⟨x2, rfl, h2⟩ := at_args h2
  obtain ⟨x3, rfl, h3⟩ := at_onode h3
  obtain ⟨x4, rfl, h4⟩ := at_tok0 h4
  exact outB_gives (block_at h0 h1 h2 h3 h4) fun _ h => h
theorem sound_lambda : Sound .lambda := by
  intro ext indent xs a b h
  obtain ⟨y0, xs0, m0, rfl, h0, h⟩ := chain_cons h
  obtain ⟨y1, xs1, m1, rfl, h1, h⟩ := chain_cons h
  obtain ⟨y2, xs2, m2, rfl, h2, h⟩ := chain_cons h
  obtain ⟨y3, xs3, m3, rfl, h3, h⟩ := chain_cons h
  obtain ⟨y4, m4, rfl, h4, h⟩ := chain_one h
  replace h4 := h4.mono (Nat.le_refl _) h
  obtain ⟨x0, rfl, h0⟩ := at_tok0 h0
  obtain ⟨x1, rfl, h1⟩ := at_args h1
  obtain ⟨x2, rfl, h2⟩ := at_tok0 h2
  obtain ⟨x3, rfl, h3⟩ := at_onode h3
  obtain ⟨x4, rfl, h4⟩ := at_tok0 h4
  exact outB_gives (lambda_at h0 h1 h2 h3 h4) fun _ h => h
theorem sound_attrAsgn : Sound .attrAsgn := by
  intro ext indent xs a b h
  obtain ⟨y0, xs0, m0, rfl, h0, h⟩ := chain_cons h
  obtain ⟨y1, xs1, m1, rfl, h1, h⟩ := chain_cons h
  obtain ⟨y2, m2, rfl, h2, h⟩ := chain_one h
  replace h2 := h2.mono (Nat.le_refl _) h
  obtain ⟨x0, rfl, h0⟩ := at_node h0
  obtain ⟨x1, rfl, h1⟩ := at_tok0 h1
  obtain ⟨x2, rfl, h2⟩ := at_tok0 h2
  exact outR_gives (attrAsgn_at h0 h1 h2) fun _ h => h
theorem sound_attrAsgnMasgn : Sound .attrAsgnMasgn := by
  intro ext indent xs a b h
  obtain ⟨y0, xs0, m0, rfl, h0, h⟩ := chain_cons h
  obtain ⟨y1, xs1, m1, rfl, h1, h⟩ := chain_cons h
  obtain ⟨y2, m2, rfl, h2, h⟩ := chain_one h
  replace h2 := h2.mono (Nat.le_refl _) h
  obtain ⟨x0, rfl, h0⟩ := at_node h0
  obtain ⟨x1, rfl, h1⟩ := at_tok0 h1
  obtain ⟨x2, rfl, h2⟩ := at_tok0 h2
  exact outB_gives (attrAsgnMasgn_at h0 h1 h2) fun _ h => h
theorem sound_index : Sound .index := by
  intro ext indent xs a b h
  obtain ⟨y0, xs0, m0, rfl, h0, h⟩ := chain_cons h
  obtain ⟨y1, xs1, m1, rfl, h1, h⟩ := chain_cons h
  obtain ⟨y2, xs2, m2, rfl, h2, h⟩ := chain_cons h
  obtain ⟨y3, m3, rfl, h3, h⟩ := chain_one h
  replace h3 := h3.mono (Nat.le_refl _) h
  obtain ⟨x0, rfl, h0⟩ := at_node h0
  obtain ⟨x1, rfl, h1⟩ := at_tok0 h1
  obtain ⟨x2, rfl, h2⟩ := at_nodes h2
  obtain ⟨x3, rfl, h3⟩ := at_tok0 h3
  exact outR_gives (index_at h0 h1 h2 h3) fun _ h => h
theorem sound_keyword : Sound (.keyword p) := by
  intro ext indent xs a b h
  obtain ⟨y0, xs0, m0, rfl, h0, h⟩ := chain_cons h
  obtain ⟨y1, m1, rfl, h1, h⟩ := chain_one h
  replace h1 := h1.mono (Nat.le_refl _) h
  obtain ⟨x0, rfl, h0⟩ := at_tok0 h0
  obtain ⟨x1, rfl, h1⟩ := at_nodes h1
  exact outB_gives (keywordCmd_at h0 h1) fun _ h => h
theorem sound_keywordParen : Sound (.keywordParen p) := by
  intro ext indent xs a b h
  obtain ⟨y0, xs0, m0, rfl, h0, h⟩ := chain_cons h
  obtain ⟨y1, xs1, m1, rfl, h1, h⟩ := chain_cons h
  obtain ⟨y2, xs2, m2, rfl, h2, h⟩ := chain_cons h
  obtain ⟨y3, m3, rfl, h3, h⟩ := chain_one h
  replace h3 := h3.mono (Nat.le_refl _) h
  obtain ⟨x0, rfl, h0⟩ := at_tok0 h0
  obtain ⟨x1, rfl, h1⟩ := at_tok0 h1
  obtain ⟨x2, rfl, h2⟩ := at_nodes h2
  obtain ⟨x3, rfl, h3⟩ := at_tok0 h3
  exact outB_gives (keywordCmd_paren_at h0 h1 h2 h3) fun _ h => h
theorem sound_mlhsInner : Sound .mlhsInner := by
  intro ext indent xs a b h
  obtain ⟨y0, xs0, m0, rfl, h0, h⟩ := chain_cons h
  obtain ⟨y1, xs1, m1, rfl, h1, h⟩ := chain_cons h
  obtain ⟨y2, m2, rfl, h2, h⟩ := chain_one h
  replace h2 := h2.mono (Nat.le_refl _) h
  obtain ⟨x0, rfl, h0⟩ := at_tok0 h0
  obtain ⟨x1, rfl, h1⟩ := at_node h1
  obtain ⟨x2, rfl, h2⟩ := at_tok0 h2
  exact outR_gives (mlhsInner_at h0 h1 h2) fun _ h => h
theorem sound_strings : Sound .strings := by
  intro ext indent xs a b h
  obtain ⟨y0, m0, rfl, h0, h⟩ := chain_one h
  replace h0 := h0.mono (Nat.le_refl _) h
  obtain ⟨x0, rfl, h0⟩ := at_nodes h0
  exact outR_gives (stringCompose_at (Nat.le_refl _) h0 (Nat.le_refl _) rfl) fun _ h => h
theorem sound_string1 : Sound .string1 := by
  intro ext indent xs a b h
  obtain ⟨y0, xs0, m0, rfl, h0, h⟩ := chain_cons h
  obtain ⟨y1, xs1, m1, rfl, h1, h⟩ := chain_cons h
  obtain ⟨y2, m2, rfl, h2, h⟩ := chain_one h
  replace h2 := h2.mono (Nat.le_refl _) h
  obtain ⟨x0, rfl, h0⟩ := at_tok0 h0
  obtain ⟨x1, rfl, h1⟩ := at_nodes h1
  obtain ⟨x2, rfl, h2⟩ := at_tok0 h2
  exact outR_gives (string1_at h0 h1 h2) fun _ h => h
theorem sound_xstring : Sound .xstring := by
  intro ext indent xs a b h
  obtain ⟨y0, xs0, m0, rfl, h0, h⟩ := chain_cons h
  obtain ⟨y1, xs1, m1, rfl, h1, h⟩ := chain_cons h
  obtain ⟨y2, m2, rfl, h2, h⟩ := chain_one h
  replace h2 := h2.mono (Nat.le_refl _) h
  obtain ⟨x0, rfl, h0⟩ := at_tok0 h0
  obtain ⟨x1, rfl, h1⟩ := at_nodes h1
  obtain ⟨x2, rfl, h2⟩ := at_tok0 h2
  exact outR_gives (heredocDedent_at (xstringCompose_at h0 h1 h2)) fun _ h => h
theorem sound_regexp : Sound .regexp := by
  intro ext indent xs a b h
  obtain ⟨y0, xs0, m0, rfl, h0, h⟩ := chain_cons h
  obtain ⟨y1, xs1, m1, rfl, h1, h⟩ := chain_cons h
  obtain ⟨y2, m2, rfl, h2, h⟩ := chain_one h
  replace h2 := h2.mono (Nat.le_refl _) h
  obtain ⟨x0, rfl, h0⟩ := at_tok0 h0
  obtain ⟨x1, rfl, h1⟩ := at_nodes h1
  obtain ⟨x2, rfl, h2⟩ := at_tok1 h2
  exact outM_gives (regexp_at h0 h1 h2.1 h2.2) fun _ h => h
theorem sound_word : Sound .word := by
  intro ext indent xs a b h
  obtain ⟨y0, m0, rfl, h0, h⟩ := chain_one h
  replace h0 := h0.mono (Nat.le_refl _) h
  obtain ⟨x0, rfl, h0⟩ := at_nodes h0
  exact outR_gives (word_at h0) fun _ h => h
theorem sound_symbolsCompose : Sound .symbolsCompose := by
  intro ext indent xs a b h
  obtain ⟨y0, xs0, m0, rfl, h0, h⟩ := chain_cons h
  obtain ⟨y1, xs1, m1, rfl, h1, h⟩ := chain_cons h
  obtain ⟨y2, m2, rfl, h2, h⟩ := chain_one h
  replace h2 := h2.mono (Nat.le_refl _) h
  obtain ⟨x0, rfl, h0⟩ := at_tok0 h0
  obtain ⟨x1, rfl, h1⟩ := at_nodes h1
  obtain ⟨x2, rfl, h2⟩ := at_tok0 h2
  exact outM_gives (symbolsCompose_at h0 h1 h2) fun _ h => h
theorem sound_symbolCompose : Sound .symbolCompose := by
  intro ext indent xs a b h
  obtain ⟨y0, xs0, m0, rfl, h0, h⟩ := chain_cons h
  obtain ⟨y1, xs1, m1, rfl, h1, h⟩ := chain_cons h
  obtain ⟨y2, m2, rfl, h2, h⟩ := chain_one h
  replace h2 := h2.mono (Nat.le_refl _) h
  obtain ⟨x0, rfl, h0⟩ := at_tok0 h0
  obtain ⟨x1, rfl, h1⟩ := at_nodes h1
  obtain ⟨x2, rfl, h2⟩ := at_tok0 h2
  exact outM_gives (symbolCompose_at h0 h1 h2) fun _ h => h
theorem sound_pairKeyword : Sound .pairKeyword := by
  intro ext indent xs a b h
  obtain ⟨y0, xs0, m0, rfl, h0, h⟩ := chain_cons h
  obtain ⟨y1, m1, rfl, h1, h⟩ := chain_one h
  replace h1 := h1.mono (Nat.le_refl _) h
  obtain ⟨x0, rfl, h0⟩ := at_tok1 h0
  obtain ⟨x1, rfl, h1⟩ := at_node h1
  exact outM_gives (pairKeyword_at h0.1 h1 h0.2) fun _ h => h
theorem sound_pairLabel : Sound .pairLabel := by
  intro ext indent xs a b h
  obtain ⟨y0, m0, rfl, h0, h⟩ := chain_one h
  replace h0 := h0.mono (Nat.le_refl _) h
  obtain ⟨x0, rfl, h0⟩ := at_tok1 h0
  exact outM_gives (pairLabel_at h0.1 h0.2) fun _ h => h
theorem sound_pairQuoted : Sound .pairQuoted := by
  intro ext indent xs a b h
  obtain ⟨y0, xs0, m0, rfl, h0, h⟩ := chain_cons h
  obtain ⟨y1, xs1, m1, rfl, h1, h⟩ := chain_cons h
  obtain ⟨y2, xs2, m2, rfl, h2, h⟩ := chain_cons h
  obtain ⟨y3, m3, rfl, h3, h⟩ := chain_one h
  replace h3 := h3.mono (Nat.le_refl _) h
  obtain ⟨x0, rfl, h0⟩ := at_tok0 h0
  obtain ⟨x1, rfl, h1⟩ := at_nodes h1
  obtain ⟨x2, rfl, h2⟩ := at_tok2 h2
  obtain ⟨x3, rfl, h3⟩ := at_node h3
  exact outM_gives (pairQuoted_at h0 h1 h2.1 h3 h2.2) fun _ h => h
theorem sound_matchRest : Sound .matchRest := by
  intro ext indent xs a b h
  obtain ⟨y0, xs0, m0, rfl, h0, h⟩ := chain_cons h
  obtain ⟨y1, m1, rfl, h1, h⟩ := chain_one h
  replace h1 := h1.mono (Nat.le_refl _) h
  obtain ⟨x0, rfl, h0⟩ := at_tok0 h0
  obtain ⟨x1, rfl, h1⟩ := at_otok h1
  exact outB_gives (matchRest_at h0 h1) fun _ h => h
theorem sound_matchPair : Sound .matchPair := by
  intro ext indent xs a b h
  obtain ⟨y0, xs0, m0, rfl, h0, h⟩ := chain_cons h
  obtain ⟨y1, m1, rfl, h1, h⟩ := chain_one h
  replace h1 := h1.mono (Nat.le_refl _) h
  obtain ⟨x0, rfl, h0⟩ := at_label h0
  obtain ⟨x1, rfl, h1⟩ := at_node h1
  exact outB_gives (matchPair_at h0 h1) fun _ h => h
theorem sound_matchLabel : Sound .matchLabel := by
  intro ext indent xs a b h
  obtain ⟨y0, m0, rfl, h0, h⟩ := chain_one h
  replace h0 := h0.mono (Nat.le_refl _) h
  obtain ⟨x0, rfl, h0⟩ := at_label h0
  exact outB_gives (matchLabel_at h0) fun _ h => h
theorem sound_constPatternEmpty : Sound .constPatternEmpty := by
  intro ext indent xs a b h
  obtain ⟨y0, xs0, m0, rfl, h0, h⟩ := chain_cons h
  obtain ⟨y1, xs1, m1, rfl, h1, h⟩ := chain_cons h
  obtain ⟨y2, m2, rfl, h2, h⟩ := chain_one h
  replace h2 := h2.mono (Nat.le_refl _) h
  obtain ⟨x0, rfl, h0⟩ := at_node h0
  obtain ⟨x1, rfl, h1⟩ := at_tok0 h1
  obtain ⟨x2, rfl, h2⟩ := at_tok0 h2
  exact outR_gives (constPatternEmpty_at h0 h1 h2) fun _ h => h

theorem sound_all (f : BFn) : Sound f := by
  cases f with
  | someT => exact sound_someT
  | someN => exact sound_someN
  | noneT => exact sound_noneT
  | noneN => exact sound_noneN
  | nilL => exact sound_nilL
  | single => exact sound_single
  | append => exact sound_append
  | checked => exact sound_checked
  | endlessName => exact sound_endlessName
  | kwargName => exact sound_kwargName
  | singletonExpr => exact sound_singletonExpr
  | argsType => exact sound_argsType
  | noParens => exact sound_noParens
  | someParens => exact sound_someParens
  | noExc => exact sound_noExc
  | someExc => exact sound_someExc
  | elseTail => exact sound_elseTail
  | elsifTail => exact sound_elsifTail
  | plainLabel => exact sound_plainLabel
  | quotedLabel => exact sound_quotedLabel
  | nil => exact sound_nil
  | true_ => exact sound_true_
  | false_ => exact sound_false_
  | line => exact sound_line
  | file => exact sound_file
  | self_ => exact sound_self_
  | encoding => exact sound_encoding
  | forwardArg => exact sound_forwardArg
  | forwardedArgs => exact sound_forwardedArgs
  | stringInternal => exact sound_stringInternal
  | integer => exact sound_integer
  | float => exact sound_float
  | rational => exact sound_rational
  | complex => exact sound_complex
  | lvar => exact sound_lvar
  | ivar => exact sound_ivar
  | gvar => exact sound_gvar
  | cvar => exact sound_cvar
  | backRef => exact sound_backRef
  | const_ => exact sound_const_
  | constFetch => exact sound_constFetch
  | constGlobal => exact sound_constGlobal
  | arg => exact sound_arg
  | shadowarg => exact sound_shadowarg
  | optarg => exact sound_optarg
  | kwnilarg => exact sound_kwnilarg
  | «alias» => exact sound_alias
  | pair => exact sound_pair
  | kwsplat => exact sound_kwsplat
  | multiAssign => exact sound_multiAssign
  | defClass => exact sound_defClass
  | defSclass => exact sound_defSclass
  | defModule => exact sound_defModule
  | defMethod => exact sound_defMethod
  | defSingleton => exact sound_defSingleton
  | indexAsgn => exact sound_indexAsgn
  | ternary => exact sound_ternary
  | case => exact sound_case
  | for_ => exact sound_for_
  | preexe => exact sound_preexe
  | postexe => exact sound_postexe
  | matchPattern => exact sound_matchPattern
  | matchPatternP => exact sound_matchPatternP
  | ifGuard => exact sound_ifGuard
  | unlessGuard => exact sound_unlessGuard
  | constPattern => exact sound_constPattern
  | pin => exact sound_pin
  | matchAlt => exact sound_matchAlt
  | matchAs => exact sound_matchAs
  | matchNilPattern => exact sound_matchNilPattern
  | wordsCompose => exact sound_wordsCompose
  | character => exact sound_character
  | splat => exact sound_splat
  | blockPass => exact sound_blockPass
  | rangeInclusive => exact sound_rangeInclusive
  | rangeExclusive => exact sound_rangeExclusive
  | restarg => exact sound_restarg
  | kwrestarg => exact sound_kwrestarg
  | blockarg => exact sound_blockarg
  | unaryNum => exact sound_unaryNum
  | symbol => exact sound_symbol
  | symbolInternal => exact sound_symbolInternal
  | nthRef => exact sound_nthRef
  | matchVar => exact sound_matchVar
  | array => exact sound_array
  | multiLhs => exact sound_multiLhs
  | hashPattern => exact sound_hashPattern
  | findPattern => exact sound_findPattern
  | associate => exact sound_associate
  | args => exact sound_args
  | arrayPattern => exact sound_arrayPattern
  | logical p => exact sound_logical
  | binaryOp => exact sound_binaryOp
  | unaryOp => exact sound_unaryOp
  | matchOp => exact sound_matchOp
  | notOp => exact sound_notOp
  | notParen => exact sound_notParen
  | notEmpty => exact sound_notEmpty
  | ifMod => exact sound_ifMod
  | unlessMod => exact sound_unlessMod
  | loopMod p => exact sound_loopMod
  | loop_ p => exact sound_loop_
  | condition => exact sound_condition
  | unless_ => exact sound_unless_
  | when => exact sound_when
  | inPattern => exact sound_inPattern
  | caseMatch => exact sound_caseMatch
  | rescueClause => exact sound_rescueClause
  | rescueModOpt => exact sound_rescueModOpt
  | rescueMod => exact sound_rescueMod
  | compstmt => exact sound_compstmt
  | begin => exact sound_begin
  | beginKeyword => exact sound_beginKeyword
  | bodystmtElse => exact sound_bodystmtElse
  | bodystmt => exact sound_bodystmt
  | accessible => exact sound_accessible
  | assignable => exact sound_assignable
  | constOpAssignable => exact sound_constOpAssignable
  | assign => exact sound_assign
  | opAssign => exact sound_opAssign
  | defEndless => exact sound_defEndless
  | defEndlessSingleton => exact sound_defEndlessSingleton
  | undefMethod => exact sound_undefMethod
  | kwarg => exact sound_kwarg
  | kwoptarg => exact sound_kwoptarg
  | procargs => exact sound_procargs
  | callDot => exact sound_callDot
  | callFn => exact sound_callFn
  | callFnParen => exact sound_callFnParen
  | callDotParen => exact sound_callDotParen
  | callDotOpt => exact sound_callDotOpt
  | callParen => exact sound_callParen
  | block => exact sound_block
  | lambda => exact sound_lambda
  | attrAsgn => exact sound_attrAsgn
  | attrAsgnMasgn => exact sound_attrAsgnMasgn
  | index => exact sound_index
  | keyword p => exact sound_keyword
  | keywordParen p => exact sound_keywordParen
  | mlhsInner => exact sound_mlhsInner
  | strings => exact sound_strings
  | string1 => exact sound_string1
  | xstring => exact sound_xstring
  | regexp => exact sound_regexp
  | word => exact sound_word
  | symbolsCompose => exact sound_symbolsCompose
  | symbolCompose => exact sound_symbolCompose
  | pairKeyword => exact sound_pairKeyword
  | pairLabel => exact sound_pairLabel
  | pairQuoted => exact sound_pairQuoted
  | matchRest => exact sound_matchRest
  | matchPair => exact sound_matchPair
  | matchLabel => exact sound_matchLabel
  | constPatternEmpty => exact sound_constPatternEmpty

end Verif.Grammar
