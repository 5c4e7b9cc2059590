from bfn import B
from gen_values import CT,TY,fname
o=['''import Verif.Model.Grammar.Values
import Verif.Lemmas.PlaceBuild7
/-!
Types of the components of semantic values, what it means for a component to be placed between two positions, and that every
function called by an action keeps to its type and place.
-/
namespace Verif.Grammar
open Builder

/-- Types of components. -/
inductive Ty where
  /-- a token of at least `k` bytes -/
  | tok (k : Nat)
  | otok | node | onode | nodes | args | label | tail | parens | exc
  /-- no value at all -/
  | never
deriving DecidableEq, Repr

/-- The arguments of a call in parentheses, if there are any. -/
def ParensAt : Option Token × List Node × Option Token → Nat → Nat → Prop
  | (none, ns, none), a, b => ns = [] ∧ a ≤ b
  | (some t, ns, some u), a, b => ∃ p q, t.At a p ∧ Nodes.At ns p q ∧ u.At q b
  | _, _, _ => False

/-- `=> variable`, if there. -/
def ExcAt : Option Token × Option Node → Nat → Nat → Prop
  | (none, none), a, b => a ≤ b
  | (some t, some n), a, b => ∃ p, t.At a p ∧ n.At p b
  | _, _, _ => False

/-- The component is of the type and lies between the positions. -/
def Ty.At : Ty → Atom → Nat → Nat → Prop
  | .tok 0, .tok t, a, b => t.At a b
  | .tok (k + 1), .tok t, a, b => t.At a b ∧ t.loc.begin + (k + 1) ≤ t.loc.stop
  | .otok, .otok t, a, b => OTok.At t a b
  | .node, .node n, a, b => n.At a b
  | .onode, .onode n, a, b => ONode.At n a b
  | .nodes, .nodes ns, a, b => Nodes.At ns a b
  | .args, .args x, a, b => ArgsAt x a b
  | .label, .label k, a, b => LabelAt k a b
  | .tail, .tail t, a, b => TailAt t.1 t.2 a b
  | .parens, .parens g, a, b => ParensAt g a b
  | .exc, .exc e, a, b => ExcAt e a b
  | _, _, _, _ => False

theorem ParensAt.le {g : Option Token × List Node × Option Token} (h : ParensAt g a b) : a ≤ b := by
  rcases g with ⟨_ | t, ns, _ | u⟩
  · exact h.2
  · exact absurd h id
  · exact absurd h id
  · obtain ⟨p, q, h1, h2, h3⟩ := h
    have := h1.le; have := h2.le; have := h3.le
    omega

theorem ExcAt.le {e : Option Token × Option Node} (h : ExcAt e a b) : a ≤ b := by
  rcases e with ⟨_ | t, _ | u⟩
  · exact h
  · exact absurd h id
  · exact absurd h id
  · obtain ⟨p, h1, h2⟩ := h
    have := h1.le; have := h2.le
    omega

theorem Ty.At.le {ty : Ty} {x : Atom} (h : ty.At x a b) : a ≤ b := by
  unfold Ty.At at h
  split at h
  · exact Token.At.le h
  · exact h.1.le
  · exact OTok.At.le h
  · exact Node.At.le h
  · exact ONode.At.le h
  · exact Nodes.At.le h
  · exact ArgsAt.le h
  · exact LabelAt.le h
  · exact OTok.At.le h.1
  · exact ParensAt.le h
  · exact ExcAt.le h
  · exact absurd h id

/-- Components one after the other. -/
def Chain : List Ty → List Atom → Nat → Nat → Prop
  | [], [], a, b => a ≤ b
  | t :: ts, x :: xs, a, b => ∃ m, t.At x a m ∧ Chain ts xs m b
  | _, _, _, _ => False

theorem Chain.le {ts : List Ty} {xs : List Atom} (h : Chain ts xs a b) : a ≤ b := by
  induction ts generalizing xs a with
  | nil => cases xs with
    | nil => exact h
    | cons x xs => exact absurd h id
  | cons t ts ih => cases xs with
    | nil => exact absurd h id
    | cons x xs =>
      obtain ⟨m, h1, h2⟩ := h
      have := h1.le; have := ih h2
      omega

theorem chain_cons {t : Ty} {ts : List Ty} {xs : List Atom} (h : Chain (t :: ts) xs a b) :
    ∃ y ys m, xs = y :: ys ∧ t.At y a m ∧ Chain ts ys m b := by
  cases xs with
  | nil => exact absurd h id
  | cons y ys => obtain ⟨m, h1, h2⟩ := h; exact ⟨y, ys, m, rfl, h1, h2⟩

theorem chain_one {t : Ty} {xs : List Atom} (h : Chain [t] xs a b) : ∃ y m, xs = [y] ∧ t.At y a m ∧ m ≤ b := by
  obtain ⟨y, ys, m, rfl, h1, h2⟩ := chain_cons h
  cases ys with
  | nil => exact ⟨y, m, rfl, h1, h2⟩
  | cons z zs => exact absurd h2 id

theorem chain_nil {xs : List Atom} (h : Chain [] xs a b) : xs = [] ∧ a ≤ b := by
  cases xs with
  | nil => exact ⟨rfl, h⟩
  | cons z zs => exact absurd h id

theorem at_tok0 {y : Atom} (h : Ty.At (.tok 0) y a b) : ∃ t, y = .tok t ∧ t.At a b := by
  cases y <;> first | exact ⟨_, rfl, h⟩ | exact absurd h id
theorem at_tok1 {y : Atom} (h : Ty.At (.tok 1) y a b) : ∃ t, y = .tok t ∧ (t.At a b ∧ t.loc.begin + 1 ≤ t.loc.stop) := by
  cases y <;> first | exact ⟨_, rfl, h⟩ | exact absurd h id
theorem at_tok2 {y : Atom} (h : Ty.At (.tok 2) y a b) : ∃ t, y = .tok t ∧ (t.At a b ∧ t.loc.begin + 2 ≤ t.loc.stop) := by
  cases y <;> first | exact ⟨_, rfl, h⟩ | exact absurd h id
theorem at_otok {y : Atom} (h : Ty.At .otok y a b) : ∃ t, y = .otok t ∧ OTok.At t a b := by
  cases y <;> first | exact ⟨_, rfl, h⟩ | exact absurd h id
theorem at_node {y : Atom} (h : Ty.At .node y a b) : ∃ t, y = .node t ∧ t.At a b := by
  cases y <;> first | exact ⟨_, rfl, h⟩ | exact absurd h id
theorem at_onode {y : Atom} (h : Ty.At .onode y a b) : ∃ t, y = .onode t ∧ ONode.At t a b := by
  cases y <;> first | exact ⟨_, rfl, h⟩ | exact absurd h id
theorem at_nodes {y : Atom} (h : Ty.At .nodes y a b) : ∃ t, y = .nodes t ∧ Nodes.At t a b := by
  cases y <;> first | exact ⟨_, rfl, h⟩ | exact absurd h id
theorem at_args {y : Atom} (h : Ty.At .args y a b) : ∃ t, y = .args t ∧ ArgsAt t a b := by
  cases y <;> first | exact ⟨_, rfl, h⟩ | exact absurd h id
theorem at_label {y : Atom} (h : Ty.At .label y a b) : ∃ t, y = .label t ∧ LabelAt t a b := by
  cases y <;> first | exact ⟨_, rfl, h⟩ | exact absurd h id
theorem at_tail {y : Atom} (h : Ty.At .tail y a b) : ∃ t, y = .tail t ∧ TailAt t.1 t.2 a b := by
  cases y <;> first | exact ⟨_, rfl, h⟩ | exact absurd h id
theorem at_parens {y : Atom} (h : Ty.At .parens y a b) : ∃ t, y = .parens t ∧ ParensAt t a b := by
  cases y <;> first | exact ⟨_, rfl, h⟩ | exact absurd h id
theorem at_exc {y : Atom} (h : Ty.At .exc y a b) : ∃ t, y = .exc t ∧ ExcAt t a b := by
  cases y <;> first | exact ⟨_, rfl, h⟩ | exact absurd h id

/-- Widening the interval. -/
theorem LabelAt.mono {k : PKwLabel} (h : LabelAt k a b) (ha : a' ≤ a) (hb : b ≤ b') : LabelAt k a' b' := by
  cases k with
  | PlainLabel t => exact ⟨h.1.mono ha hb, h.2⟩
  | QuotedLabel t ps e =>
    obtain ⟨p, q, h1, h2, h3, h4⟩ := h
    exact ⟨p, q, h1.mono ha (Nat.le_refl _), h2, h3.mono (Nat.le_refl _) hb, h4⟩
theorem ParensAt.mono {g : Option Token × List Node × Option Token} (h : ParensAt g a b) (ha : a' ≤ a) (hb : b ≤ b') :
    ParensAt g a' b' := by
  rcases g with ⟨_ | t, ns, _ | u⟩
  · exact ⟨h.1, by have := h.2; omega⟩
  · exact absurd h id
  · exact absurd h id
  · obtain ⟨p, q, h1, h2, h3⟩ := h
    exact ⟨p, q, h1.mono ha (Nat.le_refl _), h2, h3.mono (Nat.le_refl _) hb⟩
theorem ExcAt.mono {e : Option Token × Option Node} (h : ExcAt e a b) (ha : a' ≤ a) (hb : b ≤ b') : ExcAt e a' b' := by
  rcases e with ⟨_ | t, _ | u⟩
  · have : a ≤ b := h
    show a' ≤ b'; omega
  · exact absurd h id
  · exact absurd h id
  · obtain ⟨p, h1, h2⟩ := h
    exact ⟨p, h1.mono ha (Nat.le_refl _), h2.mono (Nat.le_refl _) hb⟩
theorem ArgsAt.mono {g : ArgsType} (h : ArgsAt g a b) (ha : a' ≤ a) (hb : b ≤ b') : ArgsAt g a' b' := by
  have := h.le
  cases g with
  | Args a => exact ONode.At.mono h ha hb
  | Numargs n => show a' ≤ b'; omega
theorem Ty.At.mono {ty : Ty} {x : Atom} (h : ty.At x a b) (ha : a' ≤ a) (hb : b ≤ b') : ty.At x a' b' := by
  unfold Ty.At at *
  split at h
  · exact Token.At.mono h ha hb
  · exact ⟨h.1.mono ha hb, h.2⟩
  · exact OTok.At.mono h ha hb
  · exact Node.At.mono h ha hb
  · exact ONode.At.mono h ha hb
  · exact Nodes.At.mono h ha hb
  · exact ArgsAt.mono h ha hb
  · exact LabelAt.mono h ha hb
  · exact ⟨OTok.At.mono h.1 ha hb, ONode.At.mono h.2.1 ha hb, h.2.2⟩
  · exact ParensAt.mono h ha hb
  · exact ExcAt.mono h ha hb
  · exact absurd h id
theorem Chain.mono {ts : List Ty} {xs : List Atom} (h : Chain ts xs a b) (ha : a' ≤ a) (hb : b ≤ b') : Chain ts xs a' b' := by
  induction ts generalizing xs a a' with
  | nil =>
    obtain ⟨rfl, h⟩ := chain_nil h
    show a' ≤ b'; omega
  | cons t ts ih =>
    obtain ⟨y, ys, m, rfl, h1, h2⟩ := chain_cons h
    exact ⟨m, h1.mono ha (Nat.le_refl _), ih h2 (Nat.le_refl _)⟩

theorem outp_gives {c : α → Atom} {P : Atom → Prop} (h : P (c x)) : BldR.Gives (outp c x) P := BldR.gives_pure h
theorem outB_gives {c : α → Atom} {r : BldR α} {P : Atom → Prop} {Q : α → Prop} (h : BldR.Gives r Q) (hq : ∀ x, Q x → P (c x)) :
    BldR.Gives (outB c r) P := BldR.gives_bind h fun x hx => BldR.gives_pure (hq x hx)
theorem outM_gives {c : α → Atom} {r : BldM α} {P : Atom → Prop} {Q : α → Prop} (h : BldM.Gives r Q) (hq : ∀ x, Q x → P (c x)) :
    BldR.Gives (outM c r) P := BldR.gives_bind (BldR.gives_lift h) fun x hx => BldR.gives_pure (hq x hx)
theorem outR_gives {c : α → Atom} {r : Res α} {P : Atom → Prop} {Q : α → Prop} (h : Res.Gives r Q) (hq : ∀ x, Q x → P (c x)) :
    BldR.Gives (outR c r) P := outM_gives (BldM.gives_liftR h) hq

/-! ### The functions outside `src/builder.rs` -/

theorem endlessName_at {x0 : Token} (h0 : x0.At a b) : BldR.Gives (endlessName x0) (·.At a b) := by
  unfold endlessName
  dsimp only
  split
  · exact BldR.gives_pure h0
  split
  · exact BldR.gives_err
  · exact BldR.gives_pure h0
theorem kwargName_at {x0 : Token} (h0 : x0.At a b ∧ x0.loc.begin + 1 ≤ x0.loc.stop) :
    BldR.Gives (kwargName ext x0) (fun t => t.At a b ∧ t.loc.begin + 1 ≤ t.loc.stop) := by
  unfold kwargName
  split
  · exact BldR.gives_lift BldM.gives_panic
  split
  · exact BldR.gives_pure h0
  · exact BldR.gives_err
theorem singletonExpr_at {x0 : Node} (h0 : x0.At a b) : BldR.Gives (singletonExpr x0) (·.At a b) := by
  unfold singletonExpr
  split <;> first | exact BldR.gives_err | exact BldR.gives_any fun _ => BldR.gives_pure h0
theorem argsType_at {x0 : Option Node} (h0 : ONode.At x0 a b) : BldR.Gives (argsType x0) (ArgsAt · a b) := by
  unfold argsType
  refine BldR.gives_any fun s => ?_
  split
  · exact BldR.gives_pure (show a ≤ b from h0.le)
  · exact BldR.gives_pure h0
theorem rescueClause_at {x0 : Token} {x1 : List Node} {x2 : Option Token × Option Node} {x3 : Token} {x4 : Option Node}
    (h0 : x0.At p0 p1) (h1 : Nodes.At x1 p1 p2) (h2 : ExcAt x2 p2 p3) (h3 : x3.At p3 p4) (h4 : ONode.At x4 p4 p5) :
    Res.Gives (rescueClause x0 x1 x2 x3 x4) (·.At p0 p5) := by
  have key : ∀ l, ONode.At l p1 p2 → (rescueBody x0 l x2.1 x2.2 (some x3) x4).At p0 p5 := by
    intro l hl
    rcases x2 with ⟨_ | t, _ | u⟩
    · exact rescueBody_at h0 hl (Nat.le_refl _) h2 h3 h4 (.inl rfl)
    · exact absurd h2 id
    · exact absurd h2 id
    · obtain ⟨p, h5, h6⟩ := h2
      exact rescueBody_at h0 hl h5 h6 h3 h4 (.inr nofun)
  unfold rescueClause
  split
  · exact Res.gives_ok (key none h1.le)
  · exact Res.gives_bind (array_at (Nat.le_refl _) h1 (Nat.le_refl _)) fun l hl => Res.gives_pure (key (some l) hl)
theorem rescueMod_at {x0 : Node} {x1 : Token} {x2 : Node} (h0 : x0.At p0 p1) (h1 : x1.At p1 p2) (h2 : x2.At p2 p3) :
    Res.Gives (rescueMod x0 x1 x2) (ONode.At · p0 p3) := by
  have hr : (rescueBody x1 none none none none (some x2)).At p1 p3 :=
    rescueBody_at h1 (Nat.le_refl _) (Nat.le_refl _) (Nat.le_refl _) (Nat.le_refl _) h2 (.inl rfl)
  exact beginBody_at (x0 := some x0) (x2 := none) (x3 := none) (x4 := none) (x5 := none) h0 (Nodes.at_singleton hr) (Nat.le_refl _)
    (Nat.le_refl _) (Nat.le_refl _) (Nat.le_refl _) (.inl rfl)
theorem rescueMod!_at {x0 : Node} {x1 : Token} {x2 : Node} (h0 : x0.At p0 p1) (h1 : x1.At p1 p2) (h2 : x2.At p2 p3) :
    Res.Gives (rescueMod! x0 x1 x2) (·.At p0 p3) := by
  refine Res.gives_bind (rescueMod_at h0 h1 h2) fun r hr => ?_
  cases r with
  | none => exact Res.gives_error
  | some n => exact Res.gives_pure hr
theorem bodystmt_at {x0 : Option Node} {x1 : List Node} {x2 : Option Token} {x3 : Option Node} (h0 : ONode.At x0 p0 p1)
    (h1 : Nodes.At x1 p1 p2) (h2 : OTok.At x2 p2 p3) (h3 : ONode.At x3 p3 p4) :
    Res.Gives (beginBody x0 x1 none (x2.map fun t => (t, x3))) (ONode.At · p0 p4) :=
  beginBody_at (x2 := none) (x3 := none) h0 h1 (Nat.le_refl _) (Nat.le_refl _) h2 h3 (.inl rfl)
theorem bodystmtElse_at {x0 : Option Node} {x1 : List Node} {x2 : Token} {x3 : Option Node} {x4 : Option Token} {x5 : Option Node}
    (h0 : ONode.At x0 p0 p1) (h1 : Nodes.At x1 p1 p2) (h2 : x2.At p2 p3) (h3 : ONode.At x3 p3 p4) (h4 : OTok.At x4 p4 p5)
    (h5 : ONode.At x5 p5 p6) : BldR.Gives (bodystmtElse x0 x1 x2 x3 x4 x5) (ONode.At · p0 p6) := by
  unfold bodystmtElse
  split
  · exact BldR.gives_err
  · rename_i hne
    exact BldR.gives_lift (BldM.gives_liftR (beginBody_at (x2 := some x2) h0 h1 h2 h3 h4 h5
      (.inr fun h => hne (by rw [h]; rfl))))
theorem procargs_at {x0 x1 : List Node} (h0 : Nodes.At x0 p0 p1) (h1 : Nodes.At x1 p1 p2) :
    Res.Gives (procargs x0 x1) (Nodes.At · p0 p2) := by
  unfold procargs
  split
  · obtain ⟨m, h2, h3⟩ := h0
    have h4 : m ≤ p1 := h3
    have h5 : p1 ≤ p2 := h1
    exact Res.gives_bind (procarg0_at h2) fun r hr => Res.gives_pure ⟨m, hr, by show m ≤ p2; omega⟩
  · exact Res.gives_ok (h0.append h1)
theorem attrAsgnMasgn_at {x0 : Node} {x1 x2 : Token} (h0 : x0.At p0 p1) (h1 : x1.At p1 p2) (h2 : x2.At p2 p3) :
    BldR.Gives (attrAsgnMasgn x0 x1 x2) (·.At p0 p3) := by
  unfold attrAsgnMasgn
  split
  · exact BldR.gives_err
  · exact BldR.gives_lift (BldM.gives_liftR (attrAsgn_at h0 h1 h2))
theorem mlhsInner_at {x0 : Token} {x1 : Node} {x2 : Token} (h0 : x0.At p0 p1) (h1 : x1.At p1 p2) (h2 : x2.At p2 p3) :
    Res.Gives (mlhsInner x0 x1 x2) (·.At p0 p3) := by
  unfold mlhsInner
  split
  · rename_i items b e x
    MLHS
  · exact Res.gives_error
theorem callDotOpt_at {x0 : Node} {x1 x2 : Token} {x3 : Option Token × List Node × Option Token} (h0 : x0.At p0 p1)
    (h1 : x1.At p1 p2) (h2 : x2.At p2 p3) (h3 : ParensAt x3 p3 p4) :
    Res.Gives (callMethod (some x0) (some x1) (some x2) x3.1 x3.2.1 x3.2.2) (·.At p0 p4) := by
  rcases x3 with ⟨_ | t, ns, _ | u⟩
  · obtain ⟨h4, h5⟩ := h3
    cases h4
    exact callDot_at h0 h1 h2 h5
  · exact absurd h3 id
  · exact absurd h3 id
  · obtain ⟨p, q, h4, h5, h6⟩ := h3
    exact callDotParen_at h0 h1 h2 h4 h5 h6
theorem string1_at {x0 : Token} {x1 : List Node} {x2 : Token} {w : Int} (h0 : x0.At p0 p1) (h1 : Nodes.At x1 p1 p2)
    (h2 : x2.At p2 p3) : Res.Gives (string1 w x0 x1 x2) (·.At p0 p3) := by
  refine Res.gives_bind ?_ fun r hr => heredocDedent_at hr
  cases hh : isHeredoc (some x0) with
  | false => exact stringCompose_at (x0 := some x0) (x2 := some x2) h0 h1 h2 hh
  | true =>
    have := h1.le; have := h2.le
    exact (stringCompose_heredoc_at h0 (fun c hc => (h1.mem hc).1) hh).imp fun r hr => hr.mono (Nat.le_refl _) (by omega)
theorem constPatternEmpty_at {x0 : Node} {x1 x2 : Token} (h0 : x0.At p0 p1) (h1 : x1.At p1 p2) (h2 : x2.At p2 p3) :
    Res.Gives (constPatternEmpty x0 x1 x2) (·.At p0 p3) := by
  refine Res.gives_bind (P := fun n => Nested n ∧ n.expression.begin = x1.loc.begin ∧ n.expression.stop = x2.loc.stop) ?_ fun r hr => Res.gives_pure ?_
  · CPE1
  · CPE2

/-! ### Every function -/

/-- The types of the arguments, and of the result. -/
def BFn.sig : BFn → List Ty × Ty''']
for n,sig,res,k,body,pf,doc,param in B:
    o.append(f'  | .{n}{" _" if param else ""} => ([{", ".join(TY[s] for s in sig)}], {TY[res]})')
o.append('''
/-- Arguments in order, between two positions, give a result between the same positions. -/
def Sound (f : BFn) : Prop := ∀ ext indent xs a b, Chain f.sig.1 xs a b →
  BldR.Gives (applyFn ext indent f xs) (fun r => f.sig.2.At r a b)
''')
AT={'T':'at_tok0','T1':'at_tok1','T2':'at_tok2','O':'at_otok','N':'at_node','P':'at_onode','L':'at_nodes','A':'at_args','K':'at_label','I':'at_tail','G':'at_parens','E':'at_exc'}
for n,sig,res,k,body,pf,doc,param in B:
    o.append(f'theorem sound_{n} : Sound {"(." + n + " p)" if param else "." + n} := by')
    o.append('  intro ext indent xs a b h')
    m=len(sig)
    if m==0:
        o.append('  obtain ⟨rfl, h⟩ := chain_nil h')
    else:
        names=[]
        for i,s in enumerate(sig[:-1]):
            o.append(f'  obtain ⟨y{i}, xs{i}, m{i}, {"rfl" if i==0 else "rfl"}, h{i}, h⟩ := chain_cons h')
        i=m-1
        o.append(f'  obtain ⟨y{i}, m{i}, rfl, h{i}, h⟩ := chain_one h')
        o.append(f'  replace h{i} := h{i}.mono (Nat.le_refl _) h')
        for i,s in enumerate(sig):
            o.append(f'  obtain ⟨x{i}, rfl, h{i}⟩ := {AT[s]} h{i}')
    if k=='p': o.append(f'  exact outp_gives (P := fun r => Ty.At ({TY[res]}) r a b) (c := .{CT[res]}) ({pf})')
    else: o.append(f'  exact out{k}_gives ({pf}) fun _ h => h')
o.append('''
theorem sound_all (f : BFn) : Sound f := by
  cases f with''')
for n,sig,res,k,body,pf,doc,param in B:
    o.append(f'  | {"«alias»" if n=="alias" else n}{" p" if param else ""} => exact sound_{n}')
o.append('\nend Verif.Grammar')
s='\n'.join(o)+'\n'
s=s.replace('    MLHS\n','''    rw [at_Mlhs] at h1
    obtain ⟨⟨g1, g2⟩, g3, g4, -, -⟩ := h1
    have key : ∀ l : Loc, x.begin ≤ l.begin → l.begin ≤ l.stop → l.stop ≤ x.stop →
        (Node.Mlhs items (some x0.loc) (some x2.loc) ((l.join x0.loc).join x2.loc)).At p0 p3 := by
      intro l l1 l2 l3
      rw [at_Mlhs]
      have w : Loc.Within x ((l.join x0.loc).join x2.loc) := by
        simp only [Loc.Within, Loc.join, Token.At] at *; omega
      refine ⟨?_, ?_, kids_within g4 w, ?_, ?_⟩
      · simp only [Loc.join, Token.At] at *; omega
      · simp only [Loc.join, Token.At] at *; omega
      · intro k hk
        simp only [Option.toList, List.mem_singleton] at hk
        subst hk
        simp only [Loc.Within, Loc.join, Token.At] at *; omega
      · intro k hk
        simp only [Option.toList, List.mem_singleton] at hk
        subst hk
        simp only [Loc.Within, Loc.join, Token.At] at *; omega
    have h4 : (Node.Mlhs [] (some x0.loc) (some x2.loc) (x0.loc.join x2.loc)).At p0 p3 := by
      rw [at_Mlhs]
      refine ⟨?_, ?_, nofun, ?_, ?_⟩
      · simp only [Loc.join, Token.At] at *; omega
      · simp only [Loc.join, Token.At] at *; omega
      · intro k hk
        simp only [Option.toList, List.mem_singleton] at hk
        subst hk
        simp only [Loc.Within, Loc.join, Token.At] at *; omega
      · intro k hk
        simp only [Option.toList, List.mem_singleton] at hk
        subst hk
        simp only [Loc.Within, Loc.join, Token.At] at *; omega
    unfold multiLhs collectionMap
    cases items with
    | nil => exact Res.gives_ok h4
    | cons n ns =>
      have k1 := g4 n (by simp)
      obtain ⟨l, hl⟩ : ∃ l, (n :: ns).getLast? = some l := ⟨(n :: ns).getLast (by simp), List.getLast?_eq_some_getLast (by simp)⟩
      have k2 := g4 l (List.mem_of_getLast? hl)
      have e : collectionExpr (n :: ns) = some (n.expression.join l.expression) := by
        unfold collectionExpr
        rw [hl]
        rfl
      rw [e]
      refine Res.gives_ok (key _ ?_ ?_ ?_)
      · have := k1.2; have := k2.2; simp only [Loc.Within, Loc.join] at *; omega
      · have := k1.2; have := k2.2; simp only [Loc.Within, Loc.join] at *; omega
      · have := k1.2; have := k2.2; simp only [Loc.Within, Loc.join] at *; omega
''').replace('  · CPE1\n','''  · intro n hn
    cases hn
    have h3 : (Node.ArrayPattern [] (some x1.loc) (some x2.loc) (x1.loc.join x2.loc)).At p1 p3 := by
      rw [at_ArrayPattern]
      refine ⟨?_, ?_, nofun, ?_, ?_⟩
      · simp only [Loc.join, Token.At] at *; omega
      · simp only [Loc.join, Token.At] at *; omega
      · intro k hk
        simp only [Option.toList, List.mem_singleton] at hk
        subst hk
        simp only [Loc.Within, Loc.join, Token.At] at *; omega
      · intro k hk
        simp only [Option.toList, List.mem_singleton] at hk
        subst hk
        simp only [Loc.Within, Loc.join, Token.At] at *; omega
    refine ⟨h3.1, ?_, ?_⟩
    · show min x1.loc.begin x2.loc.begin = _
      simp only [Token.At] at *; omega
    · show max x1.loc.stop x2.loc.stop = _
      simp only [Token.At] at *; omega
''').replace('  · CPE2\n','''  · obtain ⟨r1, r2, r3⟩ := hr
    unfold constPattern
    rw [at_ConstPattern]
    obtain ⟨n1, n2, n3, n4⟩ := h0
    simp only [Token.At] at h1 h2
    refine ⟨?_, ?_, ⟨n1, ?_⟩, ⟨r1, ?_⟩, ?_, ?_⟩ <;> simp only [Loc.Within, Loc.join] <;> omega
''')
open('/verif/lean/Verif/Lemmas/ValueSound.lean','w').write(s)
