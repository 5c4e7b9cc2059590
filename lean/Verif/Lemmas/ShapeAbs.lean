import Verif.Lemmas.ShapeBuild3
/-!
Descriptions of semantic values by kinds of nodes (`Abs`), and the functions that take apart a list of values by such descriptions.
-/
namespace Verif
open Builder Shape Grammar

/-- What is known of a component of a semantic value. -/
inductive Abs where
  | tok
  /-- may it be absent, may it be present -/
  | otok (no yes : Bool)
  | node (m : Kinds)
  /-- `opt`: it may be absent -/
  | onode (m : Kinds) (opt : Bool)
  /-- `ne`: it is not empty -/
  | nodes (m : Kinds) (ne : Bool)
  | args (m : Kinds)
  | label (m : Kinds)
  | tail (m : Kinds)
  | parens (m : Kinds)
  | exc (m : Kinds)
  /-- there is none -/
  | never
  deriving DecidableEq

/-- The value is as described. -/
def Abs.Has : Abs → Atom → Prop
  | .tok, .tok _ => True
  | .otok a b, .otok t => (t = none → a = true) ∧ (t.isSome = true → b = true)
  | .node m, .node n => Ok m n
  | .onode m o, .onode n => OkO m n ∧ (o = false → n.isSome = true)
  | .nodes m e, .nodes l => OkL m l ∧ (e = true → l ≠ [])
  | .args m, .args a => ArgsOk m a
  | .label m, .label k => LabelOk m k
  | .tail m, .tail p => OkO m p.2
  | .parens m, .parens p => OkL m p.2.1
  | .exc m, .exc p => OkO m p.2
  | _, _ => False
/-- The same for lists. -/
def HasL : List Abs → List Atom → Prop
  | [], [] => True
  | a :: as, x :: xs => a.Has x ∧ HasL as xs
  | _, _ => False

/-- Implication. -/
def Abs.le : Abs → Abs → Bool
  | .tok, .tok => true
  | .otok a b, .otok c d => (!a || c) && (!b || d)
  | .node m, .node k => sub m k
  | .onode m o, .onode k p => sub m k && (!o || p)
  | .nodes m e, .nodes k f => sub m k && (e || !f)
  | .args m, .args k => sub m k
  | .label m, .label k => sub m k
  | .tail m, .tail k => sub m k
  | .parens m, .parens k => sub m k
  | .exc m, .exc k => sub m k
  | .never, _ => true
  | _, _ => false
/-- The same for lists. -/
def leL : List Abs → List Abs → Bool
  | [], [] => true
  | a :: as, b :: bs => a.le b && leL as bs
  | _, _ => false

theorem hasL_nil {xs : List Atom} (h : HasL [] xs) : xs = [] := by
  cases xs with
  | nil => rfl
  | cons => exact absurd h id
theorem hasL_cons {a : Abs} {as : List Abs} {xs : List Atom} (h : HasL (a :: as) xs) : ∃ y ys, xs = y :: ys ∧ a.Has y ∧ HasL as ys := by
  cases xs with
  | nil => exact absurd h id
  | cons y ys => exact ⟨y, ys, rfl, h⟩
theorem never_has {x : Atom} : ¬ Abs.never.Has x := by cases x <;> exact id

theorem has_tok {x : Atom} (h : (Abs.tok).Has x) : ∃ y, x = .tok y ∧ (Abs.tok).Has (.tok y) := by
  cases x with
  | tok y => exact ⟨y, rfl, h⟩
  | _ => exact absurd h id
theorem has_otok {a : Bool} {b : Bool} {x : Atom} (h : (Abs.otok a b).Has x) : ∃ y, x = .otok y ∧ (Abs.otok a b).Has (.otok y) := by
  cases x with
  | otok y => exact ⟨y, rfl, h⟩
  | _ => exact absurd h id
theorem has_node {m : Kinds} {x : Atom} (h : (Abs.node m).Has x) : ∃ y, x = .node y ∧ (Abs.node m).Has (.node y) := by
  cases x with
  | node y => exact ⟨y, rfl, h⟩
  | _ => exact absurd h id
theorem has_onode {m : Kinds} {o : Bool} {x : Atom} (h : (Abs.onode m o).Has x) : ∃ y, x = .onode y ∧ (Abs.onode m o).Has (.onode y) := by
  cases x with
  | onode y => exact ⟨y, rfl, h⟩
  | _ => exact absurd h id
theorem has_nodes {m : Kinds} {o : Bool} {x : Atom} (h : (Abs.nodes m o).Has x) : ∃ y, x = .nodes y ∧ (Abs.nodes m o).Has (.nodes y) := by
  cases x with
  | nodes y => exact ⟨y, rfl, h⟩
  | _ => exact absurd h id
theorem has_args {m : Kinds} {x : Atom} (h : (Abs.args m).Has x) : ∃ y, x = .args y ∧ (Abs.args m).Has (.args y) := by
  cases x with
  | args y => exact ⟨y, rfl, h⟩
  | _ => exact absurd h id
theorem has_label {m : Kinds} {x : Atom} (h : (Abs.label m).Has x) : ∃ y, x = .label y ∧ (Abs.label m).Has (.label y) := by
  cases x with
  | label y => exact ⟨y, rfl, h⟩
  | _ => exact absurd h id
theorem has_tail {m : Kinds} {x : Atom} (h : (Abs.tail m).Has x) : ∃ y, x = .tail y ∧ (Abs.tail m).Has (.tail y) := by
  cases x with
  | tail y => exact ⟨y, rfl, h⟩
  | _ => exact absurd h id
theorem has_parens {m : Kinds} {x : Atom} (h : (Abs.parens m).Has x) : ∃ y, x = .parens y ∧ (Abs.parens m).Has (.parens y) := by
  cases x with
  | parens y => exact ⟨y, rfl, h⟩
  | _ => exact absurd h id
theorem has_exc {m : Kinds} {x : Atom} (h : (Abs.exc m).Has x) : ∃ y, x = .exc y ∧ (Abs.exc m).Has (.exc y) := by
  cases x with
  | exc y => exact ⟨y, rfl, h⟩
  | _ => exact absurd h id

theorem LabelOk.mono {k : PKwLabel} {a b : Kinds} (h : LabelOk a k) (hs : sub a b = true) : LabelOk b k := by
  cases k with
  | PlainLabel => trivial
  | QuotedLabel => exact OkL.mono h hs
theorem ArgsOk.mono {k : ArgsType} {a b : Kinds} (h : ArgsOk a k) (hs : sub a b = true) : ArgsOk b k := by
  cases k with
  | Args => exact OkO.mono h hs
  | Numargs => trivial
theorem Abs.Has.le {a b : Abs} {x : Atom} (h : a.Has x) (hl : a.le b = true) : b.Has x := by
  unfold Abs.le at hl
  split at hl
  · exact h
  · rename_i a b c d
    obtain ⟨y, rfl, h1, h2⟩ := has_otok h
    cases a <;> cases b <;> cases c <;> cases d <;> simp at hl <;> refine ⟨fun h => ?_, fun h => ?_⟩ <;>
      first | rfl | exact h1 h | exact h2 h
  · obtain ⟨y, rfl, h⟩ := has_node h; exact Ok.mono h hl
  · rename_i m o k p
    rw [Bool.and_eq_true] at hl
    obtain ⟨y, rfl, h1, h2⟩ := has_onode h
    refine ⟨h1.mono hl.1, fun e => h2 ?_⟩
    rw [e] at hl
    simpa using hl.2
  · rename_i m o k p
    rw [Bool.and_eq_true] at hl
    obtain ⟨y, rfl, h1, h2⟩ := has_nodes h
    refine ⟨h1.mono hl.1, fun e => h2 ?_⟩
    rw [e] at hl
    simpa using hl.2
  · obtain ⟨y, rfl, h⟩ := has_args h; exact ArgsOk.mono h hl
  · obtain ⟨y, rfl, h⟩ := has_label h; exact LabelOk.mono h hl
  · obtain ⟨y, rfl, h⟩ := has_tail h; exact OkO.mono h hl
  · obtain ⟨y, rfl, h⟩ := has_parens h; exact OkL.mono h hl
  · obtain ⟨y, rfl, h⟩ := has_exc h; exact OkO.mono h hl
  · exact absurd h never_has
  · cases hl
theorem HasL.le {as bs : List Abs} {xs : List Atom} (h : HasL as xs) (hl : leL as bs = true) : HasL bs xs := by
  induction as generalizing bs xs with
  | nil =>
    cases bs with
    | nil => exact h
    | cons => cases hl
  | cons a as ih =>
    cases bs with
    | nil => cases hl
    | cons b bs =>
      obtain ⟨y, ys, rfl, h1, h2⟩ := hasL_cons h
      rw [leL, Bool.and_eq_true] at hl
      exact ⟨h1.le hl.1, ih h2 hl.2⟩

variable {g : Prop} {Q : Atom → Prop}

theorem outp_safe {α : Type} {c : α → Atom} {a : α} (h : Q (c a)) : BldR.Safe g (outp c a) Q := BldR.safe_pure h
theorem outR_safe {α : Type} {c : α → Atom} {P : α → Prop} {r : Res α} (h : Res.Safe g r P) (hc : ∀ a, P a → Q (c a)) :
    BldR.Safe g (outR c r) Q :=
  BldR.safe_bind (BldR.safe_lift (BldM.safe_liftR h)) fun a ha => BldR.safe_pure (hc a ha)
theorem outM_safe {α : Type} {c : α → Atom} {P : α → Prop} {r : BldM α} (h : BldM.Safe g r P) (hc : ∀ a, P a → Q (c a)) :
    BldR.Safe g (outM c r) Q :=
  BldR.safe_bind (BldR.safe_lift h) fun a ha => BldR.safe_pure (hc a ha)
theorem outB_safe {α : Type} {c : α → Atom} {P : α → Prop} {r : BldR α} (h : BldR.Safe g r P) (hc : ∀ a, P a → Q (c a)) :
    BldR.Safe g (outB c r) Q :=
  BldR.safe_bind h fun a ha => BldR.safe_pure (hc a ha)

/-! ### Taking a list apart -/

theorem withK_safe {k : PKwLabel → BldR Atom} {m0 : Kinds} {xs : List Atom} (h : HasL [Abs.label m0] xs)
    (hk : ∀ x0, Abs.Has (Abs.label m0) (.label x0) → BldR.Safe g (k x0) Q) : BldR.Safe g (withK k xs) Q := by
  obtain ⟨_, _, rfl, h0, r0⟩ := hasL_cons h
  obtain ⟨x0, rfl, h0⟩ := has_label h0
  cases hasL_nil r0
  exact hk x0 h0
theorem withKN_safe {k : PKwLabel → Node → BldR Atom} {m0 : Kinds} {m1 : Kinds} {xs : List Atom} (h : HasL [Abs.label m0, Abs.node m1] xs)
    (hk : ∀ x0 x1, Abs.Has (Abs.label m0) (.label x0) → Abs.Has (Abs.node m1) (.node x1) → BldR.Safe g (k x0 x1) Q) : BldR.Safe g (withKN k xs) Q := by
  obtain ⟨_, _, rfl, h0, r0⟩ := hasL_cons h
  obtain ⟨x0, rfl, h0⟩ := has_label h0
  obtain ⟨_, _, rfl, h1, r1⟩ := hasL_cons r0
  obtain ⟨x1, rfl, h1⟩ := has_node h1
  cases hasL_nil r1
  exact hk x0 x1 h0 h1
theorem withL_safe {k : List Node → BldR Atom} {m0 : Kinds} {o0 : Bool} {xs : List Atom} (h : HasL [Abs.nodes m0 o0] xs)
    (hk : ∀ x0, Abs.Has (Abs.nodes m0 o0) (.nodes x0) → BldR.Safe g (k x0) Q) : BldR.Safe g (withL k xs) Q := by
  obtain ⟨_, _, rfl, h0, r0⟩ := hasL_cons h
  obtain ⟨x0, rfl, h0⟩ := has_nodes h0
  cases hasL_nil r0
  exact hk x0 h0
theorem withLL_safe {k : List Node → List Node → BldR Atom} {m0 : Kinds} {o0 : Bool} {m1 : Kinds} {o1 : Bool} {xs : List Atom} (h : HasL [Abs.nodes m0 o0, Abs.nodes m1 o1] xs)
    (hk : ∀ x0 x1, Abs.Has (Abs.nodes m0 o0) (.nodes x0) → Abs.Has (Abs.nodes m1 o1) (.nodes x1) → BldR.Safe g (k x0 x1) Q) : BldR.Safe g (withLL k xs) Q := by
  obtain ⟨_, _, rfl, h0, r0⟩ := hasL_cons h
  obtain ⟨x0, rfl, h0⟩ := has_nodes h0
  obtain ⟨_, _, rfl, h1, r1⟩ := hasL_cons r0
  obtain ⟨x1, rfl, h1⟩ := has_nodes h1
  cases hasL_nil r1
  exact hk x0 x1 h0 h1
theorem withN_safe {k : Node → BldR Atom} {m0 : Kinds} {xs : List Atom} (h : HasL [Abs.node m0] xs)
    (hk : ∀ x0, Abs.Has (Abs.node m0) (.node x0) → BldR.Safe g (k x0) Q) : BldR.Safe g (withN k xs) Q := by
  obtain ⟨_, _, rfl, h0, r0⟩ := hasL_cons h
  obtain ⟨x0, rfl, h0⟩ := has_node h0
  cases hasL_nil r0
  exact hk x0 h0
theorem withNTAPT_safe {k : Node → Token → ArgsType → Option Node → Token → BldR Atom} {m0 : Kinds} {m2 : Kinds} {m3 : Kinds} {o3 : Bool} {xs : List Atom} (h : HasL [Abs.node m0, Abs.tok, Abs.args m2, Abs.onode m3 o3, Abs.tok] xs)
    (hk : ∀ x0 x1 x2 x3 x4, Abs.Has (Abs.node m0) (.node x0) → Abs.Has (Abs.args m2) (.args x2) → Abs.Has (Abs.onode m3 o3) (.onode x3) → BldR.Safe g (k x0 x1 x2 x3 x4) Q) : BldR.Safe g (withNTAPT k xs) Q := by
  obtain ⟨_, _, rfl, h0, r0⟩ := hasL_cons h
  obtain ⟨x0, rfl, h0⟩ := has_node h0
  obtain ⟨_, _, rfl, h1, r1⟩ := hasL_cons r0
  obtain ⟨x1, rfl, h1⟩ := has_tok h1
  obtain ⟨_, _, rfl, h2, r2⟩ := hasL_cons r1
  obtain ⟨x2, rfl, h2⟩ := has_args h2
  obtain ⟨_, _, rfl, h3, r3⟩ := hasL_cons r2
  obtain ⟨x3, rfl, h3⟩ := has_onode h3
  obtain ⟨_, _, rfl, h4, r4⟩ := hasL_cons r3
  obtain ⟨x4, rfl, h4⟩ := has_tok h4
  cases hasL_nil r4
  exact hk x0 x1 x2 x3 x4 h0 h2 h3
theorem withNTLT_safe {k : Node → Token → List Node → Token → BldR Atom} {m0 : Kinds} {m2 : Kinds} {o2 : Bool} {xs : List Atom} (h : HasL [Abs.node m0, Abs.tok, Abs.nodes m2 o2, Abs.tok] xs)
    (hk : ∀ x0 x1 x2 x3, Abs.Has (Abs.node m0) (.node x0) → Abs.Has (Abs.nodes m2 o2) (.nodes x2) → BldR.Safe g (k x0 x1 x2 x3) Q) : BldR.Safe g (withNTLT k xs) Q := by
  obtain ⟨_, _, rfl, h0, r0⟩ := hasL_cons h
  obtain ⟨x0, rfl, h0⟩ := has_node h0
  obtain ⟨_, _, rfl, h1, r1⟩ := hasL_cons r0
  obtain ⟨x1, rfl, h1⟩ := has_tok h1
  obtain ⟨_, _, rfl, h2, r2⟩ := hasL_cons r1
  obtain ⟨x2, rfl, h2⟩ := has_nodes h2
  obtain ⟨_, _, rfl, h3, r3⟩ := hasL_cons r2
  obtain ⟨x3, rfl, h3⟩ := has_tok h3
  cases hasL_nil r3
  exact hk x0 x1 x2 x3 h0 h2
theorem withNTN_safe {k : Node → Token → Node → BldR Atom} {m0 : Kinds} {m2 : Kinds} {xs : List Atom} (h : HasL [Abs.node m0, Abs.tok, Abs.node m2] xs)
    (hk : ∀ x0 x1 x2, Abs.Has (Abs.node m0) (.node x0) → Abs.Has (Abs.node m2) (.node x2) → BldR.Safe g (k x0 x1 x2) Q) : BldR.Safe g (withNTN k xs) Q := by
  obtain ⟨_, _, rfl, h0, r0⟩ := hasL_cons h
  obtain ⟨x0, rfl, h0⟩ := has_node h0
  obtain ⟨_, _, rfl, h1, r1⟩ := hasL_cons r0
  obtain ⟨x1, rfl, h1⟩ := has_tok h1
  obtain ⟨_, _, rfl, h2, r2⟩ := hasL_cons r1
  obtain ⟨x2, rfl, h2⟩ := has_node h2
  cases hasL_nil r2
  exact hk x0 x1 x2 h0 h2
theorem withNTNT_safe {k : Node → Token → Node → Token → BldR Atom} {m0 : Kinds} {m2 : Kinds} {xs : List Atom} (h : HasL [Abs.node m0, Abs.tok, Abs.node m2, Abs.tok] xs)
    (hk : ∀ x0 x1 x2 x3, Abs.Has (Abs.node m0) (.node x0) → Abs.Has (Abs.node m2) (.node x2) → BldR.Safe g (k x0 x1 x2 x3) Q) : BldR.Safe g (withNTNT k xs) Q := by
  obtain ⟨_, _, rfl, h0, r0⟩ := hasL_cons h
  obtain ⟨x0, rfl, h0⟩ := has_node h0
  obtain ⟨_, _, rfl, h1, r1⟩ := hasL_cons r0
  obtain ⟨x1, rfl, h1⟩ := has_tok h1
  obtain ⟨_, _, rfl, h2, r2⟩ := hasL_cons r1
  obtain ⟨x2, rfl, h2⟩ := has_node h2
  obtain ⟨_, _, rfl, h3, r3⟩ := hasL_cons r2
  obtain ⟨x3, rfl, h3⟩ := has_tok h3
  cases hasL_nil r3
  exact hk x0 x1 x2 x3 h0 h2
theorem withNTNTN_safe {k : Node → Token → Node → Token → Node → BldR Atom} {m0 : Kinds} {m2 : Kinds} {m4 : Kinds} {xs : List Atom} (h : HasL [Abs.node m0, Abs.tok, Abs.node m2, Abs.tok, Abs.node m4] xs)
    (hk : ∀ x0 x1 x2 x3 x4, Abs.Has (Abs.node m0) (.node x0) → Abs.Has (Abs.node m2) (.node x2) → Abs.Has (Abs.node m4) (.node x4) → BldR.Safe g (k x0 x1 x2 x3 x4) Q) : BldR.Safe g (withNTNTN k xs) Q := by
  obtain ⟨_, _, rfl, h0, r0⟩ := hasL_cons h
  obtain ⟨x0, rfl, h0⟩ := has_node h0
  obtain ⟨_, _, rfl, h1, r1⟩ := hasL_cons r0
  obtain ⟨x1, rfl, h1⟩ := has_tok h1
  obtain ⟨_, _, rfl, h2, r2⟩ := hasL_cons r1
  obtain ⟨x2, rfl, h2⟩ := has_node h2
  obtain ⟨_, _, rfl, h3, r3⟩ := hasL_cons r2
  obtain ⟨x3, rfl, h3⟩ := has_tok h3
  obtain ⟨_, _, rfl, h4, r4⟩ := hasL_cons r3
  obtain ⟨x4, rfl, h4⟩ := has_node h4
  cases hasL_nil r4
  exact hk x0 x1 x2 x3 x4 h0 h2 h4
theorem withNTT_safe {k : Node → Token → Token → BldR Atom} {m0 : Kinds} {xs : List Atom} (h : HasL [Abs.node m0, Abs.tok, Abs.tok] xs)
    (hk : ∀ x0 x1 x2, Abs.Has (Abs.node m0) (.node x0) → BldR.Safe g (k x0 x1 x2) Q) : BldR.Safe g (withNTT k xs) Q := by
  obtain ⟨_, _, rfl, h0, r0⟩ := hasL_cons h
  obtain ⟨x0, rfl, h0⟩ := has_node h0
  obtain ⟨_, _, rfl, h1, r1⟩ := hasL_cons r0
  obtain ⟨x1, rfl, h1⟩ := has_tok h1
  obtain ⟨_, _, rfl, h2, r2⟩ := hasL_cons r1
  obtain ⟨x2, rfl, h2⟩ := has_tok h2
  cases hasL_nil r2
  exact hk x0 x1 x2 h0
theorem withNTTG_safe {k : Node → Token → Token → (Option Token × List Node × Option Token) → BldR Atom} {m0 : Kinds} {m3 : Kinds} {xs : List Atom} (h : HasL [Abs.node m0, Abs.tok, Abs.tok, Abs.parens m3] xs)
    (hk : ∀ x0 x1 x2 x3, Abs.Has (Abs.node m0) (.node x0) → Abs.Has (Abs.parens m3) (.parens x3) → BldR.Safe g (k x0 x1 x2 x3) Q) : BldR.Safe g (withNTTG k xs) Q := by
  obtain ⟨_, _, rfl, h0, r0⟩ := hasL_cons h
  obtain ⟨x0, rfl, h0⟩ := has_node h0
  obtain ⟨_, _, rfl, h1, r1⟩ := hasL_cons r0
  obtain ⟨x1, rfl, h1⟩ := has_tok h1
  obtain ⟨_, _, rfl, h2, r2⟩ := hasL_cons r1
  obtain ⟨x2, rfl, h2⟩ := has_tok h2
  obtain ⟨_, _, rfl, h3, r3⟩ := hasL_cons r2
  obtain ⟨x3, rfl, h3⟩ := has_parens h3
  cases hasL_nil r3
  exact hk x0 x1 x2 x3 h0 h3
theorem withNTTL_safe {k : Node → Token → Token → List Node → BldR Atom} {m0 : Kinds} {m3 : Kinds} {o3 : Bool} {xs : List Atom} (h : HasL [Abs.node m0, Abs.tok, Abs.tok, Abs.nodes m3 o3] xs)
    (hk : ∀ x0 x1 x2 x3, Abs.Has (Abs.node m0) (.node x0) → Abs.Has (Abs.nodes m3 o3) (.nodes x3) → BldR.Safe g (k x0 x1 x2 x3) Q) : BldR.Safe g (withNTTL k xs) Q := by
  obtain ⟨_, _, rfl, h0, r0⟩ := hasL_cons h
  obtain ⟨x0, rfl, h0⟩ := has_node h0
  obtain ⟨_, _, rfl, h1, r1⟩ := hasL_cons r0
  obtain ⟨x1, rfl, h1⟩ := has_tok h1
  obtain ⟨_, _, rfl, h2, r2⟩ := hasL_cons r1
  obtain ⟨x2, rfl, h2⟩ := has_tok h2
  obtain ⟨_, _, rfl, h3, r3⟩ := hasL_cons r2
  obtain ⟨x3, rfl, h3⟩ := has_nodes h3
  cases hasL_nil r3
  exact hk x0 x1 x2 x3 h0 h3
theorem withNTTLT_safe {k : Node → Token → Token → List Node → Token → BldR Atom} {m0 : Kinds} {m3 : Kinds} {o3 : Bool} {xs : List Atom} (h : HasL [Abs.node m0, Abs.tok, Abs.tok, Abs.nodes m3 o3, Abs.tok] xs)
    (hk : ∀ x0 x1 x2 x3 x4, Abs.Has (Abs.node m0) (.node x0) → Abs.Has (Abs.nodes m3 o3) (.nodes x3) → BldR.Safe g (k x0 x1 x2 x3 x4) Q) : BldR.Safe g (withNTTLT k xs) Q := by
  obtain ⟨_, _, rfl, h0, r0⟩ := hasL_cons h
  obtain ⟨x0, rfl, h0⟩ := has_node h0
  obtain ⟨_, _, rfl, h1, r1⟩ := hasL_cons r0
  obtain ⟨x1, rfl, h1⟩ := has_tok h1
  obtain ⟨_, _, rfl, h2, r2⟩ := hasL_cons r1
  obtain ⟨x2, rfl, h2⟩ := has_tok h2
  obtain ⟨_, _, rfl, h3, r3⟩ := hasL_cons r2
  obtain ⟨x3, rfl, h3⟩ := has_nodes h3
  obtain ⟨_, _, rfl, h4, r4⟩ := hasL_cons r3
  obtain ⟨x4, rfl, h4⟩ := has_tok h4
  cases hasL_nil r4
  exact hk x0 x1 x2 x3 x4 h0 h3
theorem withNTTTLT_safe {k : Node → Token → Token → Token → List Node → Token → BldR Atom} {m0 : Kinds} {m4 : Kinds} {o4 : Bool} {xs : List Atom} (h : HasL [Abs.node m0, Abs.tok, Abs.tok, Abs.tok, Abs.nodes m4 o4, Abs.tok] xs)
    (hk : ∀ x0 x1 x2 x3 x4 x5, Abs.Has (Abs.node m0) (.node x0) → Abs.Has (Abs.nodes m4 o4) (.nodes x4) → BldR.Safe g (k x0 x1 x2 x3 x4 x5) Q) : BldR.Safe g (withNTTTLT k xs) Q := by
  obtain ⟨_, _, rfl, h0, r0⟩ := hasL_cons h
  obtain ⟨x0, rfl, h0⟩ := has_node h0
  obtain ⟨_, _, rfl, h1, r1⟩ := hasL_cons r0
  obtain ⟨x1, rfl, h1⟩ := has_tok h1
  obtain ⟨_, _, rfl, h2, r2⟩ := hasL_cons r1
  obtain ⟨x2, rfl, h2⟩ := has_tok h2
  obtain ⟨_, _, rfl, h3, r3⟩ := hasL_cons r2
  obtain ⟨x3, rfl, h3⟩ := has_tok h3
  obtain ⟨_, _, rfl, h4, r4⟩ := hasL_cons r3
  obtain ⟨x4, rfl, h4⟩ := has_nodes h4
  obtain ⟨_, _, rfl, h5, r5⟩ := hasL_cons r4
  obtain ⟨x5, rfl, h5⟩ := has_tok h5
  cases hasL_nil r5
  exact hk x0 x1 x2 x3 x4 x5 h0 h4
theorem withOLO_safe {k : Option Token → List Node → Option Token → BldR Atom} {a0 : Bool} {b0 : Bool} {m1 : Kinds} {o1 : Bool} {a2 : Bool} {b2 : Bool} {xs : List Atom} (h : HasL [Abs.otok a0 b0, Abs.nodes m1 o1, Abs.otok a2 b2] xs)
    (hk : ∀ x0 x1 x2, Abs.Has (Abs.otok a0 b0) (.otok x0) → Abs.Has (Abs.nodes m1 o1) (.nodes x1) → Abs.Has (Abs.otok a2 b2) (.otok x2) → BldR.Safe g (k x0 x1 x2) Q) : BldR.Safe g (withOLO k xs) Q := by
  obtain ⟨_, _, rfl, h0, r0⟩ := hasL_cons h
  obtain ⟨x0, rfl, h0⟩ := has_otok h0
  obtain ⟨_, _, rfl, h1, r1⟩ := hasL_cons r0
  obtain ⟨x1, rfl, h1⟩ := has_nodes h1
  obtain ⟨_, _, rfl, h2, r2⟩ := hasL_cons r1
  obtain ⟨x2, rfl, h2⟩ := has_otok h2
  cases hasL_nil r2
  exact hk x0 x1 x2 h0 h1 h2
theorem withOLOO_safe {k : Option Token → List Node → Option Token → Option Token → BldR Atom} {a0 : Bool} {b0 : Bool} {m1 : Kinds} {o1 : Bool} {a2 : Bool} {b2 : Bool} {a3 : Bool} {b3 : Bool} {xs : List Atom} (h : HasL [Abs.otok a0 b0, Abs.nodes m1 o1, Abs.otok a2 b2, Abs.otok a3 b3] xs)
    (hk : ∀ x0 x1 x2 x3, Abs.Has (Abs.otok a0 b0) (.otok x0) → Abs.Has (Abs.nodes m1 o1) (.nodes x1) → Abs.Has (Abs.otok a2 b2) (.otok x2) → Abs.Has (Abs.otok a3 b3) (.otok x3) → BldR.Safe g (k x0 x1 x2 x3) Q) : BldR.Safe g (withOLOO k xs) Q := by
  obtain ⟨_, _, rfl, h0, r0⟩ := hasL_cons h
  obtain ⟨x0, rfl, h0⟩ := has_otok h0
  obtain ⟨_, _, rfl, h1, r1⟩ := hasL_cons r0
  obtain ⟨x1, rfl, h1⟩ := has_nodes h1
  obtain ⟨_, _, rfl, h2, r2⟩ := hasL_cons r1
  obtain ⟨x2, rfl, h2⟩ := has_otok h2
  obtain ⟨_, _, rfl, h3, r3⟩ := hasL_cons r2
  obtain ⟨x3, rfl, h3⟩ := has_otok h3
  cases hasL_nil r3
  exact hk x0 x1 x2 x3 h0 h1 h2 h3
theorem withOP_safe {k : Option Token → Option Node → BldR Atom} {a0 : Bool} {b0 : Bool} {m1 : Kinds} {o1 : Bool} {xs : List Atom} (h : HasL [Abs.otok a0 b0, Abs.onode m1 o1] xs)
    (hk : ∀ x0 x1, Abs.Has (Abs.otok a0 b0) (.otok x0) → Abs.Has (Abs.onode m1 o1) (.onode x1) → BldR.Safe g (k x0 x1) Q) : BldR.Safe g (withOP k xs) Q := by
  obtain ⟨_, _, rfl, h0, r0⟩ := hasL_cons h
  obtain ⟨x0, rfl, h0⟩ := has_otok h0
  obtain ⟨_, _, rfl, h1, r1⟩ := hasL_cons r0
  obtain ⟨x1, rfl, h1⟩ := has_onode h1
  cases hasL_nil r1
  exact hk x0 x1 h0 h1
theorem withP_safe {k : Option Node → BldR Atom} {m0 : Kinds} {o0 : Bool} {xs : List Atom} (h : HasL [Abs.onode m0 o0] xs)
    (hk : ∀ x0, Abs.Has (Abs.onode m0 o0) (.onode x0) → BldR.Safe g (k x0) Q) : BldR.Safe g (withP k xs) Q := by
  obtain ⟨_, _, rfl, h0, r0⟩ := hasL_cons h
  obtain ⟨x0, rfl, h0⟩ := has_onode h0
  cases hasL_nil r0
  exact hk x0 h0
theorem withPLOP_safe {k : Option Node → List Node → Option Token → Option Node → BldR Atom} {m0 : Kinds} {o0 : Bool} {m1 : Kinds} {o1 : Bool} {a2 : Bool} {b2 : Bool} {m3 : Kinds} {o3 : Bool} {xs : List Atom} (h : HasL [Abs.onode m0 o0, Abs.nodes m1 o1, Abs.otok a2 b2, Abs.onode m3 o3] xs)
    (hk : ∀ x0 x1 x2 x3, Abs.Has (Abs.onode m0 o0) (.onode x0) → Abs.Has (Abs.nodes m1 o1) (.nodes x1) → Abs.Has (Abs.otok a2 b2) (.otok x2) → Abs.Has (Abs.onode m3 o3) (.onode x3) → BldR.Safe g (k x0 x1 x2 x3) Q) : BldR.Safe g (withPLOP k xs) Q := by
  obtain ⟨_, _, rfl, h0, r0⟩ := hasL_cons h
  obtain ⟨x0, rfl, h0⟩ := has_onode h0
  obtain ⟨_, _, rfl, h1, r1⟩ := hasL_cons r0
  obtain ⟨x1, rfl, h1⟩ := has_nodes h1
  obtain ⟨_, _, rfl, h2, r2⟩ := hasL_cons r1
  obtain ⟨x2, rfl, h2⟩ := has_otok h2
  obtain ⟨_, _, rfl, h3, r3⟩ := hasL_cons r2
  obtain ⟨x3, rfl, h3⟩ := has_onode h3
  cases hasL_nil r3
  exact hk x0 x1 x2 x3 h0 h1 h2 h3
theorem withPLTPOP_safe {k : Option Node → List Node → Token → Option Node → Option Token → Option Node → BldR Atom} {m0 : Kinds} {o0 : Bool} {m1 : Kinds} {o1 : Bool} {m3 : Kinds} {o3 : Bool} {a4 : Bool} {b4 : Bool} {m5 : Kinds} {o5 : Bool} {xs : List Atom} (h : HasL [Abs.onode m0 o0, Abs.nodes m1 o1, Abs.tok, Abs.onode m3 o3, Abs.otok a4 b4, Abs.onode m5 o5] xs)
    (hk : ∀ x0 x1 x2 x3 x4 x5, Abs.Has (Abs.onode m0 o0) (.onode x0) → Abs.Has (Abs.nodes m1 o1) (.nodes x1) → Abs.Has (Abs.onode m3 o3) (.onode x3) → Abs.Has (Abs.otok a4 b4) (.otok x4) → Abs.Has (Abs.onode m5 o5) (.onode x5) → BldR.Safe g (k x0 x1 x2 x3 x4 x5) Q) : BldR.Safe g (withPLTPOP k xs) Q := by
  obtain ⟨_, _, rfl, h0, r0⟩ := hasL_cons h
  obtain ⟨x0, rfl, h0⟩ := has_onode h0
  obtain ⟨_, _, rfl, h1, r1⟩ := hasL_cons r0
  obtain ⟨x1, rfl, h1⟩ := has_nodes h1
  obtain ⟨_, _, rfl, h2, r2⟩ := hasL_cons r1
  obtain ⟨x2, rfl, h2⟩ := has_tok h2
  obtain ⟨_, _, rfl, h3, r3⟩ := hasL_cons r2
  obtain ⟨x3, rfl, h3⟩ := has_onode h3
  obtain ⟨_, _, rfl, h4, r4⟩ := hasL_cons r3
  obtain ⟨x4, rfl, h4⟩ := has_otok h4
  obtain ⟨_, _, rfl, h5, r5⟩ := hasL_cons r4
  obtain ⟨x5, rfl, h5⟩ := has_onode h5
  cases hasL_nil r5
  exact hk x0 x1 x2 x3 x4 x5 h0 h1 h3 h4 h5
theorem withPTP_safe {k : Option Node → Token → Option Node → BldR Atom} {m0 : Kinds} {o0 : Bool} {m2 : Kinds} {o2 : Bool} {xs : List Atom} (h : HasL [Abs.onode m0 o0, Abs.tok, Abs.onode m2 o2] xs)
    (hk : ∀ x0 x1 x2, Abs.Has (Abs.onode m0 o0) (.onode x0) → Abs.Has (Abs.onode m2 o2) (.onode x2) → BldR.Safe g (k x0 x1 x2) Q) : BldR.Safe g (withPTP k xs) Q := by
  obtain ⟨_, _, rfl, h0, r0⟩ := hasL_cons h
  obtain ⟨x0, rfl, h0⟩ := has_onode h0
  obtain ⟨_, _, rfl, h1, r1⟩ := hasL_cons r0
  obtain ⟨x1, rfl, h1⟩ := has_tok h1
  obtain ⟨_, _, rfl, h2, r2⟩ := hasL_cons r1
  obtain ⟨x2, rfl, h2⟩ := has_onode h2
  cases hasL_nil r2
  exact hk x0 x1 x2 h0 h2
theorem withT_safe {k : Token → BldR Atom}  {xs : List Atom} (h : HasL [Abs.tok] xs)
    (hk : ∀ x0, BldR.Safe g (k x0) Q) : BldR.Safe g (withT k xs) Q := by
  obtain ⟨_, _, rfl, h0, r0⟩ := hasL_cons h
  obtain ⟨x0, rfl, h0⟩ := has_tok h0
  cases hasL_nil r0
  exact hk x0
theorem withTATPT_safe {k : Token → ArgsType → Token → Option Node → Token → BldR Atom} {m1 : Kinds} {m3 : Kinds} {o3 : Bool} {xs : List Atom} (h : HasL [Abs.tok, Abs.args m1, Abs.tok, Abs.onode m3 o3, Abs.tok] xs)
    (hk : ∀ x0 x1 x2 x3 x4, Abs.Has (Abs.args m1) (.args x1) → Abs.Has (Abs.onode m3 o3) (.onode x3) → BldR.Safe g (k x0 x1 x2 x3 x4) Q) : BldR.Safe g (withTATPT k xs) Q := by
  obtain ⟨_, _, rfl, h0, r0⟩ := hasL_cons h
  obtain ⟨x0, rfl, h0⟩ := has_tok h0
  obtain ⟨_, _, rfl, h1, r1⟩ := hasL_cons r0
  obtain ⟨x1, rfl, h1⟩ := has_args h1
  obtain ⟨_, _, rfl, h2, r2⟩ := hasL_cons r1
  obtain ⟨x2, rfl, h2⟩ := has_tok h2
  obtain ⟨_, _, rfl, h3, r3⟩ := hasL_cons r2
  obtain ⟨x3, rfl, h3⟩ := has_onode h3
  obtain ⟨_, _, rfl, h4, r4⟩ := hasL_cons r3
  obtain ⟨x4, rfl, h4⟩ := has_tok h4
  cases hasL_nil r4
  exact hk x0 x1 x2 x3 x4 h1 h3
theorem withTL_safe {k : Token → List Node → BldR Atom} {m1 : Kinds} {o1 : Bool} {xs : List Atom} (h : HasL [Abs.tok, Abs.nodes m1 o1] xs)
    (hk : ∀ x0 x1, Abs.Has (Abs.nodes m1 o1) (.nodes x1) → BldR.Safe g (k x0 x1) Q) : BldR.Safe g (withTL k xs) Q := by
  obtain ⟨_, _, rfl, h0, r0⟩ := hasL_cons h
  obtain ⟨x0, rfl, h0⟩ := has_tok h0
  obtain ⟨_, _, rfl, h1, r1⟩ := hasL_cons r0
  obtain ⟨x1, rfl, h1⟩ := has_nodes h1
  cases hasL_nil r1
  exact hk x0 x1 h1
theorem withTLETP_safe {k : Token → List Node → (Option Token × Option Node) → Token → Option Node → BldR Atom} {m1 : Kinds} {o1 : Bool} {m2 : Kinds} {m4 : Kinds} {o4 : Bool} {xs : List Atom} (h : HasL [Abs.tok, Abs.nodes m1 o1, Abs.exc m2, Abs.tok, Abs.onode m4 o4] xs)
    (hk : ∀ x0 x1 x2 x3 x4, Abs.Has (Abs.nodes m1 o1) (.nodes x1) → Abs.Has (Abs.exc m2) (.exc x2) → Abs.Has (Abs.onode m4 o4) (.onode x4) → BldR.Safe g (k x0 x1 x2 x3 x4) Q) : BldR.Safe g (withTLETP k xs) Q := by
  obtain ⟨_, _, rfl, h0, r0⟩ := hasL_cons h
  obtain ⟨x0, rfl, h0⟩ := has_tok h0
  obtain ⟨_, _, rfl, h1, r1⟩ := hasL_cons r0
  obtain ⟨x1, rfl, h1⟩ := has_nodes h1
  obtain ⟨_, _, rfl, h2, r2⟩ := hasL_cons r1
  obtain ⟨x2, rfl, h2⟩ := has_exc h2
  obtain ⟨_, _, rfl, h3, r3⟩ := hasL_cons r2
  obtain ⟨x3, rfl, h3⟩ := has_tok h3
  obtain ⟨_, _, rfl, h4, r4⟩ := hasL_cons r3
  obtain ⟨x4, rfl, h4⟩ := has_onode h4
  cases hasL_nil r4
  exact hk x0 x1 x2 x3 x4 h1 h2 h4
theorem withTLT_safe {k : Token → List Node → Token → BldR Atom} {m1 : Kinds} {o1 : Bool} {xs : List Atom} (h : HasL [Abs.tok, Abs.nodes m1 o1, Abs.tok] xs)
    (hk : ∀ x0 x1 x2, Abs.Has (Abs.nodes m1 o1) (.nodes x1) → BldR.Safe g (k x0 x1 x2) Q) : BldR.Safe g (withTLT k xs) Q := by
  obtain ⟨_, _, rfl, h0, r0⟩ := hasL_cons h
  obtain ⟨x0, rfl, h0⟩ := has_tok h0
  obtain ⟨_, _, rfl, h1, r1⟩ := hasL_cons r0
  obtain ⟨x1, rfl, h1⟩ := has_nodes h1
  obtain ⟨_, _, rfl, h2, r2⟩ := hasL_cons r1
  obtain ⟨x2, rfl, h2⟩ := has_tok h2
  cases hasL_nil r2
  exact hk x0 x1 x2 h1
theorem withTLTN_safe {k : Token → List Node → Token → Node → BldR Atom} {m1 : Kinds} {o1 : Bool} {m3 : Kinds} {xs : List Atom} (h : HasL [Abs.tok, Abs.nodes m1 o1, Abs.tok, Abs.node m3] xs)
    (hk : ∀ x0 x1 x2 x3, Abs.Has (Abs.nodes m1 o1) (.nodes x1) → Abs.Has (Abs.node m3) (.node x3) → BldR.Safe g (k x0 x1 x2 x3) Q) : BldR.Safe g (withTLTN k xs) Q := by
  obtain ⟨_, _, rfl, h0, r0⟩ := hasL_cons h
  obtain ⟨x0, rfl, h0⟩ := has_tok h0
  obtain ⟨_, _, rfl, h1, r1⟩ := hasL_cons r0
  obtain ⟨x1, rfl, h1⟩ := has_nodes h1
  obtain ⟨_, _, rfl, h2, r2⟩ := hasL_cons r1
  obtain ⟨x2, rfl, h2⟩ := has_tok h2
  obtain ⟨_, _, rfl, h3, r3⟩ := hasL_cons r2
  obtain ⟨x3, rfl, h3⟩ := has_node h3
  cases hasL_nil r3
  exact hk x0 x1 x2 x3 h1 h3
theorem withTLTP_safe {k : Token → List Node → Token → Option Node → BldR Atom} {m1 : Kinds} {o1 : Bool} {m3 : Kinds} {o3 : Bool} {xs : List Atom} (h : HasL [Abs.tok, Abs.nodes m1 o1, Abs.tok, Abs.onode m3 o3] xs)
    (hk : ∀ x0 x1 x2 x3, Abs.Has (Abs.nodes m1 o1) (.nodes x1) → Abs.Has (Abs.onode m3 o3) (.onode x3) → BldR.Safe g (k x0 x1 x2 x3) Q) : BldR.Safe g (withTLTP k xs) Q := by
  obtain ⟨_, _, rfl, h0, r0⟩ := hasL_cons h
  obtain ⟨x0, rfl, h0⟩ := has_tok h0
  obtain ⟨_, _, rfl, h1, r1⟩ := hasL_cons r0
  obtain ⟨x1, rfl, h1⟩ := has_nodes h1
  obtain ⟨_, _, rfl, h2, r2⟩ := hasL_cons r1
  obtain ⟨x2, rfl, h2⟩ := has_tok h2
  obtain ⟨_, _, rfl, h3, r3⟩ := hasL_cons r2
  obtain ⟨x3, rfl, h3⟩ := has_onode h3
  cases hasL_nil r3
  exact hk x0 x1 x2 x3 h1 h3
theorem withTN_safe {k : Token → Node → BldR Atom} {m1 : Kinds} {xs : List Atom} (h : HasL [Abs.tok, Abs.node m1] xs)
    (hk : ∀ x0 x1, Abs.Has (Abs.node m1) (.node x1) → BldR.Safe g (k x0 x1) Q) : BldR.Safe g (withTN k xs) Q := by
  obtain ⟨_, _, rfl, h0, r0⟩ := hasL_cons h
  obtain ⟨x0, rfl, h0⟩ := has_tok h0
  obtain ⟨_, _, rfl, h1, r1⟩ := hasL_cons r0
  obtain ⟨x1, rfl, h1⟩ := has_node h1
  cases hasL_nil r1
  exact hk x0 x1 h1
theorem withTNLOPT_safe {k : Token → Node → List Node → Option Token → Option Node → Token → BldR Atom} {m1 : Kinds} {m2 : Kinds} {o2 : Bool} {a3 : Bool} {b3 : Bool} {m4 : Kinds} {o4 : Bool} {xs : List Atom} (h : HasL [Abs.tok, Abs.node m1, Abs.nodes m2 o2, Abs.otok a3 b3, Abs.onode m4 o4, Abs.tok] xs)
    (hk : ∀ x0 x1 x2 x3 x4 x5, Abs.Has (Abs.node m1) (.node x1) → Abs.Has (Abs.nodes m2 o2) (.nodes x2) → Abs.Has (Abs.otok a3 b3) (.otok x3) → Abs.Has (Abs.onode m4 o4) (.onode x4) → BldR.Safe g (k x0 x1 x2 x3 x4 x5) Q) : BldR.Safe g (withTNLOPT k xs) Q := by
  obtain ⟨_, _, rfl, h0, r0⟩ := hasL_cons h
  obtain ⟨x0, rfl, h0⟩ := has_tok h0
  obtain ⟨_, _, rfl, h1, r1⟩ := hasL_cons r0
  obtain ⟨x1, rfl, h1⟩ := has_node h1
  obtain ⟨_, _, rfl, h2, r2⟩ := hasL_cons r1
  obtain ⟨x2, rfl, h2⟩ := has_nodes h2
  obtain ⟨_, _, rfl, h3, r3⟩ := hasL_cons r2
  obtain ⟨x3, rfl, h3⟩ := has_otok h3
  obtain ⟨_, _, rfl, h4, r4⟩ := hasL_cons r3
  obtain ⟨x4, rfl, h4⟩ := has_onode h4
  obtain ⟨_, _, rfl, h5, r5⟩ := hasL_cons r4
  obtain ⟨x5, rfl, h5⟩ := has_tok h5
  cases hasL_nil r5
  exact hk x0 x1 x2 x3 x4 x5 h1 h2 h3 h4
theorem withTNN_safe {k : Token → Node → Node → BldR Atom} {m1 : Kinds} {m2 : Kinds} {xs : List Atom} (h : HasL [Abs.tok, Abs.node m1, Abs.node m2] xs)
    (hk : ∀ x0 x1 x2, Abs.Has (Abs.node m1) (.node x1) → Abs.Has (Abs.node m2) (.node x2) → BldR.Safe g (k x0 x1 x2) Q) : BldR.Safe g (withTNN k xs) Q := by
  obtain ⟨_, _, rfl, h0, r0⟩ := hasL_cons h
  obtain ⟨x0, rfl, h0⟩ := has_tok h0
  obtain ⟨_, _, rfl, h1, r1⟩ := hasL_cons r0
  obtain ⟨x1, rfl, h1⟩ := has_node h1
  obtain ⟨_, _, rfl, h2, r2⟩ := hasL_cons r1
  obtain ⟨x2, rfl, h2⟩ := has_node h2
  cases hasL_nil r2
  exact hk x0 x1 x2 h1 h2
theorem withTNOPPT_safe {k : Token → Node → Option Token → Option Node → Option Node → Token → BldR Atom} {m1 : Kinds} {a2 : Bool} {b2 : Bool} {m3 : Kinds} {o3 : Bool} {m4 : Kinds} {o4 : Bool} {xs : List Atom} (h : HasL [Abs.tok, Abs.node m1, Abs.otok a2 b2, Abs.onode m3 o3, Abs.onode m4 o4, Abs.tok] xs)
    (hk : ∀ x0 x1 x2 x3 x4 x5, Abs.Has (Abs.node m1) (.node x1) → Abs.Has (Abs.otok a2 b2) (.otok x2) → Abs.Has (Abs.onode m3 o3) (.onode x3) → Abs.Has (Abs.onode m4 o4) (.onode x4) → BldR.Safe g (k x0 x1 x2 x3 x4 x5) Q) : BldR.Safe g (withTNOPPT k xs) Q := by
  obtain ⟨_, _, rfl, h0, r0⟩ := hasL_cons h
  obtain ⟨x0, rfl, h0⟩ := has_tok h0
  obtain ⟨_, _, rfl, h1, r1⟩ := hasL_cons r0
  obtain ⟨x1, rfl, h1⟩ := has_node h1
  obtain ⟨_, _, rfl, h2, r2⟩ := hasL_cons r1
  obtain ⟨x2, rfl, h2⟩ := has_otok h2
  obtain ⟨_, _, rfl, h3, r3⟩ := hasL_cons r2
  obtain ⟨x3, rfl, h3⟩ := has_onode h3
  obtain ⟨_, _, rfl, h4, r4⟩ := hasL_cons r3
  obtain ⟨x4, rfl, h4⟩ := has_onode h4
  obtain ⟨_, _, rfl, h5, r5⟩ := hasL_cons r4
  obtain ⟨x5, rfl, h5⟩ := has_tok h5
  cases hasL_nil r5
  exact hk x0 x1 x2 x3 x4 x5 h1 h2 h3 h4
theorem withTNPT_safe {k : Token → Node → Option Node → Token → BldR Atom} {m1 : Kinds} {m2 : Kinds} {o2 : Bool} {xs : List Atom} (h : HasL [Abs.tok, Abs.node m1, Abs.onode m2 o2, Abs.tok] xs)
    (hk : ∀ x0 x1 x2 x3, Abs.Has (Abs.node m1) (.node x1) → Abs.Has (Abs.onode m2 o2) (.onode x2) → BldR.Safe g (k x0 x1 x2 x3) Q) : BldR.Safe g (withTNPT k xs) Q := by
  obtain ⟨_, _, rfl, h0, r0⟩ := hasL_cons h
  obtain ⟨x0, rfl, h0⟩ := has_tok h0
  obtain ⟨_, _, rfl, h1, r1⟩ := hasL_cons r0
  obtain ⟨x1, rfl, h1⟩ := has_node h1
  obtain ⟨_, _, rfl, h2, r2⟩ := hasL_cons r1
  obtain ⟨x2, rfl, h2⟩ := has_onode h2
  obtain ⟨_, _, rfl, h3, r3⟩ := hasL_cons r2
  obtain ⟨x3, rfl, h3⟩ := has_tok h3
  cases hasL_nil r3
  exact hk x0 x1 x2 x3 h1 h2
theorem withTNPTP_safe {k : Token → Node → Option Node → Token → Option Node → BldR Atom} {m1 : Kinds} {m2 : Kinds} {o2 : Bool} {m4 : Kinds} {o4 : Bool} {xs : List Atom} (h : HasL [Abs.tok, Abs.node m1, Abs.onode m2 o2, Abs.tok, Abs.onode m4 o4] xs)
    (hk : ∀ x0 x1 x2 x3 x4, Abs.Has (Abs.node m1) (.node x1) → Abs.Has (Abs.onode m2 o2) (.onode x2) → Abs.Has (Abs.onode m4 o4) (.onode x4) → BldR.Safe g (k x0 x1 x2 x3 x4) Q) : BldR.Safe g (withTNPTP k xs) Q := by
  obtain ⟨_, _, rfl, h0, r0⟩ := hasL_cons h
  obtain ⟨x0, rfl, h0⟩ := has_tok h0
  obtain ⟨_, _, rfl, h1, r1⟩ := hasL_cons r0
  obtain ⟨x1, rfl, h1⟩ := has_node h1
  obtain ⟨_, _, rfl, h2, r2⟩ := hasL_cons r1
  obtain ⟨x2, rfl, h2⟩ := has_onode h2
  obtain ⟨_, _, rfl, h3, r3⟩ := hasL_cons r2
  obtain ⟨x3, rfl, h3⟩ := has_tok h3
  obtain ⟨_, _, rfl, h4, r4⟩ := hasL_cons r3
  obtain ⟨x4, rfl, h4⟩ := has_onode h4
  cases hasL_nil r4
  exact hk x0 x1 x2 x3 x4 h1 h2 h4
theorem withTNT_safe {k : Token → Node → Token → BldR Atom} {m1 : Kinds} {xs : List Atom} (h : HasL [Abs.tok, Abs.node m1, Abs.tok] xs)
    (hk : ∀ x0 x1 x2, Abs.Has (Abs.node m1) (.node x1) → BldR.Safe g (k x0 x1 x2) Q) : BldR.Safe g (withTNT k xs) Q := by
  obtain ⟨_, _, rfl, h0, r0⟩ := hasL_cons h
  obtain ⟨x0, rfl, h0⟩ := has_tok h0
  obtain ⟨_, _, rfl, h1, r1⟩ := hasL_cons r0
  obtain ⟨x1, rfl, h1⟩ := has_node h1
  obtain ⟨_, _, rfl, h2, r2⟩ := hasL_cons r1
  obtain ⟨x2, rfl, h2⟩ := has_tok h2
  cases hasL_nil r2
  exact hk x0 x1 x2 h1
theorem withTNTNTPT_safe {k : Token → Node → Token → Node → Token → Option Node → Token → BldR Atom} {m1 : Kinds} {m3 : Kinds} {m5 : Kinds} {o5 : Bool} {xs : List Atom} (h : HasL [Abs.tok, Abs.node m1, Abs.tok, Abs.node m3, Abs.tok, Abs.onode m5 o5, Abs.tok] xs)
    (hk : ∀ x0 x1 x2 x3 x4 x5 x6, Abs.Has (Abs.node m1) (.node x1) → Abs.Has (Abs.node m3) (.node x3) → Abs.Has (Abs.onode m5 o5) (.onode x5) → BldR.Safe g (k x0 x1 x2 x3 x4 x5 x6) Q) : BldR.Safe g (withTNTNTPT k xs) Q := by
  obtain ⟨_, _, rfl, h0, r0⟩ := hasL_cons h
  obtain ⟨x0, rfl, h0⟩ := has_tok h0
  obtain ⟨_, _, rfl, h1, r1⟩ := hasL_cons r0
  obtain ⟨x1, rfl, h1⟩ := has_node h1
  obtain ⟨_, _, rfl, h2, r2⟩ := hasL_cons r1
  obtain ⟨x2, rfl, h2⟩ := has_tok h2
  obtain ⟨_, _, rfl, h3, r3⟩ := hasL_cons r2
  obtain ⟨x3, rfl, h3⟩ := has_node h3
  obtain ⟨_, _, rfl, h4, r4⟩ := hasL_cons r3
  obtain ⟨x4, rfl, h4⟩ := has_tok h4
  obtain ⟨_, _, rfl, h5, r5⟩ := hasL_cons r4
  obtain ⟨x5, rfl, h5⟩ := has_onode h5
  obtain ⟨_, _, rfl, h6, r6⟩ := hasL_cons r5
  obtain ⟨x6, rfl, h6⟩ := has_tok h6
  cases hasL_nil r6
  exact hk x0 x1 x2 x3 x4 x5 x6 h1 h3 h5
theorem withTNTPI_safe {k : Token → Node → Token → Option Node → (Option Token × Option Node) → BldR Atom} {m1 : Kinds} {m3 : Kinds} {o3 : Bool} {m4 : Kinds} {xs : List Atom} (h : HasL [Abs.tok, Abs.node m1, Abs.tok, Abs.onode m3 o3, Abs.tail m4] xs)
    (hk : ∀ x0 x1 x2 x3 x4, Abs.Has (Abs.node m1) (.node x1) → Abs.Has (Abs.onode m3 o3) (.onode x3) → Abs.Has (Abs.tail m4) (.tail x4) → BldR.Safe g (k x0 x1 x2 x3 x4) Q) : BldR.Safe g (withTNTPI k xs) Q := by
  obtain ⟨_, _, rfl, h0, r0⟩ := hasL_cons h
  obtain ⟨x0, rfl, h0⟩ := has_tok h0
  obtain ⟨_, _, rfl, h1, r1⟩ := hasL_cons r0
  obtain ⟨x1, rfl, h1⟩ := has_node h1
  obtain ⟨_, _, rfl, h2, r2⟩ := hasL_cons r1
  obtain ⟨x2, rfl, h2⟩ := has_tok h2
  obtain ⟨_, _, rfl, h3, r3⟩ := hasL_cons r2
  obtain ⟨x3, rfl, h3⟩ := has_onode h3
  obtain ⟨_, _, rfl, h4, r4⟩ := hasL_cons r3
  obtain ⟨x4, rfl, h4⟩ := has_tail h4
  cases hasL_nil r4
  exact hk x0 x1 x2 x3 x4 h1 h3 h4
theorem withTNTPIT_safe {k : Token → Node → Token → Option Node → (Option Token × Option Node) → Token → BldR Atom} {m1 : Kinds} {m3 : Kinds} {o3 : Bool} {m4 : Kinds} {xs : List Atom} (h : HasL [Abs.tok, Abs.node m1, Abs.tok, Abs.onode m3 o3, Abs.tail m4, Abs.tok] xs)
    (hk : ∀ x0 x1 x2 x3 x4 x5, Abs.Has (Abs.node m1) (.node x1) → Abs.Has (Abs.onode m3 o3) (.onode x3) → Abs.Has (Abs.tail m4) (.tail x4) → BldR.Safe g (k x0 x1 x2 x3 x4 x5) Q) : BldR.Safe g (withTNTPIT k xs) Q := by
  obtain ⟨_, _, rfl, h0, r0⟩ := hasL_cons h
  obtain ⟨x0, rfl, h0⟩ := has_tok h0
  obtain ⟨_, _, rfl, h1, r1⟩ := hasL_cons r0
  obtain ⟨x1, rfl, h1⟩ := has_node h1
  obtain ⟨_, _, rfl, h2, r2⟩ := hasL_cons r1
  obtain ⟨x2, rfl, h2⟩ := has_tok h2
  obtain ⟨_, _, rfl, h3, r3⟩ := hasL_cons r2
  obtain ⟨x3, rfl, h3⟩ := has_onode h3
  obtain ⟨_, _, rfl, h4, r4⟩ := hasL_cons r3
  obtain ⟨x4, rfl, h4⟩ := has_tail h4
  obtain ⟨_, _, rfl, h5, r5⟩ := hasL_cons r4
  obtain ⟨x5, rfl, h5⟩ := has_tok h5
  cases hasL_nil r5
  exact hk x0 x1 x2 x3 x4 x5 h1 h3 h4
theorem withTNTPOPT_safe {k : Token → Node → Token → Option Node → Option Token → Option Node → Token → BldR Atom} {m1 : Kinds} {m3 : Kinds} {o3 : Bool} {a4 : Bool} {b4 : Bool} {m5 : Kinds} {o5 : Bool} {xs : List Atom} (h : HasL [Abs.tok, Abs.node m1, Abs.tok, Abs.onode m3 o3, Abs.otok a4 b4, Abs.onode m5 o5, Abs.tok] xs)
    (hk : ∀ x0 x1 x2 x3 x4 x5 x6, Abs.Has (Abs.node m1) (.node x1) → Abs.Has (Abs.onode m3 o3) (.onode x3) → Abs.Has (Abs.otok a4 b4) (.otok x4) → Abs.Has (Abs.onode m5 o5) (.onode x5) → BldR.Safe g (k x0 x1 x2 x3 x4 x5 x6) Q) : BldR.Safe g (withTNTPOPT k xs) Q := by
  obtain ⟨_, _, rfl, h0, r0⟩ := hasL_cons h
  obtain ⟨x0, rfl, h0⟩ := has_tok h0
  obtain ⟨_, _, rfl, h1, r1⟩ := hasL_cons r0
  obtain ⟨x1, rfl, h1⟩ := has_node h1
  obtain ⟨_, _, rfl, h2, r2⟩ := hasL_cons r1
  obtain ⟨x2, rfl, h2⟩ := has_tok h2
  obtain ⟨_, _, rfl, h3, r3⟩ := hasL_cons r2
  obtain ⟨x3, rfl, h3⟩ := has_onode h3
  obtain ⟨_, _, rfl, h4, r4⟩ := hasL_cons r3
  obtain ⟨x4, rfl, h4⟩ := has_otok h4
  obtain ⟨_, _, rfl, h5, r5⟩ := hasL_cons r4
  obtain ⟨x5, rfl, h5⟩ := has_onode h5
  obtain ⟨_, _, rfl, h6, r6⟩ := hasL_cons r5
  obtain ⟨x6, rfl, h6⟩ := has_tok h6
  cases hasL_nil r6
  exact hk x0 x1 x2 x3 x4 x5 x6 h1 h3 h4 h5
theorem withTNTPT_safe {k : Token → Node → Token → Option Node → Token → BldR Atom} {m1 : Kinds} {m3 : Kinds} {o3 : Bool} {xs : List Atom} (h : HasL [Abs.tok, Abs.node m1, Abs.tok, Abs.onode m3 o3, Abs.tok] xs)
    (hk : ∀ x0 x1 x2 x3 x4, Abs.Has (Abs.node m1) (.node x1) → Abs.Has (Abs.onode m3 o3) (.onode x3) → BldR.Safe g (k x0 x1 x2 x3 x4) Q) : BldR.Safe g (withTNTPT k xs) Q := by
  obtain ⟨_, _, rfl, h0, r0⟩ := hasL_cons h
  obtain ⟨x0, rfl, h0⟩ := has_tok h0
  obtain ⟨_, _, rfl, h1, r1⟩ := hasL_cons r0
  obtain ⟨x1, rfl, h1⟩ := has_node h1
  obtain ⟨_, _, rfl, h2, r2⟩ := hasL_cons r1
  obtain ⟨x2, rfl, h2⟩ := has_tok h2
  obtain ⟨_, _, rfl, h3, r3⟩ := hasL_cons r2
  obtain ⟨x3, rfl, h3⟩ := has_onode h3
  obtain ⟨_, _, rfl, h4, r4⟩ := hasL_cons r3
  obtain ⟨x4, rfl, h4⟩ := has_tok h4
  cases hasL_nil r4
  exact hk x0 x1 x2 x3 x4 h1 h3
theorem withTNTTPPT_safe {k : Token → Node → Token → Token → Option Node → Option Node → Token → BldR Atom} {m1 : Kinds} {m4 : Kinds} {o4 : Bool} {m5 : Kinds} {o5 : Bool} {xs : List Atom} (h : HasL [Abs.tok, Abs.node m1, Abs.tok, Abs.tok, Abs.onode m4 o4, Abs.onode m5 o5, Abs.tok] xs)
    (hk : ∀ x0 x1 x2 x3 x4 x5 x6, Abs.Has (Abs.node m1) (.node x1) → Abs.Has (Abs.onode m4 o4) (.onode x4) → Abs.Has (Abs.onode m5 o5) (.onode x5) → BldR.Safe g (k x0 x1 x2 x3 x4 x5 x6) Q) : BldR.Safe g (withTNTTPPT k xs) Q := by
  obtain ⟨_, _, rfl, h0, r0⟩ := hasL_cons h
  obtain ⟨x0, rfl, h0⟩ := has_tok h0
  obtain ⟨_, _, rfl, h1, r1⟩ := hasL_cons r0
  obtain ⟨x1, rfl, h1⟩ := has_node h1
  obtain ⟨_, _, rfl, h2, r2⟩ := hasL_cons r1
  obtain ⟨x2, rfl, h2⟩ := has_tok h2
  obtain ⟨_, _, rfl, h3, r3⟩ := hasL_cons r2
  obtain ⟨x3, rfl, h3⟩ := has_tok h3
  obtain ⟨_, _, rfl, h4, r4⟩ := hasL_cons r3
  obtain ⟨x4, rfl, h4⟩ := has_onode h4
  obtain ⟨_, _, rfl, h5, r5⟩ := hasL_cons r4
  obtain ⟨x5, rfl, h5⟩ := has_onode h5
  obtain ⟨_, _, rfl, h6, r6⟩ := hasL_cons r5
  obtain ⟨x6, rfl, h6⟩ := has_tok h6
  cases hasL_nil r6
  exact hk x0 x1 x2 x3 x4 x5 x6 h1 h4 h5
theorem withTNTTPTP_safe {k : Token → Node → Token → Token → Option Node → Token → Option Node → BldR Atom} {m1 : Kinds} {m4 : Kinds} {o4 : Bool} {m6 : Kinds} {o6 : Bool} {xs : List Atom} (h : HasL [Abs.tok, Abs.node m1, Abs.tok, Abs.tok, Abs.onode m4 o4, Abs.tok, Abs.onode m6 o6] xs)
    (hk : ∀ x0 x1 x2 x3 x4 x5 x6, Abs.Has (Abs.node m1) (.node x1) → Abs.Has (Abs.onode m4 o4) (.onode x4) → Abs.Has (Abs.onode m6 o6) (.onode x6) → BldR.Safe g (k x0 x1 x2 x3 x4 x5 x6) Q) : BldR.Safe g (withTNTTPTP k xs) Q := by
  obtain ⟨_, _, rfl, h0, r0⟩ := hasL_cons h
  obtain ⟨x0, rfl, h0⟩ := has_tok h0
  obtain ⟨_, _, rfl, h1, r1⟩ := hasL_cons r0
  obtain ⟨x1, rfl, h1⟩ := has_node h1
  obtain ⟨_, _, rfl, h2, r2⟩ := hasL_cons r1
  obtain ⟨x2, rfl, h2⟩ := has_tok h2
  obtain ⟨_, _, rfl, h3, r3⟩ := hasL_cons r2
  obtain ⟨x3, rfl, h3⟩ := has_tok h3
  obtain ⟨_, _, rfl, h4, r4⟩ := hasL_cons r3
  obtain ⟨x4, rfl, h4⟩ := has_onode h4
  obtain ⟨_, _, rfl, h5, r5⟩ := hasL_cons r4
  obtain ⟨x5, rfl, h5⟩ := has_tok h5
  obtain ⟨_, _, rfl, h6, r6⟩ := hasL_cons r5
  obtain ⟨x6, rfl, h6⟩ := has_onode h6
  cases hasL_nil r6
  exact hk x0 x1 x2 x3 x4 x5 x6 h1 h4 h6
theorem withTO_safe {k : Token → Option Token → BldR Atom} {a1 : Bool} {b1 : Bool} {xs : List Atom} (h : HasL [Abs.tok, Abs.otok a1 b1] xs)
    (hk : ∀ x0 x1, Abs.Has (Abs.otok a1 b1) (.otok x1) → BldR.Safe g (k x0 x1) Q) : BldR.Safe g (withTO k xs) Q := by
  obtain ⟨_, _, rfl, h0, r0⟩ := hasL_cons h
  obtain ⟨x0, rfl, h0⟩ := has_tok h0
  obtain ⟨_, _, rfl, h1, r1⟩ := hasL_cons r0
  obtain ⟨x1, rfl, h1⟩ := has_otok h1
  cases hasL_nil r1
  exact hk x0 x1 h1
theorem withTP_safe {k : Token → Option Node → BldR Atom} {m1 : Kinds} {o1 : Bool} {xs : List Atom} (h : HasL [Abs.tok, Abs.onode m1 o1] xs)
    (hk : ∀ x0 x1, Abs.Has (Abs.onode m1 o1) (.onode x1) → BldR.Safe g (k x0 x1) Q) : BldR.Safe g (withTP k xs) Q := by
  obtain ⟨_, _, rfl, h0, r0⟩ := hasL_cons h
  obtain ⟨x0, rfl, h0⟩ := has_tok h0
  obtain ⟨_, _, rfl, h1, r1⟩ := hasL_cons r0
  obtain ⟨x1, rfl, h1⟩ := has_onode h1
  cases hasL_nil r1
  exact hk x0 x1 h1
theorem withTPLOPT_safe {k : Token → Option Node → List Node → Option Token → Option Node → Token → BldR Atom} {m1 : Kinds} {o1 : Bool} {m2 : Kinds} {o2 : Bool} {a3 : Bool} {b3 : Bool} {m4 : Kinds} {o4 : Bool} {xs : List Atom} (h : HasL [Abs.tok, Abs.onode m1 o1, Abs.nodes m2 o2, Abs.otok a3 b3, Abs.onode m4 o4, Abs.tok] xs)
    (hk : ∀ x0 x1 x2 x3 x4 x5, Abs.Has (Abs.onode m1 o1) (.onode x1) → Abs.Has (Abs.nodes m2 o2) (.nodes x2) → Abs.Has (Abs.otok a3 b3) (.otok x3) → Abs.Has (Abs.onode m4 o4) (.onode x4) → BldR.Safe g (k x0 x1 x2 x3 x4 x5) Q) : BldR.Safe g (withTPLOPT k xs) Q := by
  obtain ⟨_, _, rfl, h0, r0⟩ := hasL_cons h
  obtain ⟨x0, rfl, h0⟩ := has_tok h0
  obtain ⟨_, _, rfl, h1, r1⟩ := hasL_cons r0
  obtain ⟨x1, rfl, h1⟩ := has_onode h1
  obtain ⟨_, _, rfl, h2, r2⟩ := hasL_cons r1
  obtain ⟨x2, rfl, h2⟩ := has_nodes h2
  obtain ⟨_, _, rfl, h3, r3⟩ := hasL_cons r2
  obtain ⟨x3, rfl, h3⟩ := has_otok h3
  obtain ⟨_, _, rfl, h4, r4⟩ := hasL_cons r3
  obtain ⟨x4, rfl, h4⟩ := has_onode h4
  obtain ⟨_, _, rfl, h5, r5⟩ := hasL_cons r4
  obtain ⟨x5, rfl, h5⟩ := has_tok h5
  cases hasL_nil r5
  exact hk x0 x1 x2 x3 x4 x5 h1 h2 h3 h4
theorem withTPT_safe {k : Token → Option Node → Token → BldR Atom} {m1 : Kinds} {o1 : Bool} {xs : List Atom} (h : HasL [Abs.tok, Abs.onode m1 o1, Abs.tok] xs)
    (hk : ∀ x0 x1 x2, Abs.Has (Abs.onode m1 o1) (.onode x1) → BldR.Safe g (k x0 x1 x2) Q) : BldR.Safe g (withTPT k xs) Q := by
  obtain ⟨_, _, rfl, h0, r0⟩ := hasL_cons h
  obtain ⟨x0, rfl, h0⟩ := has_tok h0
  obtain ⟨_, _, rfl, h1, r1⟩ := hasL_cons r0
  obtain ⟨x1, rfl, h1⟩ := has_onode h1
  obtain ⟨_, _, rfl, h2, r2⟩ := hasL_cons r1
  obtain ⟨x2, rfl, h2⟩ := has_tok h2
  cases hasL_nil r2
  exact hk x0 x1 x2 h1
theorem withTT_safe {k : Token → Token → BldR Atom}  {xs : List Atom} (h : HasL [Abs.tok, Abs.tok] xs)
    (hk : ∀ x0 x1, BldR.Safe g (k x0 x1) Q) : BldR.Safe g (withTT k xs) Q := by
  obtain ⟨_, _, rfl, h0, r0⟩ := hasL_cons h
  obtain ⟨x0, rfl, h0⟩ := has_tok h0
  obtain ⟨_, _, rfl, h1, r1⟩ := hasL_cons r0
  obtain ⟨x1, rfl, h1⟩ := has_tok h1
  cases hasL_nil r1
  exact hk x0 x1
theorem withTTLT_safe {k : Token → Token → List Node → Token → BldR Atom} {m2 : Kinds} {o2 : Bool} {xs : List Atom} (h : HasL [Abs.tok, Abs.tok, Abs.nodes m2 o2, Abs.tok] xs)
    (hk : ∀ x0 x1 x2 x3, Abs.Has (Abs.nodes m2 o2) (.nodes x2) → BldR.Safe g (k x0 x1 x2 x3) Q) : BldR.Safe g (withTTLT k xs) Q := by
  obtain ⟨_, _, rfl, h0, r0⟩ := hasL_cons h
  obtain ⟨x0, rfl, h0⟩ := has_tok h0
  obtain ⟨_, _, rfl, h1, r1⟩ := hasL_cons r0
  obtain ⟨x1, rfl, h1⟩ := has_tok h1
  obtain ⟨_, _, rfl, h2, r2⟩ := hasL_cons r1
  obtain ⟨x2, rfl, h2⟩ := has_nodes h2
  obtain ⟨_, _, rfl, h3, r3⟩ := hasL_cons r2
  obtain ⟨x3, rfl, h3⟩ := has_tok h3
  cases hasL_nil r3
  exact hk x0 x1 x2 x3 h2
theorem withTTN_safe {k : Token → Token → Node → BldR Atom} {m2 : Kinds} {xs : List Atom} (h : HasL [Abs.tok, Abs.tok, Abs.node m2] xs)
    (hk : ∀ x0 x1 x2, Abs.Has (Abs.node m2) (.node x2) → BldR.Safe g (k x0 x1 x2) Q) : BldR.Safe g (withTTN k xs) Q := by
  obtain ⟨_, _, rfl, h0, r0⟩ := hasL_cons h
  obtain ⟨x0, rfl, h0⟩ := has_tok h0
  obtain ⟨_, _, rfl, h1, r1⟩ := hasL_cons r0
  obtain ⟨x1, rfl, h1⟩ := has_tok h1
  obtain ⟨_, _, rfl, h2, r2⟩ := hasL_cons r1
  obtain ⟨x2, rfl, h2⟩ := has_node h2
  cases hasL_nil r2
  exact hk x0 x1 x2 h2
theorem withTTNPT_safe {k : Token → Token → Node → Option Node → Token → BldR Atom} {m2 : Kinds} {m3 : Kinds} {o3 : Bool} {xs : List Atom} (h : HasL [Abs.tok, Abs.tok, Abs.node m2, Abs.onode m3 o3, Abs.tok] xs)
    (hk : ∀ x0 x1 x2 x3 x4, Abs.Has (Abs.node m2) (.node x2) → Abs.Has (Abs.onode m3 o3) (.onode x3) → BldR.Safe g (k x0 x1 x2 x3 x4) Q) : BldR.Safe g (withTTNPT k xs) Q := by
  obtain ⟨_, _, rfl, h0, r0⟩ := hasL_cons h
  obtain ⟨x0, rfl, h0⟩ := has_tok h0
  obtain ⟨_, _, rfl, h1, r1⟩ := hasL_cons r0
  obtain ⟨x1, rfl, h1⟩ := has_tok h1
  obtain ⟨_, _, rfl, h2, r2⟩ := hasL_cons r1
  obtain ⟨x2, rfl, h2⟩ := has_node h2
  obtain ⟨_, _, rfl, h3, r3⟩ := hasL_cons r2
  obtain ⟨x3, rfl, h3⟩ := has_onode h3
  obtain ⟨_, _, rfl, h4, r4⟩ := hasL_cons r3
  obtain ⟨x4, rfl, h4⟩ := has_tok h4
  cases hasL_nil r4
  exact hk x0 x1 x2 x3 x4 h2 h3
theorem withTTNT_safe {k : Token → Token → Node → Token → BldR Atom} {m2 : Kinds} {xs : List Atom} (h : HasL [Abs.tok, Abs.tok, Abs.node m2, Abs.tok] xs)
    (hk : ∀ x0 x1 x2 x3, Abs.Has (Abs.node m2) (.node x2) → BldR.Safe g (k x0 x1 x2 x3) Q) : BldR.Safe g (withTTNT k xs) Q := by
  obtain ⟨_, _, rfl, h0, r0⟩ := hasL_cons h
  obtain ⟨x0, rfl, h0⟩ := has_tok h0
  obtain ⟨_, _, rfl, h1, r1⟩ := hasL_cons r0
  obtain ⟨x1, rfl, h1⟩ := has_tok h1
  obtain ⟨_, _, rfl, h2, r2⟩ := hasL_cons r1
  obtain ⟨x2, rfl, h2⟩ := has_node h2
  obtain ⟨_, _, rfl, h3, r3⟩ := hasL_cons r2
  obtain ⟨x3, rfl, h3⟩ := has_tok h3
  cases hasL_nil r3
  exact hk x0 x1 x2 x3 h2
theorem withTTPPT_safe {k : Token → Token → Option Node → Option Node → Token → BldR Atom} {m2 : Kinds} {o2 : Bool} {m3 : Kinds} {o3 : Bool} {xs : List Atom} (h : HasL [Abs.tok, Abs.tok, Abs.onode m2 o2, Abs.onode m3 o3, Abs.tok] xs)
    (hk : ∀ x0 x1 x2 x3 x4, Abs.Has (Abs.onode m2 o2) (.onode x2) → Abs.Has (Abs.onode m3 o3) (.onode x3) → BldR.Safe g (k x0 x1 x2 x3 x4) Q) : BldR.Safe g (withTTPPT k xs) Q := by
  obtain ⟨_, _, rfl, h0, r0⟩ := hasL_cons h
  obtain ⟨x0, rfl, h0⟩ := has_tok h0
  obtain ⟨_, _, rfl, h1, r1⟩ := hasL_cons r0
  obtain ⟨x1, rfl, h1⟩ := has_tok h1
  obtain ⟨_, _, rfl, h2, r2⟩ := hasL_cons r1
  obtain ⟨x2, rfl, h2⟩ := has_onode h2
  obtain ⟨_, _, rfl, h3, r3⟩ := hasL_cons r2
  obtain ⟨x3, rfl, h3⟩ := has_onode h3
  obtain ⟨_, _, rfl, h4, r4⟩ := hasL_cons r3
  obtain ⟨x4, rfl, h4⟩ := has_tok h4
  cases hasL_nil r4
  exact hk x0 x1 x2 x3 x4 h2 h3
theorem withTTPT_safe {k : Token → Token → Option Node → Token → BldR Atom} {m2 : Kinds} {o2 : Bool} {xs : List Atom} (h : HasL [Abs.tok, Abs.tok, Abs.onode m2 o2, Abs.tok] xs)
    (hk : ∀ x0 x1 x2 x3, Abs.Has (Abs.onode m2 o2) (.onode x2) → BldR.Safe g (k x0 x1 x2 x3) Q) : BldR.Safe g (withTTPT k xs) Q := by
  obtain ⟨_, _, rfl, h0, r0⟩ := hasL_cons h
  obtain ⟨x0, rfl, h0⟩ := has_tok h0
  obtain ⟨_, _, rfl, h1, r1⟩ := hasL_cons r0
  obtain ⟨x1, rfl, h1⟩ := has_tok h1
  obtain ⟨_, _, rfl, h2, r2⟩ := hasL_cons r1
  obtain ⟨x2, rfl, h2⟩ := has_onode h2
  obtain ⟨_, _, rfl, h3, r3⟩ := hasL_cons r2
  obtain ⟨x3, rfl, h3⟩ := has_tok h3
  cases hasL_nil r3
  exact hk x0 x1 x2 x3 h2
theorem withTTPTP_safe {k : Token → Token → Option Node → Token → Option Node → BldR Atom} {m2 : Kinds} {o2 : Bool} {m4 : Kinds} {o4 : Bool} {xs : List Atom} (h : HasL [Abs.tok, Abs.tok, Abs.onode m2 o2, Abs.tok, Abs.onode m4 o4] xs)
    (hk : ∀ x0 x1 x2 x3 x4, Abs.Has (Abs.onode m2 o2) (.onode x2) → Abs.Has (Abs.onode m4 o4) (.onode x4) → BldR.Safe g (k x0 x1 x2 x3 x4) Q) : BldR.Safe g (withTTPTP k xs) Q := by
  obtain ⟨_, _, rfl, h0, r0⟩ := hasL_cons h
  obtain ⟨x0, rfl, h0⟩ := has_tok h0
  obtain ⟨_, _, rfl, h1, r1⟩ := hasL_cons r0
  obtain ⟨x1, rfl, h1⟩ := has_tok h1
  obtain ⟨_, _, rfl, h2, r2⟩ := hasL_cons r1
  obtain ⟨x2, rfl, h2⟩ := has_onode h2
  obtain ⟨_, _, rfl, h3, r3⟩ := hasL_cons r2
  obtain ⟨x3, rfl, h3⟩ := has_tok h3
  obtain ⟨_, _, rfl, h4, r4⟩ := hasL_cons r3
  obtain ⟨x4, rfl, h4⟩ := has_onode h4
  cases hasL_nil r4
  exact hk x0 x1 x2 x3 x4 h2 h4
theorem withTTT_safe {k : Token → Token → Token → BldR Atom}  {xs : List Atom} (h : HasL [Abs.tok, Abs.tok, Abs.tok] xs)
    (hk : ∀ x0 x1 x2, BldR.Safe g (k x0 x1 x2) Q) : BldR.Safe g (withTTT k xs) Q := by
  obtain ⟨_, _, rfl, h0, r0⟩ := hasL_cons h
  obtain ⟨x0, rfl, h0⟩ := has_tok h0
  obtain ⟨_, _, rfl, h1, r1⟩ := hasL_cons r0
  obtain ⟨x1, rfl, h1⟩ := has_tok h1
  obtain ⟨_, _, rfl, h2, r2⟩ := hasL_cons r1
  obtain ⟨x2, rfl, h2⟩ := has_tok h2
  cases hasL_nil r2
  exact hk x0 x1 x2
theorem withNone_safe {k : BldR Atom} {xs : List Atom} (h : HasL [] xs) (hk : BldR.Safe g k Q) : BldR.Safe g (withNone k xs) Q := by
  cases hasL_nil h
  exact hk

end Verif
