import Verif.Model.Builder.Build
import Verif.Spec.Located
import Mathlib.Tactic.SplitIfs
import Mathlib.Tactic.Cases
/-!
Helper lemmas for nested locations: where a value lies (`At`), and what each function of the builder makes of values that lie
one after the other.
-/
namespace Verif

/-- The tree's locations nest (see `Verif.Spec.Located`). -/
abbrev Nested : Node → Prop := Located Node.marks

theorem nested_iff {n : Node} : Nested n ↔ n.expression.begin ≤ n.expression.stop ∧
    (∀ l ∈ n.marks, Loc.Within l n.expression) ∧
    (∀ c ∈ n.inner, Loc.Within c.expression n.expression) ∧
    (∀ c ∈ n.children, Nested c) :=
  ⟨fun ⟨_, a, b, c, d⟩ => ⟨a, b, c, d⟩, fun ⟨a, b, c, d⟩ => ⟨_, a, b, c, d⟩⟩

/-- A token between two positions. -/
def Token.At (t : Token) (a b : Nat) : Prop := a ≤ t.loc.begin ∧ t.loc.begin ≤ t.loc.stop ∧ t.loc.stop ≤ b
/-- A node with nested locations between two positions. -/
def Node.At (n : Node) (a b : Nat) : Prop :=
  Nested n ∧ a ≤ n.expression.begin ∧ n.expression.begin ≤ n.expression.stop ∧ n.expression.stop ≤ b
/-- An optional token. -/
def OTok.At : Option Token → Nat → Nat → Prop
  | none, a, b => a ≤ b
  | some t, a, b => t.At a b
/-- An optional node. -/
def ONode.At : Option Node → Nat → Nat → Prop
  | none, a, b => a ≤ b
  | some n, a, b => n.At a b
/-- Nodes one after the other. -/
def Nodes.At : List Node → Nat → Nat → Prop
  | [], a, b => a ≤ b
  | n :: ns, a, b => ∃ m, n.At a m ∧ Nodes.At ns m b

theorem Token.At.le {t : Token} (h : t.At a b) : a ≤ b := by unfold Token.At at h; omega
theorem Node.At.le {n : Node} (h : n.At a b) : a ≤ b := by unfold Node.At at h; omega
theorem OTok.At.le {t : Option Token} (h : OTok.At t a b) : a ≤ b := by
  cases t with
  | none => exact h
  | some t => exact Token.At.le h
theorem ONode.At.le {t : Option Node} (h : ONode.At t a b) : a ≤ b := by
  cases t with
  | none => exact h
  | some t => exact Node.At.le h
theorem Nodes.At.le {ns : List Node} (h : Nodes.At ns a b) : a ≤ b := by
  induction ns generalizing a with
  | nil => exact h
  | cons n ns ih => obtain ⟨m, h1, h2⟩ := h; have := h1.le; have := ih h2; omega

theorem Token.At.mono {t : Token} (h : t.At a b) (ha : a' ≤ a) (hb : b ≤ b') : t.At a' b' := by
  unfold Token.At at *; omega
theorem Node.At.mono {n : Node} (h : n.At a b) (ha : a' ≤ a) (hb : b ≤ b') : n.At a' b' := by
  obtain ⟨h0, h1, h2, h3⟩ := h
  exact ⟨h0, by omega, h2, by omega⟩
theorem OTok.At.mono {t : Option Token} (h : OTok.At t a b) (ha : a' ≤ a) (hb : b ≤ b') : OTok.At t a' b' := by
  cases t with
  | none => have : a ≤ b := h; show a' ≤ b'; omega
  | some t => exact Token.At.mono h ha hb
theorem ONode.At.mono {t : Option Node} (h : ONode.At t a b) (ha : a' ≤ a) (hb : b ≤ b') : ONode.At t a' b' := by
  cases t with
  | none => have : a ≤ b := h; show a' ≤ b'; omega
  | some t => exact Node.At.mono h ha hb
theorem Nodes.At.mono {ns : List Node} (h : Nodes.At ns a b) (ha : a' ≤ a) (hb : b ≤ b') : Nodes.At ns a' b' := by
  induction ns generalizing a a' with
  | nil => have : a ≤ b := h; show a' ≤ b'; omega
  | cons n ns ih => obtain ⟨m, h1, h2⟩ := h; exact ⟨m, h1.mono ha (Nat.le_refl _), ih h2 (Nat.le_refl _)⟩

theorem Nodes.At.append {xs ys : List Node} (h : Nodes.At xs a b) (h' : Nodes.At ys b c) : Nodes.At (xs ++ ys) a c := by
  induction xs generalizing a with
  | nil => exact h'.mono h (Nat.le_refl _)
  | cons n ns ih => obtain ⟨m, h1, h2⟩ := h; exact ⟨m, h1, ih h2⟩

theorem Nodes.at_singleton {n : Node} (h : n.At a b) : Nodes.At [n] a b := ⟨b, h, Nat.le_refl _⟩

theorem Nodes.at_append {xs ys : List Node} (h : Nodes.At (xs ++ ys) a c) : ∃ b, Nodes.At xs a b ∧ Nodes.At ys b c := by
  induction xs generalizing a with
  | nil => exact ⟨a, Nat.le_refl _, h⟩
  | cons n ns ih =>
    obtain ⟨m, h1, h2⟩ := h
    obtain ⟨b, h3, h4⟩ := ih h2
    exact ⟨b, ⟨m, h1, h3⟩, h4⟩

theorem Nodes.At.mem {ns : List Node} (h : Nodes.At ns a b) {n : Node} (hn : n ∈ ns) : n.At a b := by
  induction ns generalizing a with
  | nil => cases hn
  | cons x ns ih =>
    obtain ⟨m, h1, h2⟩ := h
    have := h1.le
    have := Nodes.At.le h2
    cases hn with
    | head => exact h1.mono (Nat.le_refl _) (by omega)
    | tail _ hn => exact (ih h2 hn).mono (by omega) (Nat.le_refl _)

/-- What is used of a list: every element, and the span given by its first and last element. -/
structure Span (ns : List Node) (a b : Nat) : Prop where
  le : a ≤ b
  sub : ∀ c ∈ ns, Nested c
  mem : ∀ c ∈ ns, a ≤ c.expression.begin ∧ c.expression.begin ≤ c.expression.stop ∧ c.expression.stop ≤ b

theorem Nodes.At.span {ns : List Node} (h : Nodes.At ns a b) : Span ns a b :=
  ⟨h.le, fun _ hc => (h.mem hc).1, fun _ hc => (h.mem hc).2⟩

theorem Nodes.At.first {n : Node} {ns : List Node} (h : Nodes.At (n :: ns) a b) :
    Nodes.At (n :: ns) n.expression.begin b := by
  obtain ⟨m, ⟨h0, h1, h2, h3⟩, h4⟩ := h
  exact ⟨m, ⟨h0, by omega, h2, h3⟩, h4⟩

theorem Nodes.At.last {ns : List Node} {n : Node} (h : Nodes.At ns a b) (hl : ns.getLast? = some n) :
    Nodes.At ns a n.expression.stop := by
  induction ns generalizing a with
  | nil => cases hl
  | cons x ns ih =>
    obtain ⟨m, h1, h2⟩ := h
    cases ns with
    | nil =>
      obtain rfl : x = n := by simpa using hl
      exact ⟨x.expression.stop, ⟨h1.1, h1.2.1, h1.2.2.1, Nat.le_refl _⟩, Nat.le_refl _⟩
    | cons y ys =>
      rw [List.getLast?_cons_cons] at hl
      exact ⟨m, h1, ih h2 hl⟩

/-- The span of a non-empty list. -/
theorem Nodes.At.bounds {ns : List Node} (h : Nodes.At ns a b) (hne : ns ≠ []) : ∃ f l, ns.head? = some f ∧
    ns.getLast? = some l ∧ a ≤ f.expression.begin ∧ f.expression.begin ≤ l.expression.stop ∧ l.expression.stop ≤ b ∧
    Span ns f.expression.begin l.expression.stop := by
  cases ns with
  | nil => exact absurd rfl hne
  | cons x ns =>
    obtain ⟨l, hl⟩ : ∃ l, (x :: ns).getLast? = some l := ⟨_, List.getLast?_eq_some_getLast (by simp)⟩
    have hm := List.mem_of_getLast? hl
    have h1 := h.mem (List.mem_cons_self)
    have h2 := h.mem hm
    have h3 := (h.first.last hl).span
    exact ⟨x, l, rfl, hl, h1.2.1, h3.le, h2.2.2.2, h3⟩

end Verif
