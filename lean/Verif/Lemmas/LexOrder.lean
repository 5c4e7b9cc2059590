import Verif.Lemmas.LexRun
import Verif.Model.Paced
import Verif.Spec.Order
/-! The order of the tokens of a run without here documents. -/
namespace Verif.Lexer

/-- A literal that is not a here document, nor in one. -/
def LitPlain : StrTerm → Prop
  | .string l => l.heredocEnd = none
  | .heredoc _ => False

/-- What holds between tokens. -/
structure OrdInv (bs : Bytes) (ts : List Token) (s : Lexer) (held : List StrTerm) : Prop where
  str : Straight s.buffer
  lits : ∀ t ∈ s.strterm.toList ++ held, LitPlain t
  nl : s.buffer.nextline ≠ 0 → s.strterm = none ∧ ∃ t, ts.getLast? = some t ∧ t.tokenType = .tNL
  below : ∀ t ∈ ts, t.loc.begin ≤ front s.buffer ∧
    (t.loc.stop ≤ front s.buffer ∨ (t.tokenType = .tNL ∧ Spec.LastLineEnd bs t.loc.begin))
  order : ts.Pairwise (Spec.Before bs)

theorem OrdInv.simple {bs ts s held} (h : OrdInv bs ts s held) : Simple s := by
  refine ⟨h.str, fun x e => h.lits (.heredoc x) (by simp [e]), fun l e => ⟨h.lits (.string l) (by simp [e]), ?_⟩⟩
  by_cases hn : s.buffer.nextline = 0
  · exact hn
  · have := (h.nl hn).1; rw [e] at this; cases this

theorem new_ord {name : String} {bs : Bytes} {dec : Option DecoderFn} {s0 : Lexer} (h : Lexer.new name bs dec = .ok s0) :
    OrdInv bs [] s0 [] := by
  obtain ⟨b, e, hf⟩ := new_fresh name bs dec
  have e1 : s0 = { buffer := b, lparBeg := -1 } := by
    have : Lexer.new name bs dec = .ok { buffer := b, lparBeg := -1 } := by
      simp [Lexer.new, e, Bind.bind, Except.bind, Pure.pure, Except.pure]
    rw [h] at this; cases this; rfl
  subst e1
  refine ⟨⟨fun _ => .inl ?_, fun h => absurd hf.nextline h, ?_⟩, by simp, fun h => absurd hf.nextline h, by simp, List.Pairwise.nil⟩
  · show b.lastline + 1 = b.lineCount; rw [hf.lastline, hf.lines]
  · show b.pbeg = b.d.lStart b.lastline ∨ b.d.bytes[b.pbeg - 1]? ≠ some 13
    rcases hf.bom with ⟨h1, _⟩ | ⟨h1, h2⟩
    · refine .inl ?_
      rw [h1, hf.lastline]; exact hf.good.tab.first.symm
    · refine .inr ?_
      rw [h1, hf.bytes, ((bom_iff bs).1 h2).2.2]; decide

theorem OrdInv.token {bs : Bytes} {ts : List Token} {s s' : Lexer} {held : List StrTerm} {t : Token} {x : Ext}
    (hi : RunInv bs ts s held) (h : OrdInv bs ts s held) (e : yylex x s = .ok (t, s')) (hne : t.tokenType ≠ .END_OF_INPUT)
    (hh : ¬ Spec.OpensHere t) : OrdInv bs (ts ++ [t]) s' held ∧ t.loc.begin ≤ t.loc.stop ∧ t.loc.stop ≤ bs.length := by
  obtain ⟨t', s'', e', hp⟩ := yylex_wp (x := x) hi.inv
  rw [e] at e'; cases e'
  rcases hp.next with h5 | ⟨h5, h6, h7, h8, h9⟩
  · exact absurd h5 hne
  have ho := h9 h.simple
  have hb : s'.buffer.d.bytes = bs := by rw [← hi.bytes]; simp only [Buffer.d, h6.input]
  have hnh : ∀ x, s'.strterm ≠ some (.heredoc x) := fun x e => hh (ho.here x e)
  have hloc : t.loc.begin ≤ t.loc.stop ∧ t.loc.stop ≤ bs.length := by
    rcases h8 with h8 | ⟨⟨x, h8⟩, _⟩
    · rw [hi.bytes] at h8; exact h8
    · exact absurd h8 (h.simple.here x)
  have hup : t.loc.begin ≤ front s'.buffer ∧ (t.loc.stop ≤ front s'.buffer ∨ (t.tokenType = .tNL ∧ Spec.LastLineEnd bs t.loc.begin)) := by
    rcases ho.up with ⟨_, h1, ⟨x, h2⟩ | h2⟩ | ⟨h1, _, h2 | ⟨h2, h3⟩⟩
    · exact absurd h2 (hnh x)
    · have : t.loc.stop ≤ front s'.buffer := by unfold front; rw [if_pos h1]; exact h2
      exact ⟨Nat.le_trans hloc.1 this, .inl this⟩
    · exact ⟨Nat.le_trans hloc.1 h2, .inl h2⟩
    · rw [hb] at h3; exact ⟨h2, .inr ⟨h1, h3⟩⟩
  have hfr : front s.buffer ≤ front s'.buffer := Nat.le_trans ho.low hup.1
  refine ⟨⟨ho.str, ?_, ?_, ?_, ?_⟩, hloc⟩
  · intro y hy
    rcases List.mem_append.1 hy with h1 | h1
    · rw [Option.mem_toList] at h1
      cases y with
      | string l => exact ho.lit l h1
      | heredoc x => exact absurd h1 (hnh x)
    · exact h.lits y (List.mem_append_right _ h1)
  · intro hn
    rcases ho.up with ⟨_, h1, _⟩ | ⟨h1, h2, _⟩
    · exact absurd h1 hn
    · exact ⟨h2, t, by simp, h1⟩
  · intro y hy
    rcases List.mem_append.1 hy with h1 | h1
    · obtain ⟨h2, h3⟩ := h.below y h1
      exact ⟨Nat.le_trans h2 hfr, h3.imp (fun h3 => Nat.le_trans h3 hfr) id⟩
    · rw [List.mem_singleton] at h1; subst h1; exact hup
  · rw [List.pairwise_append]
    refine ⟨h.order, List.pairwise_singleton _ _, ?_⟩
    intro a h1 y hy
    rw [List.mem_singleton] at hy; subst hy
    obtain ⟨h2, h3⟩ := h.below a h1
    exact ⟨Nat.le_trans h2 ho.low, h3.imp (fun h3 => Nat.le_trans h3 ho.low) id⟩

theorem OrdInv.action {bs : Bytes} {ts : List Token} {s s' : Lexer} {held held' : List StrTerm} (h : OrdInv bs ts s held)
    (ha : Between s held s' held') (hn : ∀ t, ts.getLast? = some t → t.tokenType = .tNL → s'.strterm = none ∨ s'.strterm = s.strterm) :
    OrdInv bs ts s' held' := by
  obtain ⟨i, l, hbuf⟩ := ha.buffer
  have hs : SameLine s.buffer s'.buffer := by rw [hbuf]; exact ⟨rfl, rfl, rfl, rfl, rfl, rfl, rfl, rfl⟩
  have hf : front s'.buffer = front s.buffer := by rw [hbuf]; rfl
  refine ⟨h.str.same hs, ?_, ?_, by rw [hf]; exact h.below, h.order⟩
  · intro y hy
    obtain ⟨l, h1, h2⟩ := ha.literals
    exact h.lits y (h2.subset (h1.symm.subset hy))
  · rw [hs.nextline]
    intro e
    obtain ⟨h1, t, h2, h3⟩ := h.nl e
    refine ⟨?_, t, h2, h3⟩
    rcases hn t h2 h3 with h4 | h4
    · exact h4
    · exact h4.trans h1

theorem Paced.ord {bs : Bytes} {x : Ext} {s0 : Lexer} (h0 : RunInv bs [] s0 []) (h1 : OrdInv bs [] s0 []) {ts s held}
    (h : Paced x s0 ts s held) (hh : ∀ t ∈ ts, ¬ Spec.OpensHere t) :
    OrdInv bs ts s held ∧ ∀ t ∈ ts, t.loc.begin ≤ t.loc.stop ∧ t.loc.stop ≤ bs.length := by
  induction h with
  | start => exact ⟨h1, by simp⟩
  | @token ts s held t s' hp e hne ih =>
    obtain ⟨h2, h3⟩ := ih fun t ht => hh t (List.mem_append_left _ ht)
    obtain ⟨h4, h5⟩ := h2.token (Driven.inv h0 hp.driven) e hne (hh t (by simp))
    refine ⟨h4, fun t' ht' => ?_⟩
    rcases List.mem_append.1 ht' with h6 | h6
    · exact h3 t' h6
    · rw [List.mem_singleton] at h6; subst h6; exact h5
  | action _ ha hn ih =>
    obtain ⟨h2, h3⟩ := ih hh
    exact ⟨h2.action ha hn, h3⟩

end Verif.Lexer
