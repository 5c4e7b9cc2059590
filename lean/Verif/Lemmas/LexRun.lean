import Verif.Lemmas.LexMain
import Verif.Lemmas.Reader
import Verif.Model.Driver
/-! Sequences of `yylex` calls. -/
namespace Verif.Lexer

/-- What holds whenever the parser asks for a token; `k` bounds how many it can still get. -/
structure RunInv (bs : Bytes) (ts : List Token) (s : Lexer) (held : List StrTerm) : Prop where
  inv : Inv s
  bytes : s.buffer.d.bytes = bs
  lits : ∀ h ∈ held, StOk s.buffer (some h)
  meas : ts.length + s.buffer.R + ((s.strterm.toList ++ held).map fun h => stW s.buffer.d (some h)).sum ≤ 64 * bs.length
  com : ∀ c ∈ s.comments, Spec.CommentOk bs c
  mag : ∀ m ∈ s.magicComments, Spec.MagicCommentOk bs m

theorem new_inv (name : String) (bs : Bytes) (dec : Option DecoderFn) (hd : ∀ f, dec = some f → ∀ enc r, f enc bs = .ok r → r = bs)
    (hz : bs.length < 2 ^ 31) : ∃ s, Lexer.new name bs dec = .ok s ∧ RunInv bs [] s [] := by
  obtain ⟨b, e, hf⟩ := new_fresh name bs dec
  refine ⟨{ buffer := b, lparBeg := -1 }, by simp [Lexer.new, e, Bind.bind, Except.bind, Pure.pure, Except.pure], ?_⟩
  have hb := hf.bytes
  refine ⟨⟨hf.good, trivial, rfl, rfl, ?_, ?_⟩, hb, by simp, ?_, by simp, by simp⟩
  · intro f h1 enc r h2
    have e1 : b.input.decoder = some f := h1
    have e2 : b.input.decoded.bytes = bs := hb
    have h3 : f enc b.input.decoded.bytes = .ok r := h2
    show r = b.input.decoded.bytes
    rw [e2] at h3 ⊢
    exact hd f (by rw [← hf.decoder]; exact e1) enc r h3
  · show b.d.bytes.length < 2 ^ 31
    rw [hb]; exact hz
  · have := hf.good.R_le
    rw [hb] at this
    simp
    show b.R ≤ _
    omega

theorem sum_sublist {a b : List Nat} (h : a.Sublist b) : a.sum ≤ b.sum := by
  induction h with
  | slnil => exact Nat.le_refl _
  | cons a _ ih => simp only [List.sum_cons]; omega
  | cons_cons a _ ih => simp only [List.sum_cons]; omega

theorem stW_sum {d : DecodedInput} (t : Option StrTerm) (held : List StrTerm) :
    ((t.toList ++ held).map fun h => stW d (some h)).sum = stW d t + (held.map fun h => stW d (some h)).sum := by
  cases t <;> simp [stW]

theorem RunInv.token {bs : Bytes} {ts : List Token} {s s' : Lexer} {held : List StrTerm} {t : Token} {x : Ext} (h : RunInv bs ts s held)
    (e : yylex x s = .ok (t, s')) (hne : t.tokenType ≠ .END_OF_INPUT) : RunInv bs (ts ++ [t]) s' held := by
  obtain ⟨t', s'', e', hp⟩ := yylex_wp (x := x) h.inv
  rw [e] at e'; cases e'
  obtain ⟨⟨⟨cs, h1, h2⟩, ms, h3, h4⟩, h5⟩ := hp
  rcases h5 with h5 | ⟨h5, h6, h7, h8⟩
  · exact absurd h5 hne
  have hd : s'.buffer.d = s.buffer.d := by simp only [Buffer.d, h6.input]
  have hb := h.bytes
  refine ⟨h5, by rw [hd]; exact hb, fun x hx => (h.lits x hx).adv h6, ?_, ?_, ?_⟩
  · have := h.meas
    rw [stW_sum] at this ⊢
    unfold Phi at h7
    rw [hd] at h7 ⊢
    simp only [List.length_append, List.length_cons, List.length_nil]
    omega
  · rw [h1]
    intro c hc
    rcases List.mem_append.1 hc with hc | hc
    · exact h.com c hc
    · rw [← hb]; exact h2 c hc
  · rw [h3]
    intro c hc
    rcases List.mem_append.1 hc with hc | hc
    · exact h.mag c hc
    · rw [← hb]; exact h4 c hc

theorem RunInv.action {bs : Bytes} {ts : List Token} {s s' : Lexer} {held held' : List StrTerm} (h : RunInv bs ts s held)
    (ha : Between s held s' held') : RunInv bs ts s' held' := by
  obtain ⟨i, l, hbuf⟩ := ha.buffer
  have hbs : BSame s.buffer s'.buffer := by rw [hbuf]; exact ⟨⟨rfl, rfl, rfl, rfl, rfl, rfl, rfl, rfl⟩, rfl, rfl⟩
  have hin := hbs.same.input
  have hd : s'.buffer.d = s.buffer.d := by simp only [Buffer.d, hin]
  have hadv : Adv s.buffer s'.buffer := ⟨hin, by rw [hbs.same.lineCount]; exact Nat.le_refl _, .inr (.inl hbs.same.nextline)⟩
  have all : ∀ x ∈ s'.strterm.toList ++ held', StOk s'.buffer (some x) := by
    intro x hx
    obtain ⟨l, hl1, hl2⟩ := ha.literals
    have := hl2.subset (hl1.symm.subset hx)
    rcases List.mem_append.1 this with h1 | h1
    · refine StOk.adv ?_ hadv
      have h2 := h.inv.st
      rw [Option.mem_toList] at h1
      rw [h1] at h2; exact h2
    · exact (h.lits x h1).adv hadv
  refine ⟨⟨hbs.good h.inv.good, ?_, ha.lvalStart.trans h.inv.ls, ha.lvalEnd.trans h.inv.le, ?_, ?_⟩, by rw [hd]; exact h.bytes,
    fun x hx => all x (List.mem_append.2 (.inr hx)), ?_, by rw [ha.comments]; exact h.com, by rw [ha.magicComments]; exact h.mag⟩
  · cases hs : s'.strterm with
    | none => trivial
    | some y => exact all y (by simp [hs])
  · rw [hin]; exact h.inv.dec
  · exact h.inv.small.of_input hin
  · have h1 := h.meas
    have h2 := hbs.R
    have h3 : ((s'.strterm.toList ++ held').map fun h => stW s.buffer.d (some h)).sum ≤
        ((s.strterm.toList ++ held).map fun h => stW s.buffer.d (some h)).sum := by
      obtain ⟨l, hl1, hl2⟩ := ha.literals
      rw [← (hl1.map fun h => stW s.buffer.d (some h)).sum_nat]
      exact sum_sublist (hl2.map _)
    rw [hd]
    omega

theorem Driven.inv {bs : Bytes} {x : Ext} {s0 : Lexer} (h0 : RunInv bs [] s0 []) {ts s held} (h : Driven x s0 ts s held) :
    RunInv bs ts s held := by
  induction h with
  | start => exact h0
  | token _ e hne ih => exact ih.token e hne
  | action _ ha ih => exact ih.action ha

end Verif.Lexer
