import Verif.Lemmas.LexMain
/-!
The end of the script: `__END__`, the end-of-script bytes, and what happens afterwards.
-/
namespace Verif
open Spec

/-- `__END__` stands alone on the line that starts at `p`. -/
def Spec.EndMarker (bs : Bytes) (p : Nat) : Prop :=
  slice bs p (p + 7) = ascs "__END__" ∧
    (bs[p + 7]? = none ∨ bs[p + 7]? = some LF ∨ (bs[p + 7]? = some 13 ∧ bs[p + 8]? = some LF))

/-- The next byte to be read is the first byte of a line that starts at `p`: nothing of the current line was read, or the
current line was read completely and the line at `p` comes next, or it comes next because a heredoc body was read before. -/
def Buffer.AtLine (b : Buffer) (p : Nat) : Prop :=
  b.eofp = false ∧
    ((b.nextline = 0 ∧ b.pcur = b.pbeg ∧ b.pbeg = p ∧ p < b.pend) ∨
     (b.nextline = 0 ∧ b.pcur = b.pend ∧ b.d.bytes[b.pend - 1]? = some LF ∧ b.lineCount < b.d.lines.length ∧ b.d.lStart b.lineCount = p) ∨
     (b.nextline ≠ 0 ∧ b.d.lStart b.nextline = p))

namespace Lexer

theorem isWholeMatch_marker {b : Buffer} {w : Bytes} (hg : Good b) (hlt : b.pbeg < b.pend) (hw : ∀ c ∈ w, c ≠ 10) (h0 : 0 < w.length)
    (h : Spec.slice b.d.bytes b.pbeg (b.pbeg + w.length) = w) (h2 : b.d.bytes[b.pbeg + w.length]? = none ∨
      b.d.bytes[b.pbeg + w.length]? = some 10 ∨ (b.d.bytes[b.pbeg + w.length]? = some 13 ∧ b.d.bytes[b.pbeg + w.length + 1]? = some 10)) :
    b.isWholeMatch w 0 = .ok true := by
  have hlen : b.pbeg + w.length ≤ b.d.bytes.length := by
    have h6 := slice_get h (k := w.length - 1) (by omega)
    rw [List.getElem?_eq_getElem (l := w) (by omega)] at h6
    have := (List.getElem?_eq_some_iff.1 h6).1
    omega
  have hno : ∀ j, b.pbeg ≤ j → j < b.pbeg + w.length → b.d.bytes[j]? ≠ some 10 := by
    intro j h3 h4 h5
    have h6 := slice_get h (k := j - b.pbeg) (by omega)
    rw [show b.pbeg + (j - b.pbeg) = j by omega, h5] at h6
    exact hw 10 (List.mem_of_getElem? h6.symm) rfl
  have hspan := hg.span (Nat.le_refl _) hlt hlen hno
  unfold Buffer.isWholeMatch
  dsimp only
  rw [if_neg (by omega : ¬ (0 : Nat) > 0), if_neg (by omega), csub_of_le (by omega)]
  obtain ⟨r, h3, h4⟩ := substrAt_total b b.pbeg (b.pbeg + w.length)
  rw [if_pos ⟨by omega, hlen⟩, h] at h4
  simp only [Bind.bind, Except.bind, Pure.pure, Except.pure, h3, h4]
  rw [if_neg]
  · simp
  · rintro ⟨h5, h6, h7⟩
    have e1 : b.byteAt (b.pbeg + w.length) = b.d.bytes[b.pbeg + w.length]? := rfl
    have e2 : b.byteAt (b.pbeg + w.length + 1) = b.d.bytes[b.pbeg + w.length + 1]? := rfl
    rw [e1] at h6 h7; rw [e2] at h7
    obtain ⟨c, hc⟩ := hg.byte (j := b.pbeg + w.length) (by omega)
    rcases h2 with h2 | h2 | ⟨h2, h8⟩
    · rw [hc] at h2; cases h2
    · exact h6 h2
    · rcases h7 with h7 | h7 | h7
      · exact h7 h2
      · -- the carriage return would be the last byte of its line
        have h9 : b.pend = b.pbeg + w.length + 1 := by omega
        rcases hg.lineEnd with h10 | h10
        · have := (List.getElem?_eq_some_iff.1 h8).1; omega
        · rw [h9, show b.pbeg + w.length + 1 - 1 = b.pbeg + w.length by omega, h2] at h10; cases h10
      · exact h7 h8

/-- Nothing more will be read, and no literal is open. -/
structure Stopped (s : Lexer) : Prop where
  eofp : s.buffer.eofp = true
  nonl : s.buffer.nextline = 0
  st : s.strterm = none
  ls : s.lvalStart = none
  le : s.lvalEnd = none

/-- Nothing was recorded or reported. -/
structure Silent (s s' : Lexer) : Prop where
  input : s'.buffer.input = s.buffer.input
  comments : s'.comments = s.comments
  magicComments : s'.magicComments = s.magicComments
  diagnostics : s'.diagnostics = s.diagnostics

theorem nextc_stopped {s : Lexer} (h : Stopped s) : Lexer.nextc s = .ok (none, s) := by
  have e : s.buffer.nextc = .ok (none, s.buffer) := by
    unfold Buffer.nextc Buffer.nextlineFn
    dsimp only
    rw [if_pos (.inr (.inl h.eofp)), if_pos h.nonl, if_pos h.eofp]
    have := h.nonl
    cases hb : s.buffer
    rw [hb] at this
    simp_all [Bind.bind, Except.bind, Pure.pure, Except.pure]
  simp [Lexer.nextc, e, Bind.bind, Except.bind, Pure.pure, Except.pure]

/-- The shell of `yylex` around an end of input. -/
theorem yylex_end {x : Ext} {s : Lexer} {P : Lexer → Prop} (h : Wp (parserYylex x)
      (fun t s' => t = .END_OF_INPUT ∧ s'.lvalStart = none ∧ s'.lvalEnd = none ∧ P { s' with lvalStart := none, lvalEnd := none, lval := none })
      { s with lval := none }) :
    Wp (yylex x) (fun t s' => t.tokenType = .END_OF_INPUT ∧ P s') s := by
  unfold yylex
  refine Wp.bind (Wp.modS ?_)
  refine Wp.bind (h.mono ?_)
  rintro t s2 ⟨h1, h2, h3, h4⟩
  refine Wp.bind (Wp.getS ?_)
  refine Wp.bind (Wp.getS ?_)
  refine Wp.bind (Wp.modS ?_)
  have fin : ∀ (v : Bytes) (l : Verif.Loc), Wp (do
      Lexer.modS fun s => { s with lval := none }
      if t = .tNL then return (⟨t, [10], ⟨l.begin, l.begin + 1⟩⟩ : Token)
      else return ⟨t, v, ⟨l.begin, l.stop⟩⟩) (fun t s' => t.tokenType = .END_OF_INPUT ∧ P s')
      ({ s2 with lvalStart := none, lvalEnd := none } : Lexer) := by
    intro v l
    refine Wp.bind (Wp.modS ?_)
    refine Wp.ite (fun h5 => ?_) (fun _ => Wp.pure ⟨h1, h4⟩)
    rw [h1] at h5; cases h5
  refine Wp.bind (Wp.getS ?_)
  dsimp only
  cases hv : s2.lval with
  | some v => exact fin v ⟨_, _⟩
  | none =>
    dsimp only
    refine Wp.bind (Wp.map ?_)
    obtain ⟨r, h5, -⟩ := substrAt_total s2.buffer (s2.lvalStart.getD s2.buffer.ptok) (s2.lvalEnd.getD s2.buffer.pcur)
    exact Wp.liftB r h5 (fin _ ⟨_, _⟩)

theorem stopped_yylex {x : Ext} {s : Lexer} (h : Stopped s) :
    Wp (yylex x) (fun t s' => t.tokenType = .END_OF_INPUT ∧ Stopped s' ∧ Silent s s') s := by
  refine yylex_end ?_
  generalize hs1 : ({ s with lval := none } : Lexer) = s1
  have h1 : Stopped s1 := by rw [← hs1]; exact ⟨h.eofp, h.nonl, h.st, h.ls, h.le⟩
  have h2 : Silent s s1 := by rw [← hs1]; exact ⟨rfl, rfl, rfl, rfl⟩
  unfold parserYylex
  refine Wp.bind (Wp.getS ?_)
  cases hst : s1.strterm with
  | some st => rw [h1.st] at hst; cases hst
  | none =>
  dsimp only
  refine Wp.bind (Wp.getS ?_)
  refine Wp.bind (Wp.getS ?_)
  refine Wp.bind (Wp.modS ?_)
  refine Wp.bind (Wp.fuel ?_)
  rw [show ∀ n : Nat, 64 * (n + 1) = (64 * n + 63) + 1 from fun n => by omega]
  unfold yylexLoop
  refine Wp.bind (Wp.getS ?_)
  refine Wp.bind ⟨_, _, rfl, ?_⟩
  refine Wp.bind ⟨_, _, nextc_stopped ⟨h1.eofp, h1.nonl, h1.st, h1.ls, h1.le⟩, ?_⟩
  exact Wp.pure ⟨rfl, h1.ls, h1.le, ⟨h1.eofp, h1.nonl, h1.st, rfl, rfl⟩, ⟨h2.input, h2.comments, h2.magicComments, h2.diagnostics⟩⟩

theorem lexUnderscore_marker {s : Lexer} (h : At s 95) (hb : s.buffer.pcur = s.buffer.pbeg + 1) (hm : Spec.EndMarker s.buffer.d.bytes s.buffer.pbeg) :
    Wp lexUnderscore (fun r s' => r = .tok .END_OF_INPUT ∧ Stopped s' ∧ s' = { s with buffer := { s.buffer with eofp := true } }) s := by
  unfold lexUnderscore
  refine Wp.bind (Wp.getB ?_)
  refine Wp.ite (fun _ => ?_) (fun h1 => absurd (by simp [Buffer.wasBol, hb]) h1)
  have e : s.buffer.isWholeMatch (ascs "__END__") 0 = .ok true :=
    isWholeMatch_marker h.good (by have := h.good.hi; have := h.lt; omega) (by decide) (by decide) hm.1 hm.2
  refine Wp.bind (Wp.liftB true e ?_)
  refine Wp.ite (fun _ => ?_) (fun h1 => absurd rfl h1)
  refine Wp.bind (Wp.modB (Wp.done ⟨rfl, ⟨rfl, h.nonl, h.st, h.ls, h.le⟩, rfl⟩))

theorem dispatch_under (x : Ext) (sp : Bool) (l : LexState) (cmd ts : Bool) : dispatch x 95 sp l cmd ts = lexUnderscore := by
  unfold dispatch
  rfl

/-- Any pass of the retry loop that comes to a `__END__` line stops the lexer. -/
theorem yylexLoop_marker {x : Ext} {cmd ts sp : Bool} {n : Nat} {s : Lexer} (h : Plain0 s) {p : Nat} (hl : s.buffer.AtLine p)
    (hm : Spec.EndMarker s.buffer.d.bytes p) :
    Wp (yylexLoop x cmd ts (n + 1) sp) (fun t s' => t = .END_OF_INPUT ∧ Stopped s' ∧ Silent s s') s := by
  unfold yylexLoop
  refine Wp.bind (Wp.getS ?_)
  refine Wp.bind ⟨_, { s with buffer := s.buffer.tokenFlush }, rfl, ?_⟩
  generalize hs1 : ({ s with buffer := s.buffer.tokenFlush } : Lexer) = s1
  have h2 : BSame s.buffer s1.buffer := by rw [← hs1]; exact ⟨⟨rfl, rfl, rfl, rfl, rfl, rfl, rfl, rfl⟩, rfl, rfl⟩
  have h3 : s1.buffer.ptok = s.buffer.pcur := by rw [← hs1]; rfl
  have hp1 : Plain0 s1 := by
    refine ⟨h2.good h.good, ?_, ?_, ?_, by rw [h2.same.input]; exact h.dec, ?_⟩
    · rw [← hs1]; exact h.st
    · rw [← hs1]; exact h.ls
    · rw [← hs1]; exact h.le
    · rw [← hs1]; exact h.small
  refine Wp.bind (Wp.nextcG hp1.good ?_)
  intro b0 c s2 hr
  have hd1 : s1.buffer.d = s.buffer.d := by unfold Buffer.d; rw [h2.same.input]
  have hl1 : s1.buffer.AtLine p := by
    unfold Buffer.AtLine at *
    rw [h2.eofp, h2.same.nextline, h2.pcur, h2.same.pbeg, h2.same.pend, h2.same.lineCount, hd1]
    exact hl
  have hm1 : Spec.EndMarker s1.buffer.d.bytes p := by rw [hd1]; exact hm
  have hp : s1.buffer.d.bytes[p]? = some 95 := by
    have := slice_get (w := ascs "__END__") hm1.1 (k := 0) (by decide)
    exact this
  have hplt : p < s1.buffer.d.bytes.length := (List.getElem?_eq_some_iff.1 hp).1
  obtain ⟨he, hcase⟩ := hl1
  have key : c = some 95 ∧ s2.buffer.pbeg = p ∧ s2.buffer.pcur = p + 1 := by
    have rd : ∀ {b1 b2 : Buffer} {ch : UInt8}, b1.d = s1.buffer.d → b1.pcur = p → b1.pbeg = p → ReadIn b1 ch b2 →
        some ch = some 95 ∧ b2.pbeg = p ∧ b2.pcur = p + 1 := by
      intro b1 b2 ch hd hc hb hri
      have := hri.rd
      unfold Buffer.readByte Input.byteAt at this
      have hb0 : b1.input.decoded.bytes[b1.pcur]? = some 95 := by
        rw [hc]; show b1.d.bytes[p]? = _; rw [hd]; exact hp
      rw [hb0] at this
      simp only [if_neg (show ¬ (95 : UInt8) = 13 by decide)] at this
      cases this
      exact ⟨rfl, hb, by rw [← hc]⟩
    have hn := hr.nextc
    generalize s2.buffer = b2 at hn ⊢
    cases hn with
    | here ch b' hn hri =>
      rcases hcase with ⟨h4, h5, h6, h7⟩ | ⟨h4, h5, h6⟩ | ⟨h4, h5⟩
      · exact rd rfl (by omega) h6 hri
      · have := hri.lt; have := hri.good.hi; rw [hri.same.pend] at this; omega
      · exact absurd hn h4
    | load ch b1 b' hld hri =>
      have hd : b1.d = s1.buffer.d := by unfold Buffer.d; rw [hld.input]
      have hst := hld.start
      rw [hd] at hst
      rcases hcase with ⟨h4, h5, h6, h7⟩ | ⟨h4, h5, h6, h7, h8⟩ | ⟨h4, h5⟩
      · have := (hld.atEnd h4).1; omega
      · rw [(hld.fresh h4).1] at hst
        exact rd hd (by rw [hld.bol]; omega) (by omega) hri
      · rw [(hld.held h4).1] at hst
        exact rd hd (by rw [hld.bol]; omega) (by omega) hri
    | eof h4 => rw [he] at h4; cases h4
    | eofNow _ h4 h5 h6 =>
      exfalso
      rcases hcase with ⟨h7, h8, h9, h10⟩ | ⟨h7, h8, h9, h10, h11⟩ | ⟨h7, h8⟩
      · omega
      · rcases h6 with ⟨_, h6⟩ | h6
        · exact h6 h9
        · omega
      · exact h7 h4
    | eofLoad b1 hld h4 h5 h6 =>
      exfalso
      have hd : b2.d = s1.buffer.d := by unfold Buffer.d; rw [hld.input]
      have hst := hld.start
      have hbol := hld.bol
      rw [hd] at hst h5
      rcases hcase with ⟨h7, h8, h9, h10⟩ | ⟨h7, h8, h9, h10, h11⟩ | ⟨h7, h8⟩
      · have := (hld.atEnd h7).1; omega
      · rw [(hld.fresh h7).1] at hst; omega
      · rw [(hld.held h7).1] at hst; omega
  obtain ⟨rfl, hk1, hk2⟩ := key
  have hat := hp1.at (by rw [h3, h2.pcur]) hr
  dsimp only
  rw [dispatch_under]
  have hin : s2.buffer.input = s1.buffer.input := hr.fw.1.input
  have hm2 : Spec.EndMarker s2.buffer.d.bytes s2.buffer.pbeg := by
    rw [hk1]; unfold Buffer.d; rw [hin]; exact hm1
  refine Wp.bind ((lexUnderscore_marker hat (by omega) hm2).mono ?_)
  rintro r s3 ⟨rfl, h4, h5⟩
  dsimp only
  refine Wp.pure ⟨rfl, h4, ?_, ?_, ?_, ?_⟩
  · rw [h5]; exact hin.trans h2.same.input
  all_goals rw [h5, hr.eq, ← hs1]

/-- An end-of-script byte ends the input, too. -/
theorem yylexLoop_script_end {x : Ext} {cmd ts sp : Bool} {n : Nat} {s : Lexer} (h : Plain0 s) (he : s.buffer.eofp = false)
    (hn : s.buffer.nextline = 0) {c : UInt8} (hlt : s.buffer.pcur < s.buffer.pend)
    (hb : s.buffer.d.bytes[s.buffer.pcur]? = some c) (hc : c = 0 ∨ c = 4 ∨ c = 0x1a) :
    Wp (yylexLoop x cmd ts (n + 1) sp) (fun t s' => t = .END_OF_INPUT ∧ Silent s s' ∧ s'.lvalStart = none ∧ s'.lvalEnd = none) s := by
  unfold yylexLoop
  refine Wp.bind (Wp.getS ?_)
  refine Wp.bind ⟨_, { s with buffer := s.buffer.tokenFlush }, rfl, ?_⟩
  have e : Lexer.nextc { s with buffer := s.buffer.tokenFlush } =
      .ok (some c, { s with buffer := { s.buffer.tokenFlush with pcur := s.buffer.pcur + 1 } }) := by
    have : s.buffer.tokenFlush.nextc = .ok (some c, { s.buffer.tokenFlush with pcur := s.buffer.pcur + 1 }) := by
      unfold Buffer.nextc
      rw [if_neg]
      · unfold Buffer.readByte Input.byteAt
        rw [show s.buffer.tokenFlush.input.decoded.bytes[s.buffer.tokenFlush.pcur]? = some c from hb]
        dsimp only
        rw [if_neg (by rcases hc with rfl | rfl | rfl <;> decide)]
        rfl
      · show ¬ (s.buffer.pcur = s.buffer.pend ∨ s.buffer.eofp = true ∨ s.buffer.nextline ≠ 0)
        rw [he, hn]; simp; omega
    simp [Lexer.nextc, this, Bind.bind, Except.bind, Pure.pure, Except.pure]
  refine Wp.bind ⟨_, _, e, ?_⟩
  dsimp only
  refine Wp.bind ?_
  unfold dispatch
  refine Wp.ite (fun _ => Wp.done ?_) (fun h1 => absurd hc h1)
  exact Wp.pure ⟨rfl, ⟨rfl, rfl, rfl, rfl⟩, h.ls, h.le⟩

/-- From the retry loop to `yylex`. -/
theorem yylex_loop_end {x : Ext} {s : Lexer} (hst : s.strterm = none) {P : Lexer → Prop}
    (h : ∀ cmd ts n (s1 : Lexer), s1 = { s with lval := none, commandStart := false, tokenSeen := true } →
      Wp (yylexLoop x cmd ts (n + 1) false) (fun t s' => t = .END_OF_INPUT ∧ s'.lvalStart = none ∧ s'.lvalEnd = none ∧
        P { s' with lvalStart := none, lvalEnd := none, lval := none }) s1) :
    Wp (yylex x) (fun t s' => t.tokenType = .END_OF_INPUT ∧ P s') s := by
  refine yylex_end ?_
  unfold parserYylex
  refine Wp.bind (Wp.getS ?_)
  generalize hs1 : ({ s with lval := none } : Lexer) = s1
  have hst1 : s1.strterm = none := by rw [← hs1]; exact hst
  cases hs : s1.strterm with
  | some st => rw [hst1] at hs; cases hs
  | none =>
  dsimp only
  refine Wp.bind (Wp.getS ?_)
  refine Wp.bind (Wp.getS ?_)
  refine Wp.bind (Wp.modS ?_)
  refine Wp.bind (Wp.fuel ?_)
  rw [show ∀ n : Nat, 64 * (n + 1) = (64 * n + 63) + 1 from fun n => by omega]
  exact h _ _ _ _ (by rw [← hs1])

theorem yylex_marker {x : Ext} {s : Lexer} (h : Inv s) (hst : s.strterm = none) {p : Nat} (hl : s.buffer.AtLine p)
    (hm : Spec.EndMarker s.buffer.d.bytes p) :
    Wp (yylex x) (fun t s' => t.tokenType = .END_OF_INPUT ∧ Stopped s' ∧ Silent s s') s := by
  refine yylex_loop_end hst ?_
  intro cmd ts n s1 hs1
  have hp : Plain0 s1 := by rw [hs1]; exact ⟨h.good, hst, h.ls, h.le, h.dec, h.small⟩
  refine (yylexLoop_marker hp (p := p) (by rw [hs1]; exact hl) (by rw [hs1]; exact hm)).mono ?_
  rintro t s' ⟨h1, h2, h3⟩
  rw [hs1] at h3
  exact ⟨h1, h2.ls, h2.le, ⟨h2.eofp, h2.nonl, h2.st, rfl, rfl⟩, ⟨h3.input, h3.comments, h3.magicComments, h3.diagnostics⟩⟩

theorem yylex_script_end {x : Ext} {s : Lexer} (h : Inv s) (hst : s.strterm = none) (he : s.buffer.eofp = false)
    (hn : s.buffer.nextline = 0) {c : UInt8} (hlt : s.buffer.pcur < s.buffer.pend)
    (hb : s.buffer.d.bytes[s.buffer.pcur]? = some c) (hc : c = 0 ∨ c = 4 ∨ c = 0x1a) :
    Wp (yylex x) (fun t s' => t.tokenType = .END_OF_INPUT ∧ Silent s s') s := by
  refine yylex_loop_end hst ?_
  intro cmd ts n s1 hs1
  have hp : Plain0 s1 := by rw [hs1]; exact ⟨h.good, hst, h.ls, h.le, h.dec, h.small⟩
  refine (yylexLoop_script_end (c := c) hp (by rw [hs1]; exact he) (by rw [hs1]; exact hn) (by rw [hs1]; exact hlt) (by rw [hs1]; exact hb) hc).mono ?_
  rintro t s' ⟨h1, h3, h4, h5⟩
  rw [hs1] at h3
  exact ⟨h1, h4, h5, ⟨h3.input, h3.comments, h3.magicComments, h3.diagnostics⟩⟩

end Lexer
end Verif
