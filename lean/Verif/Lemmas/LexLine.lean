import Verif.Lemmas.LexNames
/-! Reading over line ends: `nextc` and `pushback` from any good state. -/
namespace Verif.Lexer

/-- The lines read so far are those up to the current one (or all that have anything in them), or up to the one that was looked at. -/
structure Straight (b : Buffer) : Prop where
  cur : b.nextline = 0 → b.lastline + 1 = b.lineCount ∨ b.d.lStop b.lastline = b.d.bytes.length
  held : b.nextline ≠ 0 → b.nextline + 1 = b.lineCount
  mark : b.pbeg = b.d.lStart b.lastline ∨ b.d.bytes[b.pbeg - 1]? ≠ some 13

theorem Straight.same {b b' : Buffer} (h : Straight b) (hs : SameLine b b') : Straight b' := by
  refine ⟨?_, ?_, ?_⟩
  · unfold Buffer.d; rw [hs.nextline, hs.lastline, hs.lineCount, hs.input]; exact h.cur
  · rw [hs.nextline, hs.lineCount]; exact h.held
  · unfold Buffer.d; rw [hs.pbeg, hs.lastline, hs.input]; exact h.mark

theorem Straight.loaded {b b' : Buffer} (h : Straight b) (hl : Loaded b b') : Straight b' := by
  refine ⟨fun _ => .inl ?_, fun e => absurd hl.nextline e, .inl hl.start⟩
  by_cases e : b.nextline = 0
  · rw [(hl.fresh e).1, (hl.fresh e).2]
  · rw [(hl.held e).1, (hl.held e).2]; exact h.held e

/-- Progress, possibly over several lines. -/
structure FwB (b b' : Buffer) : Prop where
  input : b'.input = b.input
  pcur : b.pcur ≤ b'.pcur
  meas : b'.R ≤ b.R
  ptok : b.ptok ≤ b.pcur → b'.ptok ≤ b'.pcur
  eof : b.eofp = true → b'.eofp = true
  lc : b.lineCount ≤ b'.lineCount
  nl : b'.nextline = 0 ∨ b'.nextline = b.nextline
  low : ∀ p, p ≤ b.ptok → p < b.pcur → p ≤ b'.ptok
  str : Straight b → Straight b'

theorem FwB.refl (b : Buffer) : FwB b b := ⟨rfl, Nat.le_refl _, Nat.le_refl _, id, id, Nat.le_refl _, .inr rfl, fun _ h _ => h, id⟩
theorem FwB.trans {a b c : Buffer} (h : FwB a b) (h' : FwB b c) : FwB a c :=
  ⟨h'.input.trans h.input, Nat.le_trans h.pcur h'.pcur, Nat.le_trans h'.meas h.meas, h'.ptok ∘ h.ptok, h'.eof ∘ h.eof, Nat.le_trans h.lc h'.lc, by
    rcases h'.nl with e | e
    · exact .inl e
    · rw [e]; exact h.nl,
    fun p h1 h2 => h'.low p (h.low p h1 h2) (Nat.lt_of_lt_of_le h2 h.pcur), h'.str ∘ h.str⟩
theorem LocB.fw {b b' : Buffer} (h : LocB b b') : FwB b b' :=
  ⟨h.same.input, h.pcur, by have := h.meas; omega, h.ptok, h.eof, by rw [h.same.lineCount]; exact Nat.le_refl _, .inr h.same.nextline, h.low, fun h1 => h1.same h.same⟩

/-- With the frame. -/
def Fw (s s' : Lexer) : Prop := FwB s.buffer s'.buffer ∧ Fr s s'

theorem Fw.refl (s : Lexer) : Fw s s := ⟨.refl _, .refl _⟩
theorem Fw.trans {a b c : Lexer} (h : Fw a b) (h' : Fw b c) : Fw a c := ⟨h.1.trans h'.1, h.2.trans h'.2⟩
theorem Loc.fw {s s' : Lexer} (h : Loc s s') : Fw s s' := ⟨h.1.fw, h.2⟩
theorem Same.fw {s s' : Lexer} (h : Same s s') : Fw s s' := h.loc.fw

theorem _root_.Verif.Loaded.fw {b b' : Buffer} (hg : Good b) (h : Loaded b b') : FwB b b' := by
  refine ⟨h.input, ?_, h.meas, ?_, ?_, ?_, .inl h.nextline, ?_, fun h1 => h1.loaded h⟩
  · have := hg.hi; have := h.after; omega
  · intro _; rw [h.ptok]; exact Nat.le_refl _
  · intro e; rw [h.was] at e; simp at e
  · by_cases e : b.nextline = 0
    · have := (h.fresh e).2; omega
    · have := (h.held e).2; omega
  · intro p _ h2; rw [h.ptok]; have := hg.hi; have := h.after; omega

/-- The character `ch` comes next, on this line. -/
def Ahead (b : Buffer) (ch : UInt8) : Prop := b.nextline = 0 ∧ ∃ b', ReadIn b ch b'

/-- The result of reading a character; `b0` is the position from which it was read. -/
structure RdG (s : Lexer) (b0 : Buffer) (c : MB) (s' : Lexer) : Prop where
  eq : s' = { s with buffer := s'.buffer }
  fw0 : FwB s.buffer b0
  good0 : Good b0
  src : b0 = s.buffer ∨ b0 = { s.buffer with eofp := true } ∨ Loaded s.buffer b0
  isNone : c = none → s'.buffer = b0 ∧ (b0.eofp = true ∨ b0.R + 17 ≤ s.buffer.R) ∧
    (s.buffer.eofp = true ∨ b0.pcur = b0.pend)
  isSome : ∀ ch, c = some ch → b0.nextline = 0 ∧ ReadIn b0 ch s'.buffer
  nextc : NextC s.buffer c s'.buffer

theorem eofNow_fw {b : Buffer} : FwB b { b with eofp := true } := by
  refine ⟨rfl, Nat.le_refl _, ?_, id, fun _ => rfl, Nat.le_refl _, .inr rfl, fun _ h _ => h, fun h => ⟨h.cur, h.held, h.mark⟩⟩
  unfold Buffer.R Buffer.unread Buffer.curW Buffer.d
  simp

theorem Wp.nextcG {Q : MB → Lexer → Prop} {s : Lexer} (hg : Good s.buffer) (hq : ∀ b0 c s', RdG s b0 c s' → Q c s') :
    Wp Lexer.nextc Q s := by
  obtain ⟨c, b', e, hn⟩ := nextc_good hg
  refine ⟨c, { s with buffer := b' }, by simp [Lexer.nextc, e, Bind.bind, Except.bind, Pure.pure, Except.pure], ?_⟩
  cases hn with
  | here ch b' h1 hr =>
    exact hq s.buffer _ _ ⟨rfl, .refl _, hg, .inl rfl, by simp, by intro ch' e; cases e; exact ⟨h1, hr⟩, .here _ _ h1 hr⟩
  | load ch b1 b' hl hr =>
    exact hq b1 _ _ ⟨rfl, hl.fw hg, hl.good, .inr (.inr hl), by simp, by intro ch' e; cases e; exact ⟨hl.nextline, hr⟩, .load _ _ _ hl hr⟩
  | eof he =>
    exact hq s.buffer _ _ ⟨rfl, .refl _, hg, .inl rfl, fun _ => ⟨rfl, .inl he, .inl he⟩, by simp, .eof he⟩
  | eofNow he hn hp hx =>
    exact hq { s.buffer with eofp := true } _ _ ⟨rfl, eofNow_fw, { hg with nl2 := fun h => absurd hn h }, .inr (.inl rfl),
      fun _ => ⟨rfl, .inl rfl, .inr hp⟩, by simp, .eofNow he hn hp hx⟩
  | eofLoad b1 hl hp hx hR =>
    exact hq _ _ _ ⟨rfl, hl.fw hg, hl.good, .inr (.inr hl), fun _ => ⟨rfl, .inr hR, .inr hp⟩, by simp, .eofLoad _ hl hp hx hR⟩

theorem _root_.Verif.ReadIn.same {b b' : Buffer} {ch : UInt8} (h : ReadIn b ch b') : SameLine b b' := by
  rw [h.eq]; exact ⟨rfl, rfl, rfl, rfl, rfl, rfl, rfl, rfl⟩

theorem _root_.Verif.ReadIn.locB {b b' : Buffer} {ch : UInt8} (hn : b.nextline = 0) (h : ReadIn b ch b') : LocB b b' := by
  refine ⟨h.same, Nat.le_of_lt h.lt, R_sameLine h.same hn h.noeof (Nat.le_of_lt h.lt) h.good.hi, ?_, ?_, ?_⟩
  · have := h.lt
    have e : b'.ptok = b.ptok := by rw [h.eq]
    omega
  · intro e; rw [h.noeof] at e; simp at e
  · intro p h1 _; rw [h.eq]; exact h1

theorem _root_.Verif.ReadIn.meas {b b' : Buffer} {ch : UInt8} (hn : b.nextline = 0) (h : ReadIn b ch b') : b'.R + 8 ≤ b.R := by
  have := (h.locB hn).meas; have := h.lt; omega

namespace RdG
variable {s s' : Lexer} {b0 : Buffer} {c : MB}

theorem same_fr (h : RdG s b0 c s') : Fr s s' := by rw [h.eq]; exact .refl _

theorem loc0 (h : RdG s b0 c s') : LocB b0 s'.buffer := by
  cases c with
  | none => rw [(h.isNone rfl).1]; exact .refl _
  | some ch => exact (h.isSome ch rfl).2.locB (h.isSome ch rfl).1

theorem fw (h : RdG s b0 c s') : Fw s s' := ⟨h.fw0.trans h.loc0.fw, h.same_fr⟩

theorem good (h : RdG s b0 c s') : Good s'.buffer := by
  cases c with
  | none => rw [(h.isNone rfl).1]; exact h.good0
  | some ch => exact (h.isSome ch rfl).2.good

theorem meas {ch : UInt8} (h : RdG s b0 (some ch) s') : s'.buffer.R + 8 ≤ s.buffer.R := by
  have := (h.isSome ch rfl).2.meas (h.isSome ch rfl).1
  have := h.fw0.meas
  omega

theorem pos {ch : UInt8} (h : RdG s b0 (some ch) s') : s'.buffer.pbeg < s'.buffer.pcur := by
  have h1 := (h.isSome ch rfl).2
  have := h1.lt
  have := h.good0.lo
  have := h1.same.pbeg
  omega

theorem noeof {ch : UInt8} (h : RdG s b0 (some ch) s') : s'.buffer.eofp = false := by
  have h1 := (h.isSome ch rfl).2
  rw [h1.eq]; exact h1.noeof

theorem nonl {ch : UInt8} (h : RdG s b0 (some ch) s') : s'.buffer.nextline = 0 := by
  rw [h.loc0.same.nextline]; exact (h.isSome ch rfl).1

theorem mid {ch : UInt8} (h : RdG s b0 (some ch) s') (hne : ch ≠ 10) : Mid s'.buffer := by
  have h1 := (h.isSome ch rfl).2
  obtain ⟨h2, h3⟩ := h1.byte hne
  exact { h.good with
    lt := h.pos
    nolf := by
      rw [h2]; simp only [Buffer.d, h1.same.input, Nat.add_sub_cancel]
      simp only [Buffer.d] at h3
      rw [h3]; simpa using hne
    nonl := h.nonl }

end RdG

/-- `BSame` carries over what is read. -/
theorem _root_.Verif.ReadIn.bsame {b b' b2 : Buffer} {ch : UInt8} (h : ReadIn b ch b') (hs : BSame b b2) :
    ReadIn b2 ch { b2 with pcur := b'.pcur } := by
  have e1 := hs.same.input
  have e2 := hs.same.pend
  have e3 := hs.pcur
  have hd : b2.d = b.d := by simp only [Buffer.d, e1]
  have hs' : BSame b' { b2 with pcur := b'.pcur } := by
    have h1 := h.same
    refine ⟨⟨e1.trans h1.input.symm, hs.same.lineCount.trans h1.lineCount.symm, hs.same.prevline.trans h1.prevline.symm,
      hs.same.lastline.trans h1.lastline.symm, hs.same.nextline.trans h1.nextline.symm, hs.same.pbeg.trans h1.pbeg.symm,
      hs.same.pend.trans h1.pend.symm, hs.same.sl.trans h1.sl.symm⟩, rfl, ?_⟩
    show b2.eofp = b'.eofp
    rw [hs.eofp, h.eq]
  refine ⟨⟨rfl, by rw [hs.eofp]; exact h.noeof, by rw [e3]; exact h.lt, hs'.good h.good, ?_, ?_, ?_⟩, ?_⟩
  · intro hne; rw [e3, hd]; exact h.byte hne
  · intro he
    rw [hd]
    have := h.lf he
    refine ⟨?_, this.2⟩
    show b'.pcur = b2.pend
    rw [e2, this.1, h.same.pend]
  · have := h.back
    unfold Buffer.pbPos at this ⊢
    have e5 : b'.d = b.d := by simp only [Buffer.d, h.same.input]
    rw [e5, h.same.pbeg] at this
    dsimp only [Buffer.d] at this ⊢
    rw [e1, hs.same.pbeg, e3]
    exact this
  · have h1 := h.rd
    have h2 := h.eq
    unfold Buffer.readByte Buffer.parserCr Buffer.peek Buffer.peekN Buffer.isEolN at h1 ⊢
    rw [e1, e3]
    dsimp only at h1 ⊢
    rw [e2]
    cases hb : b.input.byteAt b.pcur with
    | none => rw [hb] at h1; simp at h1
    | some c =>
      rw [hb] at h1
      dsimp only at h1 ⊢
      split at h1
      · rename_i h13
        rw [if_pos h13]
        split at h1
        · rename_i h4
          rw [if_pos h4]
          simp only [Bind.bind, Except.bind, Pure.pure, Except.pure, Bool.false_eq_true, if_false] at h1 ⊢
          simp only [Except.ok.injEq, Prod.mk.injEq] at h1
          obtain ⟨h5, h6⟩ := h1
          rw [← h6, h5]
        · rename_i h4
          rw [if_neg h4]
          cases hu : b.input.uncheckedByteAt (b.pcur + 1 + 0) with
          | error e => rw [hu] at h1; simp [Bind.bind, Except.bind] at h1
          | ok x =>
            rw [hu] at h1
            simp only [Bind.bind, Except.bind, Pure.pure, Except.pure] at h1 ⊢
            by_cases h7 : (10 == x) = true
            all_goals
              simp only [h7, if_true, if_false, Bool.false_eq_true, Except.ok.injEq, Prod.mk.injEq] at h1 ⊢
              obtain ⟨h5, h6⟩ := h1
              refine ⟨h5, ?_⟩
              rw [← h6]
      · rename_i h13
        rw [if_neg h13]
        simp only [Except.ok.injEq, Prod.mk.injEq] at h1 ⊢
        obtain ⟨h5, h6⟩ := h1
        refine ⟨h5, ?_⟩
        rw [← h6]

theorem Ahead.bsame {b b2 : Buffer} {ch : UInt8} (h : Ahead b ch) (hs : BSame b b2) : Ahead b2 ch := by
  obtain ⟨h1, b', h2⟩ := h
  exact ⟨by rw [hs.same.nextline]; exact h1, _, h2.bsame hs⟩

theorem RdG.ahead {s s' : Lexer} {b0 : Buffer} {ch : UInt8} (h : RdG s b0 (some ch) s') : Ahead b0 ch :=
  ⟨(h.isSome ch rfl).1, _, (h.isSome ch rfl).2⟩

/-- What comes next is what is read. -/
theorem Ahead.read {s s' : Lexer} {b0 : Buffer} {c : MB} {ch : UInt8} (h : Ahead s.buffer ch) (hr : RdG s b0 c s') :
    c = some ch ∧ b0 = s.buffer := by
  obtain ⟨h1, b', h2⟩ := h
  have h3 := h2.lt
  have h4 := h2.good.hi
  have h5 := h2.same.pend
  have hn : ¬ s.buffer.pcur = s.buffer.pend := by omega
  have hnx := hr.nextc
  generalize s'.buffer = bb at hnx
  cases hnx with
  | here ch' b'' _ hr' =>
    have e1 := hr'.rd
    rw [h2.rd] at e1
    simp only [Except.ok.injEq, Prod.mk.injEq] at e1
    refine ⟨e1.1.symm, ?_⟩
    rcases hr.src with h | h | h
    · exact h
    · have := (hr.isSome _ rfl).2.noeof
      rw [h] at this; simp at this
    · exact absurd (h.atEnd h1).1 hn
  | load ch' b1 b'' hl hr' => exact absurd (hl.atEnd h1).1 hn
  | eof he => rw [h2.noeof] at he; simp at he
  | eofNow _ _ hp _ => exact absurd hp hn
  | eofLoad b1 hl _ _ _ => exact absurd (hl.atEnd h1).1 hn

/-- Pushing back the character just read. -/
theorem Wp.pushbackG {Q : Unit → Lexer → Prop} {s s1 s2 : Lexer} {b0 : Buffer} {c : MB} (h : RdG s b0 c s1)
    (hb : BSame s1.buffer s2.buffer) (ht : s2.buffer.ptok = s1.buffer.ptok) (hf : Fr s1 s2)
    (hq : ∀ s3, Fw s s3 → Good s3.buffer → BSame b0 s3.buffer → s3.buffer.ptok = b0.ptok → s3 = { s2 with buffer := s3.buffer } → Q () s3) :
    Wp (Lexer.pushback c) Q s2 := by
  cases c with
  | none =>
    have h1 := (h.isNone rfl).1
    rw [h1] at hb ht
    exact ⟨(), s2, rfl, hq s2 ⟨h.fw0.trans (hb.locB' ht).fw, h.same_fr.trans hf⟩
      (hb.good h.good0) hb ht rfl⟩
  | some ch =>
    obtain ⟨h1, h2⟩ := h.isSome ch rfl
    have h0 : 0 < s2.buffer.pcur := by have := h2.lt; rw [hb.pcur]; omega
    have hpb : s2.buffer.pbPos = b0.pcur := by
      rw [← h2.back]; unfold Buffer.pbPos
      rw [hb.pcur, hb.same.pbeg]; simp only [Buffer.d, hb.same.input]
    have hss := h2.same.trans hb.same
    have hb2 : BSame b0 { s2.buffer with pcur := b0.pcur } :=
      ⟨⟨hss.input, hss.lineCount, hss.prevline, hss.lastline, hss.nextline, hss.pbeg, hss.pend, hss.sl⟩, rfl, by
        show s2.buffer.eofp = _
        rw [hb.eofp, h2.eq]⟩
    have ht2 : s2.buffer.ptok = b0.ptok := by rw [ht, h2.eq]
    refine ⟨(), { s2 with buffer := { s2.buffer with pcur := b0.pcur } }, ?_, hq _ ?_ (hb2.good h.good0) hb2 ht2 rfl⟩
    · simp [Lexer.pushback, Buffer.pushback, pushbackByte_eq _ h0, hpb, Bind.bind, Except.bind, Pure.pure, Except.pure]
    · exact ⟨h.fw0.trans (hb2.locB' ht2).fw, h.same_fr.trans hf⟩

end Verif.Lexer
