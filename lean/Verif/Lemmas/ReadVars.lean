import Verif.Lemmas.ReadNames
/-! The text of the names of global, instance and class variables is UTF-8. -/
namespace Verif.Lexer
open Spec

/-- The end of the name of a variable. -/
def VrP (D : Bytes) (k : Nat) (t : Tok) (s : Lexer) : Prop :=
  t = .END_OF_INPUT ∨ (notName t = true ∧ (plainWord t = true → Utf8.valid (Val s) = true)) ∨ (t = .tNTH_REF ∧ Tx D k s)

theorem Pc.and {α : Type} {x : LexM α} {P Q : α → Lexer → Prop} {s : Lexer} (h1 : Pc x P s) (h2 : Pc x Q s) : Pc x (fun a s' => P a s' ∧ Q a s') s :=
  fun a s' e => ⟨h1 a s' e, h2 a s' e⟩

section
variable {D T : Bytes} {k q : Nat} {ch : UInt8} {c : MB} {s : Lexer}

theorem Tx.bs {s s' : Lexer} (h : Tx D k s) (hb : BSame s.buffer s'.buffer) (ht : s'.buffer.ptok = s.buffer.ptok) (h1 : s'.lval = s.lval)
    (h2 : s'.lvalStart = s.lvalStart) (h3 : s'.lvalEnd = s.lvalEnd) : Tx D k s' :=
  ⟨⟨by rw [← h.bytes]; simp only [Buffer.d, hb.same.input], h2.trans h.ls, h3.trans h.le, h.lv.congr h1, by rw [ht, hb.pcur]; exact h.asc⟩,
    hb.mid h.mid, ht.trans h.tok, by rw [hb.pcur]; exact h.past⟩
theorem Rx.bs {s s' : Lexer} (h : Rx D k c s) (hb : BSame s.buffer s'.buffer) (ht : s'.buffer.ptok = s.buffer.ptok) (h1 : s'.lval = s.lval)
    (h2 : s'.lvalStart = s.lvalStart) (h3 : s'.lvalEnd = s.lvalEnd) : Rx D k c s' := by
  obtain ⟨⟨p, b, k1, k2, k3⟩, k4, k5, k6, k7⟩ := h
  exact ⟨⟨p, b, k1, k2, ⟨k3.same.trans hb.same, hb.pcur.trans k3.pcur, hb.eofp.trans k3.eofp⟩⟩, h2.trans k4, h3.trans k5, k6.congr h1, ht.trans k7⟩
theorem bsame_ptok (b : Buffer) (p : Nat) : BSame b (b.setPtok p) := ⟨⟨rfl, rfl, rfl, rfl, rfl, rfl, rfl, rfl⟩, rfl, rfl⟩
theorem bsame_newtok (b : Buffer) (i l : Nat) : BSame b { b with tokidx := i, tokline := l } := ⟨⟨rfl, rfl, rfl, rfl, rfl, rfl, rfl, rfl⟩, rfl, rfl⟩

theorem Pc.setPtokT {Q : Unit → Lexer → Prop} {p : Nat} (h : Tx D k s) (hp : p = k) (hq : ∀ s', Tx D k s' → Q () s') : Pc (Lexer.setPtok p) Q s :=
  Pc.mutB (hq _ (h.bs (bsame_ptok _ _) (hp.trans h.tok.symm) rfl rfl rfl))
theorem Pc.newtokT {Q : Unit → Lexer → Prop} (h : Tx D k s) (hq : ∀ s', Tx D k s' → s'.tokenbuf = [] → Q () s') : Pc Lexer.newtok Q s :=
  Pc.modS (hq _ (h.bs (bsame_newtok _ _ _) rfl rfl rfl rfl) rfl)
theorem Pc.setPtokR {Q : Unit → Lexer → Prop} {p : Nat} (h : Rx D k c s) (hp : p = k) (hq : ∀ s', Rx D k c s' → Q () s') : Pc (Lexer.setPtok p) Q s :=
  Pc.mutB (hq _ (h.bs (bsame_ptok _ _) (hp.trans h.tok.symm) rfl rfl rfl))
theorem Pc.newtokR {Q : Unit → Lexer → Prop} (h : Rx D k c s) (hq : ∀ s', Rx D k c s' → s'.tokenbuf = [] → Q () s') : Pc Lexer.newtok Q s :=
  Pc.modS (hq _ (h.bs (bsame_newtok _ _ _) rfl rfl rfl rfl) rfl)

theorem Rx.pos (h : Rx D k c s) : 0 < s.buffer.pcur := by
  obtain ⟨⟨p, b, h1, h2, h3⟩, -⟩ := h
  rw [h3.pcur]; exact h2.pos

theorem isIdentcharAt_bs {b b' : Buffer} (h : BSame b b') (p : Nat) : b'.isIdentcharAt p = b.isIdentcharAt p := by
  simp only [Buffer.isIdentcharAt, Buffer.d, h.same.input]

/-- A character of a name was read. -/
theorem Rx.name (h : Rx D k c s) (hi : s.buffer.eofp = false ∧ s.buffer.isIdentcharAt (s.buffer.pcur - 1) = true) :
    ∃ ch, c = some ch ∧ (k ≤ s.buffer.pcur - 1 ∧ AscFrom D k (s.buffer.pcur - 1)) ∧ ∀ s', Nt s s' → NmC D k (s.buffer.pcur - 1) s'.tokenbuf ch s' := by
  obtain ⟨⟨p, b, h1, h2, h3⟩, h4, h5, h6, h7⟩ := h
  have := h2.ident (by rw [h3.eofp, h3.pcur, isIdentcharAt_bs h3] at hi; exact hi)
  cases c with
  | none => exact absurd rfl this.2
  | some ch =>
    obtain ⟨k1, k2⟩ := (h2.isSome ch rfl).byte (fun e => this.1 (by rw [e]))
    have hb : s.buffer.d.bytes = D := by rw [← h1.bytes]; simp only [Buffer.d, h3.same.input, h2.loc.1.same.input]
    have hpc : s.buffer.pcur = p.buffer.pcur + 1 := by rw [h3.pcur]; exact k1
    refine ⟨ch, rfl, ?_, fun s' hn => ⟨⟨by rw [hn.buf]; exact hb, hn.ls.trans h4, hn.le.trans h5, h6.congr hn.lv, by rw [hn.buf]; exact h7⟩, ?_, ?_, ?_, ?_, ?_, ?_⟩⟩
    · rw [hpc, Nat.add_sub_cancel]; exact ⟨Nat.le_of_lt h1.past, by rw [← h1.tok]; exact h1.asc⟩
    · rw [hn.buf]; exact h3.mid (h2.mid this.1)
    · rw [hn.buf]; exact hi.1
    · rw [hn.buf, hpc, Nat.add_sub_cancel, ← h1.bytes]; exact k2
    · rw [hn.buf, slice_nil, List.append_nil]
    · rw [hn.buf, slice_nil]; exact Utf8.valid_nil
    · rw [hn.buf]; omega


/-- No character of a name was read. -/
theorem Rx.other (h : Rx D k c s) (hi : ¬ (s.buffer.eofp = false ∧ s.buffer.isIdentcharAt (s.buffer.pcur - 1) = true)) : MAsc c := by
  intro ch e
  subst e
  by_cases hlt : ch.toNat < 128
  · exact hlt
  exfalso
  apply hi
  obtain ⟨⟨p, b, h1, h2, h3⟩, h4, h5, h6, h7⟩ := h
  have hr := h2.isSome ch rfl
  have h10 : ch ≠ 10 := by rintro rfl; exact hlt (by decide)
  obtain ⟨k1, k2⟩ := hr.byte h10
  refine ⟨by rw [h3.eofp]; exact (h2.some_eof (by simp)).2.1, ?_⟩
  rw [h3.pcur, isIdentcharAt_bs h3, k1, Nat.add_sub_cancel]
  have hb : b.buffer.input = p.buffer.input := h2.loc.1.same.input
  have k2 : p.buffer.input.decoded.bytes[p.buffer.pcur]? = some ch := k2
  have k8 : MB.u8Ascii ch = false := by
    simp only [MB.u8Ascii, decide_eq_false_iff_not, UInt8.lt_iff_toNat_lt]; exact hlt
  simp only [Buffer.isIdentcharAt, Input.byteAt, hb, k2, k8, Bool.not_false, Bool.or_true]

theorem tokaddIdent_pc (h : NmC D k q T ch s) : Pc (Lexer.tokaddIdent (some ch)) (fun r s' => r = false → Nm D k q T s') s := by
  unfold Lexer.tokaddIdent
  refine Pc.bind (Pc.fuel fun n => Pc.bind (Pc.mono (identLoop_pc h) fun r s1 h1 => ?_))
  cases r with
  | none => exact Pc.pure (by simp)
  | some c => exact Pc.bind (Pc.pushbackN (h1 c rfl).1 fun s' k => Pc.pure fun _ => k)

theorem gvarName_pc (h : NmC D k q T ch s) (ht : Utf8.valid T = true) : Pc (Lexer.gvarName (some ch)) (VrP D k) s := by
  unfold Lexer.gvarName
  refine Pc.bind (Pc.mono (tokaddIdent_pc h) fun r s1 h1 => Pc.ite (fun _ => Pc.pure (.inl rfl)) fun hr => ?_)
  have h1 := h1 (by simpa using hr)
  refine Pc.bind (Pc.nuN h1 Nu.setState Tn.setState fun _ s2 h2 => Pc.bind (Pc.modS (Pc.pure (.inr (.inl ⟨rfl, fun _ => ?_⟩)))))
  show Utf8.valid s2.tokenbuf = true
  rw [h2.txt]
  exact Utf8.valid_append ht h2.val

theorem VrP.of_fx {t : Tok} (ht : notName t = true) (h : Fx D s) : VrP D k t s := .inr (.inl ⟨ht, fun _ => h.val.valid⟩)

theorem nthLoop_pc : ∀ {n : Nat} {c : MB} {s : Lexer}, Tx D k s → Pc (Lexer.nthLoop n c) (fun c s' => Rx D k c s') s := by
  intro n
  induction n with
  | zero => intro c s h; exact Pc.fail
  | succ n ih =>
    intro c s h
    unfold Lexer.nthLoop
    refine Pc.bind (Pc.nuT h Nu.tokaddMB fun _ s1 h1 => Pc.bind (Pc.nextcT h1 fun c s2 h2 => Pc.ite (fun _ => Pc.pure h2) fun hc => ih ?_))
    have hd : MB.isDigit c = true := by
      cases hx : MB.isDigit c with
      | true => rfl
      | false => rw [hx] at hc; simp at hc
    exact h2.go (digit_asc hd) (by rintro rfl; exact absurd hd (by decide))

theorem Pc.nextcT' {Q : MB → Lexer → Prop} (h : Tx D k s) (ha : AsciiB s.tokenbuf) (hq : ∀ c s', Rx D k c s' → AsciiB s'.tokenbuf → Q c s') : Pc Lexer.nextc Q s := by
  intro c s' e
  exact Pc.nextcT (Q := fun c s' => AsciiB s'.tokenbuf → Q c s') h (fun c s' h => hq c s' h) c s' e (by rw [(Tn.nextc s c s' e).2]; exact ha)

theorem nt_tokadd (v : Bytes) : Nt s { s with tokenbuf := v } := ⟨rfl, rfl, rfl, rfl⟩
theorem parseGvar_pc {l : LexState} (h : Tx D k s) (hk : s.buffer.pcur = k + 1) : Pc (Lexer.parseGvar l) (VrP D k) s := by
  unfold Lexer.parseGvar
  refine Pc.bind (Pc.nu Nu.setState fun _ s0 n0 => ?_)
  have h0 := h.nt n0
  have hk : s0.buffer.pcur = k + 1 := by rw [n0.buf]; exact hk
  refine Pc.bind (Pc.pcurSub fun _ => Pc.bind (Pc.setPtokT h0 (by omega) fun s1 h1 => Pc.bind (Pc.newtokT h1 fun s2 h2 ht2 => ?_)))
  refine Pc.bind (Pc.nextcT' h2 (by rw [ht2]; exact .nil) fun c s3 h3 ht3 => ?_)
  refine Pc.ite (fun hc => ?_) fun _ => Pc.ite (fun hc => ?_) fun _ => Pc.ite (fun hc => ?_) fun _ => Pc.ite (fun hc => ?_) fun _ =>
    Pc.ite (fun hc => ?_) fun _ => ?_
  · refine Pc.bind (Pc.nextcT' (by tx_tac) ht3 fun c4 s4 h4 ht4 => Pc.bind (Pc.of_wp (Wp.isIdentchar h4.pos fun r hi => ?_)))
    refine Pc.ite (fun hr => ?_) fun _ => ?_
    · obtain ⟨ch, rfl, -, h5⟩ := h4.name (hi.1 hr)
      refine Pc.bind (Pc.modS (Pc.bind (Pc.modS ?_)))
      refine gvarName_pc (h5 _ ((nt_tokadd _).trans (nt_tokadd _))) ?_
      exact ((ht4.append (.single (by decide))).append (.single (by decide))).valid
    · refine Pc.bind (Pc.pushbackT h4 fun s5 h5 => Pc.bind (Pc.nuT h5 Nu.tokadd fun _ s6 h6 => Pc.bind (Pc.nuT h6 Nu.tokadd fun _ s7 h7 => ?_)))
      exact Pc.pure (.of_fx rfl h7.toFx)
  · have hm : MAsc c := by
      intro ch e; subst e
      exact (show ∀ u ∈ ascs "~*$?!@/\\;,.=:<>\"", u.toNat < 128 by decide) ch (by simpa using hc)
    refine Pc.bind (Pc.nuR h3 Nu.tokadd fun _ s4 h4 => Pc.bind (Pc.nuR h4 Nu.tokaddMB fun _ s5 h5 => Pc.pure (.of_fx rfl (h5.fx hm))))
  · refine Pc.bind (Pc.nuR h3 Nu.tokadd fun _ s4 h4 => Pc.bind (Pc.nuR h4 Nu.tokaddMB fun _ s5 h5 => ?_))
    have h5 : Tx D k s5 := by tx_tac
    refine Pc.bind (Pc.nextcT h5 fun c6 s6 h6 => Pc.bind (Pc.of_wp (Wp.isIdentchar h6.pos fun r hi => ?_)))
    refine Pc.ite (fun hr => ?_) fun _ => ?_
    · obtain ⟨ch, rfl, ha, h7⟩ := h6.name (hi.1 hr)
      refine Pc.bind (Pc.mono (tokaddMbchar_pc (h7 _ (.refl _))) fun r s7 h8 => Pc.ite (fun _ => Pc.pure (.inl rfl)) fun hr => ?_)
      obtain ⟨h8, -⟩ := h8 (by simpa using hr)
      refine Pc.pure (.inr (.inl ⟨rfl, fun _ => ?_⟩))
      unfold Val
      cases hv : s7.lval with
      | some v => exact (h8.lv v hv).2.valid
      | none =>
        simp only [Option.getD_none, tBegin, tEnd, h8.ls, h8.le, h8.bytes, h8.tok]
        have hlt := h8.lt
        rw [slice_append ha.1 (by omega)]
        exact Utf8.valid_append ha.2.slice.valid h8.val
    · refine Pc.bind (Pc.pushbackT h6 fun s7 h7 => Pc.bind ?_)
      intro u s8 e
      exact Pc.pure (.inr (.inl ⟨rfl, fun h => absurd h (by decide)⟩))
  · refine Pc.ite (fun _ => ?_) fun _ => Pc.pure (.of_fx rfl (h3.fx ?_))
    · refine Pc.bind (Pc.nuR h3 Nu.tokadd fun _ s4 h4 => Pc.bind (Pc.nuR h4 Nu.tokaddMB fun _ s5 h5 => Pc.pure (.of_fx rfl (h5.fx ?_))))
      rcases or_of hc with hc | hc
      · rcases or_of hc with hc | hc
        · rcases or_of hc with hc | hc <;> exact MAsc.isC hc (by decide)
        · exact MAsc.isC hc (by decide)
      · exact MAsc.isC hc (by decide)
    · rcases or_of hc with hc | hc
      · rcases or_of hc with hc | hc
        · rcases or_of hc with hc | hc <;> exact MAsc.isC hc (by decide)
        · exact MAsc.isC hc (by decide)
      · exact MAsc.isC hc (by decide)
  · have hm : MAsc c ∧ c ≠ some 10 := by
      constructor
      · intro ch e; subst e
        simp only [MB.ge, MB.le, Bool.and_eq_true, decide_eq_true_eq] at hc
        have := UInt8.le_iff_toNat_le.1 hc.2
        have e9 : (asc '9').toNat = 57 := by decide
        omega
      · rintro rfl; exact absurd hc (by decide)
    refine Pc.bind (Pc.nuT (h3.go hm.1 hm.2) Nu.tokadd fun _ s4 h4 => Pc.bind (Pc.fuel fun n => Pc.bind (Pc.mono (nthLoop_pc h4) fun c5 s5 h5 => ?_)))
    refine Pc.bind (Pc.pushbackT h5 fun s6 h6 => Pc.ite (fun _ => Pc.pure (.of_fx rfl h6.toFx)) fun _ => Pc.pure (.inr (.inr ⟨rfl, h6⟩)))
  · refine Pc.bind (Pc.of_wp (Wp.isIdentchar h3.pos fun r hi => ?_))
    refine Pc.ite (fun hr => ?_) fun hr => ?_
    · have hm := h3.other (fun h => by have := hi.2 h; rw [this] at hr; cases hr)
      have hf := h3.fx hm
      cases c with
      | none => exact Pc.bind (Pc.nuF hf Nu.currentLoc fun _ s4 h4 => Pc.bind (Pc.nuF h4 Nu.compileError fun _ s5 h5 => Pc.pure (.of_fx rfl h5)))
      | some name =>
        refine Pc.ite (fun _ => ?_) fun _ => ?_ <;>
          exact Pc.bind (Pc.nuF hf Nu.currentLoc fun _ s4 h4 => Pc.bind (Pc.nuF h4 Nu.compileError fun _ s5 h5 => Pc.pure (.of_fx rfl h5)))
    · obtain ⟨ch, rfl, -, h5⟩ := h3.name (hi.1 (by simpa using hr))
      refine Pc.bind (Pc.modS ?_)
      refine gvarName_pc (h5 _ (nt_tokadd _)) ?_
      exact (ht3.append (.single (by decide))).valid

theorem parseAtmark_pc {l : LexState} (h : Tx D k s) (hk : s.buffer.pcur = k + 1) : Pc (Lexer.parseAtmark l) (VrP D k) s := by
  unfold Lexer.parseAtmark
  refine Pc.bind (Pc.getB (Pc.bind (Pc.nextcT h fun c s1 h1 => Pc.bind (Pc.liftB fun p hp => ?_))))
  obtain ⟨rfl, -⟩ := csub_ok hp
  refine Pc.bind (Pc.setPtokR h1 (by omega) fun s2 h2 => Pc.bind (Pc.newtokR h2 fun s3 h3 ht3 => ?_))
  refine Pc.bind (Pc.modS ?_)
  have h4 : Rx D k c { s3 with tokenbuf := s3.tokenbuf ++ [asc '@'] } := h3.nt (nt_tokadd _)
  have ht4 : AsciiB (s3.tokenbuf ++ [asc '@']) := by rw [ht3]; exact .single (by decide)
  have main : ∀ (result : Tok) (c : MB) (s : Lexer), notName result = true → Rx D k c s → AsciiB s.tokenbuf → Pc (do
        setState (if LexState.isSome l EXPR_FNAME then EXPR_ENDFN else EXPR_END)
        let bad ← if c.isNone then Pure.pure true else (!·) <$> isIdentchar
        if bad then
          Lexer.pushback c
          compileError (if result = .tIVAR then .IvarWithoutId else .CvarWithoutId) (← currentLoc)
          setState EXPR_END
          Pure.pure result
        else
          match c with
          | some ch =>
            if MB.u8Digit ch then
              compileError (if result = .tIVAR then .InvalidIvarName ch else .InvalidCvarName ch) (← currentLoc)
              setState EXPR_END
              Pure.pure result
            else if ← tokaddIdent c then Pure.pure .END_OF_INPUT
            else
              setYylvalName
              Pure.pure result
          | none => fail .unreachable) (VrP D k) s := by
    intro result c s hn h ha
    have bad : ∀ {s}, Rx D k c s → Pc (do
          Lexer.pushback c
          compileError (if result = .tIVAR then .IvarWithoutId else .CvarWithoutId) (← currentLoc)
          setState EXPR_END
          Pure.pure result) (VrP D k) s := by
      intro s h
      refine Pc.bind (Pc.pushbackT h fun s1 h1 => Pc.bind (Pc.nuT h1 Nu.currentLoc fun _ s2 h2 => Pc.bind (Pc.nuT h2 Nu.compileError fun _ s3 h3 => ?_)))
      exact Pc.bind (Pc.nuT h3 Nu.setState fun _ s4 h4 => Pc.pure (.of_fx hn h4.toFx))
    refine Pc.bind (Pc.mono (Pc.and (Pc.nuR h Nu.setState fun _ s1 h1 => h1) (Pc.tn Tn.setState fun _ s1 h1 => h1.2)) fun _ s1 h1 => ?_)
    obtain ⟨h1, ht1⟩ := h1
    have ha1 : AsciiB s1.tokenbuf := by rw [ht1]; exact ha
    refine Pc.ite (fun _ => Pc.bind (Pc.pure (bad h1))) fun _ => Pc.bind (Pc.map (Pc.of_wp (Wp.isIdentchar h1.pos fun r hi => ?_)))
    refine Pc.ite (fun _ => bad h1) fun hr => ?_
    obtain ⟨ch, rfl, -, h5⟩ := h1.name (hi.1 (by simpa using hr))
    refine Pc.ite (fun hd => ?_) fun _ => ?_
    · have := h1.fx (digit_asc (c := some ch) hd)
      refine Pc.bind (Pc.nuF this Nu.currentLoc fun _ s2 h2 => Pc.bind (Pc.nuF h2 Nu.compileError fun _ s3 h3 => ?_))
      exact Pc.bind (Pc.nuF h3 Nu.setState fun _ s4 h4 => Pc.pure (.of_fx hn h4))
    · refine Pc.bind (Pc.mono (tokaddIdent_pc (h5 s1 (.refl _))) fun r s2 h2 => Pc.ite (fun _ => Pc.pure (.inl rfl)) fun hr => ?_)
      have h2 := h2 (by simpa using hr)
      refine Pc.bind (Pc.modS (Pc.pure (.inr (.inl ⟨hn, fun _ => ?_⟩))))
      show Utf8.valid s2.tokenbuf = true
      rw [h2.txt]
      exact Utf8.valid_append ha1.valid h2.val
  refine Pc.ite (fun hc => ?_) fun _ => ?_
  · refine Pc.bind (Pc.modS (Pc.bind (Pc.nextcT' (Tx.nt (Rx.go h4 (MAsc.isC hc (by decide)) (isC_ne10 hc (by decide))) (nt_tokadd _))
      (ht4.append (.single (by decide))) fun c s5 h5 ht5 => Pc.bind (Pc.pure ?_))))
    exact main .tCVAR c _ rfl h5 ht5
  · exact Pc.bind (Pc.pure (main .tIVAR c _ rfl h4 ht4))
end
end Verif.Lexer
