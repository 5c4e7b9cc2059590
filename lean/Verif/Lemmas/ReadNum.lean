import Verif.Lemmas.ReadSteps
/-! The text of numbers is ASCII and not empty. -/
namespace Verif.Lexer
open Spec

/-- The end of a number: its value was stored, unless it is an error. -/
def NumP (t : Tok) (s : Lexer) : Prop := LvA s ∧ notName t = true ∧ (t = .END_OF_INPUT ∨ ∃ v, s.lval = some v)
/-- Within a number. -/
structure Nb (s : Lexer) : Prop where
  tb : AsciiB s.tokenbuf
  lv : LvA s

theorem Nb.tn {s s' : Lexer} (h : Nb s) (e : s'.lval = s.lval ∧ s'.tokenbuf = s.tokenbuf) : Nb s' :=
  ⟨by rw [e.2]; exact h.tb, h.lv.congr e.1⟩
theorem Nb.add {s : Lexer} {c : UInt8} (h : Nb s) (hc : c.toNat < 128) : Nb { s with tokenbuf := s.tokenbuf ++ [c] } :=
  ⟨h.tb.append (.single hc), h.lv⟩

section
variable {α : Type} {s : Lexer} {Q : α → Lexer → Prop}
theorem Pc.tn {x : LexM α} (hx : Tn x) (hq : ∀ a s', s'.lval = s.lval ∧ s'.tokenbuf = s.tokenbuf → Q a s') : Pc x Q s :=
  fun a s' e => hq a s' (hx s a s' e)
/-- A step that leaves value and token buffer alone. -/
theorem Pc.tnb {x : LexM α} (hx : Tn x) (h : Nb s) (hq : ∀ a s', Nb s' → (s.tokenbuf ≠ [] → s'.tokenbuf ≠ []) → Q a s') : Pc x Q s :=
  fun a s' e => hq a s' (h.tn (hx s a s' e)) (by rw [(hx s a s' e).2]; exact id)
theorem Pc.addb {Q : Unit → Lexer → Prop} {c : MB} (h : Nb s) (hc : MAsc c) (hq : ∀ s', Nb s' → s'.tokenbuf ≠ [] → Q () s') :
    Pc (Lexer.tokaddMB c) Q s := by
  cases c with
  | none => exact Pc.fail
  | some c => exact Pc.modS (hq _ (h.add (hc c rfl)) (by simp))
end

theorem or_of {a b : Bool} (h : (a || b) = true) : a = true ∨ b = true := by simpa using h
theorem setNumberLiteral_pc {v : Bytes} {t : Tok} {r : NumSuffix} {s : Lexer} (hv : AsciiB v) (hn : v ≠ []) (ht : notName t = true) :
    Pc (Lexer.setNumberLiteral v t r) NumP s := by
  unfold Lexer.setNumberLiteral
  refine Pc.ite (fun _ => ?_) fun _ => ?_
  · refine Pc.bind (Pc.modS (Pc.bind (Pc.modS (Pc.pure ⟨.set rfl (by simp) (hv.append (.single (by decide))), rfl, .inr ⟨_, rfl⟩⟩))))
  · refine Pc.bind (Pc.modS (Pc.bind (Pc.modS (Pc.pure ⟨.set rfl hn hv, ht, .inr ⟨_, rfl⟩⟩))))
theorem setIntegerLiteral_pc {v : Bytes} {r : NumSuffix} {s : Lexer} (hv : AsciiB v) (hn : v ≠ []) :
    Pc (Lexer.setIntegerLiteral v r) NumP s := by
  unfold Lexer.setIntegerLiteral
  exact Pc.ite (fun _ => setNumberLiteral_pc (hv.append (.single (by decide))) (by simp) rfl) fun _ => setNumberLiteral_pc hv hn rfl
theorem trailingUc_pc {c : UInt8} {s : Lexer} (h : LvA s) : Pc (Lexer.trailingUc c) NumP s := by
  intro t s' e
  have h1 := (Tn.trailingUc s t s' e).1
  unfold Lexer.trailingUc at e
  have : t = .END_OF_INPUT := (Ret.bind fun _ => Ret.bind fun _ => Ret.bind fun _ => Ret.pure (P := fun t => t = Tok.END_OF_INPUT) rfl) s t s' e
  subst this
  exact ⟨h.congr h1, rfl, .inl rfl⟩
theorem noDigits_pc {s : Lexer} : Pc Lexer.noDigits NumP s := by
  unfold Lexer.noDigits
  have key : ∀ s, Pc (Lexer.setIntegerLiteral (ascs "0") ⟨false, false⟩) NumP s :=
    fun s => setIntegerLiteral_pc (by unfold AsciiB; decide) (by decide)
  refine Pc.bind (Pc.tn Tn.yyerror0 fun _ _ _ => Pc.bind (Pc.tn Tn.peek fun _ _ _ => Pc.ite (fun _ => ?_) fun _ => key _))
  exact Pc.bind (Pc.tn Tn.nextc fun _ _ _ => key _)
/-- A number is completed from the token buffer. -/
theorem takeInt_pc {m : NumSuffix} {s : Lexer} {f : Bytes → Bytes} (h : Nb s) (hf : ∀ v, AsciiB v → AsciiB (f v)) (hn : f s.tokenbuf ≠ []) :
    Pc (do { let r ← Lexer.numberLiteralSuffix m; let tok ← Lexer.takeTok; Lexer.setIntegerLiteral (f tok) r }) NumP s := by
  refine Pc.bind (Pc.tn Tn.numberLiteralSuffix fun r s1 h1 => Pc.bind (Pc.takeTok ?_))
  rw [h1.2]
  exact setIntegerLiteral_pc (hf _ h.tb) hn
theorem parseNumericFooter_pc {a b : Bool} {s : Lexer} (h : Nb s) (hn : s.tokenbuf ≠ []) : Pc (Lexer.parseNumericFooter a b) NumP s := by
  unfold Lexer.parseNumericFooter
  refine Pc.ite (fun _ => ?_) fun _ => takeInt_pc (f := id) h (fun _ h => h) hn
  refine Pc.bind (Pc.tn Tn.numberLiteralSuffix fun r s1 h1 => Pc.bind (Pc.takeTok ?_))
  rw [h1.2]
  exact Pc.ite (fun _ => setNumberLiteral_pc (h.tb.append (.single (by decide))) (by simp) rfl) fun _ => setNumberLiteral_pc h.tb hn rfl
theorem decodeNum_pc {c : MB} {nd : Option MB} {a b : Bool} {s : Lexer} (h : Nb s) (hn : s.tokenbuf ≠ []) : Pc (Lexer.decodeNum c nd a b) NumP s := by
  unfold Lexer.decodeNum
  refine Pc.bind (Pc.tnb Tn.pushback h fun _ s1 h1 n1 => ?_)
  split
  · exact Pc.bind (Pc.tnb Tn.trailingUc h1 fun _ s2 h2 n2 => parseNumericFooter_pc h2 (n2 (n1 hn)))
  · exact parseNumericFooter_pc h1 (n1 hn)

theorem digit_asc {c : MB} (h : MB.isDigit c = true) : MAsc c := by
  intro ch e; subst e; revert h
  simp only [MB.isDigit, MB.u8Digit, Bool.and_eq_true, decide_eq_true_eq]
  rintro ⟨-, h⟩
  have : ch.toNat ≤ 57 := h
  omega
theorem hex_asc {c : MB} (h : MB.isHexdigit c = true) : MAsc c := by
  intro ch e; subst e; revert h
  simp only [MB.isHexdigit, MB.u8Hex, MB.u8Digit, Bool.and_eq_true, Bool.or_eq_true, decide_eq_true_eq]
  rintro ((⟨-, h⟩ | ⟨-, h⟩) | ⟨-, h⟩) <;> have := UInt8.le_iff_toNat_le.1 h <;> simp at this <;> omega
theorem bin_asc {c : MB} (h : (isC c '0' || isC c '1') = true) : MAsc c := by
  rcases or_of h with h | h <;> exact MAsc.isC h (by decide)

theorem digitLoop_pc {isD : MB → Bool} (hD : ∀ c, isD c = true → MAsc c) : ∀ {n : Nat} {c : MB} {nd : Option MB} {s : Lexer}, Nb s →
    Pc (Lexer.digitLoop isD n c nd) (fun _ s' => Nb s' ∧ (s.tokenbuf ≠ [] → s'.tokenbuf ≠ [])) s := by
  intro n
  induction n with
  | zero => intro c nd s h; exact Pc.fail
  | succ n ih =>
    intro c nd s h
    unfold Lexer.digitLoop
    have step : ∀ {nd1 nd2}, MAsc c → Pc (do { Lexer.tokaddMB c; let c' ← Lexer.nextc; if c'.isNone then return (c', nd1) else Lexer.digitLoop isD n c' nd2 })
        (fun _ s' => Nb s' ∧ (s.tokenbuf ≠ [] → s'.tokenbuf ≠ [])) s := by
      intro nd1 nd2 hc
      refine Pc.bind (Pc.addb h hc fun s1 h1 n1 => Pc.bind (Pc.tnb Tn.nextc h1 fun c' s2 h2 n2 => Pc.ite (fun _ => ?_) fun _ => ?_))
      · exact Pc.pure ⟨h2, fun _ => n2 n1⟩
      · exact Pc.mono (ih h2) fun _ _ k => ⟨k.1, fun _ => k.2 (n2 n1)⟩
    refine Pc.ite (fun hc => ?_) fun _ => Pc.ite (fun _ => Pc.pure ⟨h, id⟩) fun hd => step (hD c (by simpa using hd))
    exact Pc.ite (fun _ => Pc.pure ⟨h, id⟩) fun _ => step (MAsc.isC hc (by decide))

theorem prefixed_pc {isD : MB → Bool} (hD : ∀ c, isD c = true → MAsc c) {k : Nat} {c : MB} {s : Lexer} (h : Nb s) (hc : MAsc c) :
    Pc (Lexer.prefixed isD k c) NumP s := by
  unfold Lexer.prefixed
  refine Pc.bind (Pc.addb h hc fun s1 h1 n1 => Pc.bind (Pc.tnb Tn.nextc h1 fun c1 s2 h2 n2 => ?_))
  have rest : ∀ {c2 : MB} {nd : Option MB} {s : Lexer}, Nb s → Pc (do
      Lexer.pushback c2
      if (← Lexer.toklen) = k + 1 then noDigits
      else match nd with
        | some (some byte) => Lexer.trailingUc byte
        | _ =>
          let suffix ← Lexer.numberLiteralSuffix NUM_SUFFIX_ALL
          let tok ← Lexer.takeTok
          Lexer.setIntegerLiteral (ascs "0" ++ tok) suffix) NumP s := by
    intro c2 nd s h
    refine Pc.bind (Pc.tnb Tn.pushback h fun _ s3 h3 _ => Pc.bind (Pc.tnb Tn.toklen h3 fun _ s4 h4 _ => Pc.ite (fun _ => noDigits_pc) fun _ => ?_))
    split
    · exact trailingUc_pc h4.lv
    · exact takeInt_pc (f := fun t => ascs "0" ++ t) h4 (fun v hv => AsciiB.append (by unfold AsciiB; decide) hv) (by simp [ascs])
  refine Pc.ite (fun _ => ?_) fun _ => Pc.bind (Pc.pure (rest (c2 := c1) (nd := none) h2))
  refine Pc.bind (Pc.tnb Tn.fuel h2 fun _ s3 h3 _ => Pc.bind (Pc.mono (digitLoop_pc hD h3) fun r s4 h4 => ?_))
  exact rest (c2 := r.1) (nd := r.2) h4.1

theorem oct_asc {c : MB} (h : (MB.lt c (asc '0') || MB.gt c (asc '9')) ≠ true) : MAsc c := by
  intro ch e; subst e
  have : ∀ ch : UInt8, (MB.lt (some ch) (asc '0') || MB.gt (some ch) (asc '9')) = true ∨ ch.toNat < 128 := byte_forall (by decide +kernel)
  exact (this ch).resolve_left h
theorem octalLoop_pc : ∀ {n : Nat} {c : MB} {nd : Option MB} {s : Lexer}, Nb s → Pc (Lexer.octalLoop n c nd) (fun _ s' => Nb s') s := by
  intro n
  induction n with
  | zero => intro c nd s h; exact Pc.fail
  | succ n ih =>
    intro c nd s h
    unfold Lexer.octalLoop
    have step : ∀ {nd1 nd2}, MAsc c → Pc (do { Lexer.tokaddMB c; let c' ← Lexer.nextc; if c'.isNone then return .stop c' nd1 else Lexer.octalLoop n c' nd2 })
        (fun _ s' => Nb s') s := by
      intro nd1 nd2 hc
      refine Pc.bind (Pc.addb h hc fun s1 h1 n1 => Pc.bind (Pc.tnb Tn.nextc h1 fun c' s2 h2 n2 => Pc.ite (fun _ => ?_) fun _ => ?_))
      · exact Pc.pure h2
      · exact ih h2
    refine Pc.ite (fun hc => ?_) fun _ => Pc.ite (fun _ => Pc.pure h) fun hd => Pc.ite (fun _ => ?_) fun _ => step (oct_asc hd)
    · exact Pc.ite (fun _ => Pc.pure h) fun _ => step (MAsc.isC hc (by decide))
    · exact Pc.bind (Pc.tnb Tn.invalidOctal h fun _ s1 h1 _ => Pc.pure h1)

/-- What `parse_octal` leaves. -/
def OctP (r : OctRes) (s : Lexer) : Prop := match r with
  | .tok t => NumP t s
  | .cont _ _ => Nb s
theorem parseOctal_pc {c : MB} {nd : Option MB} {k : Nat} {s : Lexer} (h : Nb s) : Pc (Lexer.parseOctal c nd k) OctP s := by
  unfold Lexer.parseOctal
  refine Pc.bind (Pc.tnb Tn.fuel h fun _ s1 h1 _ => Pc.bind (Pc.mono (octalLoop_pc h1) fun r s2 h2 => ?_))
  cases r with
  | invalid c nd => exact Pc.pure h2
  | stop c nd =>
    refine Pc.bind (Pc.tnb Tn.toklen h2 fun _ s3 h3 _ => Pc.ite (fun _ => ?_) fun _ => ?_)
    · refine Pc.bind (Pc.tnb Tn.pushback h3 fun _ s4 h4 _ => ?_)
      split
      · exact Pc.bind (Pc.mono (trailingUc_pc h4.lv) fun t s5 h5 => Pc.pure h5)
      · have := takeInt_pc (m := NUM_SUFFIX_ALL) (f := fun t => ascs "0" ++ t) h4 (fun v hv => AsciiB.append (by unfold AsciiB; decide) hv) (by simp [ascs])
        refine Pc.bind (Pc.tn Tn.numberLiteralSuffix fun r s1 h1 => Pc.bind (Pc.takeTok ?_))
        rw [h1.2]
        exact Pc.bind (Pc.mono (setIntegerLiteral_pc (AsciiB.append (by unfold AsciiB; decide) h4.tb) (by simp [ascs])) fun t s5 h5 => Pc.pure h5)
    · split
      · exact Pc.bind (Pc.tnb Tn.pushback h3 fun _ s4 h4 _ => Pc.bind (Pc.mono (trailingUc_pc h4.lv) fun t s5 h5 => Pc.pure h5))
      · exact Pc.pure h3

/-- The next character is a digit. -/
def DigitNext (s : Lexer) : Prop := s.buffer.eofp = false ∧ s.buffer.nextline = 0 ∧ s.buffer.pcur ≠ s.buffer.pend ∧
  ∃ ch, s.buffer.d.bytes[s.buffer.pcur]? = some ch ∧ MB.u8Digit ch = true

theorem DigitNext.read {s s' : Lexer} {c : MB} (h : DigitNext s) (e : Lexer.nextc s = .ok (c, s')) : MB.isDigit c = true := by
  obtain ⟨h1, h2, h3, ch, h4, h5⟩ := h
  obtain ⟨b', e1, -⟩ := nextc_eq e
  have h13 : ch ≠ 13 := by rintro rfl; cases h5
  have h10 : ch ≠ 10 := by rintro rfl; cases h5
  simp only [Buffer.nextc, h1, h2, h3, Buffer.readByte, Input.byteAt] at e1
  simp only [Buffer.d] at h4
  simp [h4, h13, h10, Pure.pure, Except.pure] at e1
  rw [← e1.1]; exact h5

theorem numLoop_pc : ∀ {n : Nat} {c : MB} {a p e : Bool} {nd : Option MB} {s : Lexer}, Nb s →
    (s.tokenbuf ≠ [] ∨ MB.isDigit c = true ∨ (isC c '.' = true ∧ nd = none ∧ p = false ∧ e = false ∧ DigitNext s)) →
    Pc (Lexer.numLoop n c a p e nd) NumP s := by
  intro n
  induction n with
  | zero => intro c a p e nd s h _; exact Pc.fail
  | succ n ih =>
    intro c a p e nd s h hn
    unfold Lexer.numLoop
    refine Pc.ite (fun hd => ?_) fun hnd => ?_
    · exact Pc.bind (Pc.addb h (digit_asc hd) fun s1 h1 n1 => Pc.bind (Pc.tnb Tn.nextc h1 fun c' s2 h2 n2 => ih h2 (.inl (n2 n1))))
    have dotFirst : ∀ c0 s', Lexer.nextc s = .ok (c0, s') → s.tokenbuf ≠ [] ∨ MB.isDigit c0 = true := by
      intro c0 s' e0
      rcases hn with hn | hn | hn
      · exact .inl hn
      · exact absurd hn hnd
      · exact .inr (hn.2.2.2.2.read e0)
    refine Pc.ite (fun hdot => ?_) fun hdot => ?_
    · split
      · exact trailingUc_pc h.lv
      · rename_i hx
        refine Pc.ite (fun hs => ?_) fun hs => ?_
        · refine decodeNum_pc h ?_
          rcases hn with hn | hn | hn
          · exact hn
          · exact absurd hn hnd
          · rw [hn.2.2.1, hn.2.2.2.1] at hs; cases hs
        · refine Pc.bind ?_
          intro c0 s1 e1
          have hc0 := dotFirst c0 s1 e1
          have h1 := h.tn (Tn.nextc s c0 s1 e1)
          have t1 := (Tn.nextc s c0 s1 e1).2
          refine Pc.ite (fun hd0 => ?_) fun hd0 => ?_
          · have hne : s.tokenbuf ≠ [] := hc0.resolve_right (by simpa using hd0)
            exact Pc.bind (Pc.tnb Tn.pushback h1 fun _ s2 h2 n2 => decodeNum_pc h2 (n2 (by rw [t1]; exact hne)))
          · refine Pc.bind (Pc.modS (Pc.bind (Pc.addb (h1.add (by decide)) (digit_asc (by simpa using hd0)) fun s2 h2 n2 => ?_)))
            exact Pc.bind (Pc.tnb Tn.nextc h2 fun c' s3 h3 n3 => ih h3 (.inl (n3 n2)))
    · have hne : s.tokenbuf ≠ [] := by
        rcases hn with hn | hn | hn
        · exact hn
        · exact absurd hn hnd
        · exact absurd hn.1 hdot
      refine Pc.ite (fun he => ?_) fun _ => Pc.ite (fun hu => ?_) fun _ => decodeNum_pc h hne
      · have hce : MAsc c := by
          rcases or_of he with h | h <;> exact MAsc.isC h (by decide)
        split
        · exact Pc.bind (Pc.tnb Tn.pushback h fun _ s1 h1 n1 => decodeNum_pc h1 (n1 hne))
        · refine Pc.ite (fun _ => decodeNum_pc h hne) fun _ => Pc.bind (Pc.tnb Tn.nextc h fun c' s1 h1 n1 => Pc.ite (fun _ => ?_) fun hc' => ?_)
          · exact Pc.bind (Pc.tnb Tn.pushback h1 fun _ s2 h2 n2 => decodeNum_pc h2 (n2 (n1 hne)))
          · have hc'' : MAsc c' := by
              simp only [Bool.and_eq_true, Bool.not_eq_true', not_and, Bool.not_eq_false] at hc'
              by_cases k1 : isC c' '-' = true
              · exact MAsc.isC k1 (by decide)
              · by_cases k2 : isC c' '+' = true
                · exact MAsc.isC k2 (by decide)
                · exact digit_asc (hc' ⟨by simpa using k1, by simpa using k2⟩)
            refine Pc.bind (Pc.addb h1 hce fun s2 h2 _ => Pc.bind (Pc.addb h2 hc'' fun s3 h3 n3 => ?_))
            exact Pc.bind (Pc.tnb Tn.nextc h3 fun c' s4 h4 n4 => ih h4 (.inl (n4 n3)))
      · refine Pc.bind (Pc.addb h (MAsc.isC hu (by decide)) fun s1 h1 n1 => Pc.ite (fun _ => decodeNum_pc h1 n1) fun _ => ?_)
        exact Pc.bind (Pc.tnb Tn.nextc h1 fun c' s2 h2 n2 => ih h2 (.inl (n2 n1)))

theorem afterZero_pc {c : MB} {nd : Option MB} {s : Lexer} (h : Nb s) : Pc (Lexer.afterZero c nd) NumP s := by
  unfold Lexer.afterZero
  refine Pc.ite (fun hc => ?_) fun _ => Pc.ite (fun _ => ?_) fun _ => ?_
  · have hd : MB.isDigit c = true := by
      cases c with
      | none => simp [MB.gt, MB.le] at hc
      | some c =>
        have : ∀ c : UInt8, (MB.gt (some c) (asc '7') && MB.le (some c) (asc '9')) = true → MB.isDigit (some c) = true := byte_forall (by decide +kernel)
        exact this c hc
    exact Pc.bind (Pc.tnb Tn.invalidOctal h fun _ s1 h1 _ => Pc.bind (Pc.tnb Tn.fuel h1 fun _ s2 h2 _ => numLoop_pc h2 (.inr (.inl hd))))
  · exact Pc.bind (Pc.modS (Pc.bind (Pc.tnb Tn.fuel (h.add (by decide)) fun _ s2 h2 n2 => numLoop_pc h2 (.inl (n2 (by simp))))))
  · refine Pc.bind (Pc.tnb Tn.pushback h fun _ s1 h1 _ => takeInt_pc (f := fun t => t ++ [asc '0']) h1 (fun v hv => hv.append (.single (by decide))) (by simp))
theorem zeroOctal_pc {c : MB} {nd : Option MB} {k : Nat} {s : Lexer} (h : Nb s) : Pc (Lexer.zeroOctal c nd k) NumP s := by
  unfold Lexer.zeroOctal
  have oct : ∀ {c nd} {s : Lexer}, Nb s → Pc (do
      match ← Lexer.parseOctal c nd k with
      | .tok t => return t
      | .cont c nondigit => Lexer.afterZero c nondigit) NumP s := by
    intro c nd s h
    refine Pc.bind (Pc.mono (parseOctal_pc h) fun r s1 h1 => ?_)
    cases r with
    | tok t => exact Pc.pure h1
    | cont c nd => exact afterZero_pc h1
  refine Pc.ite (fun hc => ?_) fun _ => Pc.ite (fun _ => oct h) fun _ => afterZero_pc h
  have : MAsc c := by rcases or_of hc with h | h <;> exact MAsc.isC h (by decide)
  refine Pc.bind (Pc.addb h this fun s1 h1 _ => Pc.bind (Pc.tnb Tn.nextc h1 fun c' s2 h2 n2 => Pc.ite (fun _ => noDigits_pc) fun _ => ?_))
  exact Pc.ite (fun _ => oct h2) fun _ => afterZero_pc h2
theorem zeroLiteral_pc {s : Lexer} (h : Nb s) : Pc Lexer.zeroLiteral NumP s := by
  unfold Lexer.zeroLiteral
  refine Pc.bind (Pc.tnb Tn.toklen h fun k s1 h1 _ => Pc.bind (Pc.tnb Tn.nextc h1 fun c s2 h2 _ => ?_))
  have two : ∀ {d e : Char}, (isC c d || isC c e) = true → d.toNat < 128 → e.toNat < 128 → MAsc c := by
    intro d e hc h1 h2
    rcases or_of hc with h | h
    · exact MAsc.isC h h1
    · exact MAsc.isC h h2
  refine Pc.ite (fun hc => prefixed_pc (fun _ => hex_asc) h2 (two hc (by decide) (by decide))) fun _ =>
    Pc.ite (fun hc => prefixed_pc (fun _ => bin_asc) h2 (two hc (by decide) (by decide))) fun _ =>
    Pc.ite (fun hc => prefixed_pc (fun _ => digit_asc) h2 (two hc (by decide) (by decide))) fun _ => Pc.ite (fun _ => ?_) fun _ => zeroOctal_pc h2
  refine Pc.bind (Pc.mono (parseOctal_pc h2) fun r s1 h1 => ?_)
  cases r with
  | tok t => exact Pc.pure h1
  | cont c nd => exact zeroOctal_pc h1

theorem parseNumeric_pc {c : UInt8} {s : Lexer} (h : LvA s)
    (hc : c = asc '+' ∨ c = asc '-' ∨ MB.u8Digit c = true ∨ (c = asc '.' ∧ DigitNext s)) : Pc (Lexer.parseNumeric c) NumP s := by
  unfold Lexer.parseNumeric
  refine Pc.bind (Pc.modS (Pc.bind (Pc.modS ?_)))
  have h1 : ∀ {b : Buffer} {st : LexState}, Nb { s with lexState := st, buffer := b, tokenbuf := [] } := ⟨AsciiB.nil, h⟩
  have rest : ∀ {c : MB} {s : Lexer}, Nb s →
      (s.tokenbuf ≠ [] ∨ MB.isDigit c = true ∨ (isC c '.' = true ∧ DigitNext s)) →
      Pc (do { if isC c '0' then Lexer.zeroLiteral else Lexer.numLoop (← Lexer.fuel) c false false false none }) NumP s := by
    intro c s h hn
    refine Pc.ite (fun _ => zeroLiteral_pc h) fun _ => Pc.bind (Pc.fuel fun n => numLoop_pc h ?_)
    exact hn.imp id (Or.imp id fun k => ⟨k.1, rfl, rfl, rfl, k.2⟩)
  refine Pc.ite (fun hp => ?_) fun hp => rest h1 ?_
  · have ha : c.toNat < 128 := by rcases hp with rfl | rfl <;> decide
    refine Pc.bind (Pc.modS (Pc.bind (Pc.tnb Tn.nextc (h1.add ha) fun c s2 h2 n2 => rest h2 (.inl (n2 (by simp))))))
  · rcases hc with hc | hc | hc | hc
    · exact absurd (.inr hc) hp
    · exact absurd (.inl hc) hp
    · exact .inr (.inl hc)
    · refine .inr (.inr ⟨by rw [hc.1]; decide, hc.2⟩)
end Verif.Lexer
