import Verif.Lemmas.LexWp
import Verif.Model.Lexer.Numeric
import Verif.Spec.Number
/-! Exact runs of the number scanner on well-formed literals. -/
namespace Verif.Lexer
open NumberSpec

/-- A number may end at `q`. -/
structure EndsAt (b : Buffer) (q : Nat) : Prop where
  beg : b.pbeg < q
  prev : ∃ p, b.d.bytes[q - 1]? = some p ∧ p ≠ 10 ∧ p ≠ 13
  next : q = b.pend ∨ (q < b.pend ∧ ∃ c, b.d.bytes[q]? = some c ∧ Stops c ∧
    (c = asc '.' → q + 1 < b.pend ∧ ∃ x, b.d.bytes[q + 1]? = some x ∧ ¬ Dec x ∧ x ≠ 13))

/-- On the line there is `l`, then the number may end. -/
structure NumAhead (b : Buffer) (l : Bytes) : Prop where
  nonl : b.nextline = 0
  plen : b.pend ≤ b.d.bytes.length
  text : ∀ i, (h : i < l.length) → b.d.bytes[b.pcur + i]? = some l[i]
  le : b.pcur + l.length ≤ b.pend
  eof : b.eofp = true → l = [] ∧ b.pcur = b.pend
  ends : EndsAt b (b.pcur + l.length)

/-- What reading the next character gives when the number ends. -/
structure TermMB (c : MB) (b1 : Buffer) : Prop where
  stop : ∀ x, c = some x → Stops x
  point : c = some (asc '.') → ∃ x b2, b1.nextc = .ok (some x, b2) ∧ ¬ Dec x ∧ b2.pushback (some x) = .ok b1

/-- What reading the next character gives. -/
def First (l : Bytes) (c : MB) (b1 : Buffer) : Prop :=
  match l with
  | [] => TermMB c b1
  | x :: l' => c = some x ∧ NumAhead b1 l'

theorem nextc_byte {b : Buffer} {c : UInt8} (h1 : b.nextline = 0) (h2 : b.eofp = false) (h3 : b.pcur < b.pend)
    (h4 : b.d.bytes[b.pcur]? = some c) (h5 : c ≠ 13) : b.nextc = .ok (some c, { b with pcur := b.pcur + 1 }) := by
  unfold Buffer.nextc
  rw [if_neg (by rw [h1, h2]; simp; omega)]
  unfold Buffer.readByte
  simp only [Input.byteAt]
  simp only [Buffer.d] at h4
  rw [h4]
  dsimp only
  rw [if_neg h5]

theorem pushback_byte {b : Buffer} {c : UInt8} (h4 : b.d.bytes[b.pcur]? = some c)
    (h5 : c ≠ 10 ∨ ∃ p, b.d.bytes[b.pcur - 1]? = some p ∧ p ≠ 13) :
    ({ b with pcur := b.pcur + 1 } : Buffer).pushback (some c) = .ok b := by
  simp only [Buffer.pushback, Buffer.pushbackByte, csub, Bind.bind, Except.bind, Pure.pure, Except.pure]
  simp only [Nat.le_add_left, if_true, Nat.add_sub_cancel]
  rw [if_neg]
  rintro ⟨-, h2, h3⟩
  simp only [Buffer.byteAt, Input.byteAt, Buffer.d] at *
  rcases h5 with h5 | ⟨p, hp, hp'⟩
  · rw [h4] at h2; exact h5 (by simpa using h2)
  · rw [hp] at h3; exact hp' (by simpa using h3)

theorem look_cons {b : Buffer} {x : UInt8} {l : Bytes} (h : NumAhead b (x :: l)) (h10 : x ≠ 10) (h13 : x ≠ 13) :
    ∃ b1, b.nextc = .ok (some x, b1) ∧ NumAhead b1 l ∧ b1.pcur = b.pcur + 1 ∧ b1.pushback (some x) = .ok b := by
  have h0 := h.text 0 (by simp)
  simp only [List.getElem_cons_zero, Nat.add_zero] at h0
  have he : b.eofp = false := by
    cases hb : b.eofp with
    | false => rfl
    | true => exact absurd (h.eof hb).1 (by simp)
  have hle := h.le
  simp only [List.length_cons] at hle
  refine ⟨_, nextc_byte h.nonl he (by omega) h0 h13, ?_, rfl, pushback_byte h0 (.inl h10)⟩
  refine ⟨h.nonl, h.plen, ?_, by simp only; omega, ?_, ?_⟩
  · intro i hi
    have := h.text (i + 1) (by simpa using hi)
    simp only [List.getElem_cons_succ] at this
    rw [← this]
    show b.d.bytes[b.pcur + 1 + i]? = _
    congr 1; omega
  · intro hb; simp only at hb; rw [he] at hb; exact absurd hb (by simp)
  · have := h.ends
    simp only [List.length_cons] at this
    refine ⟨?_, ?_, ?_⟩
    · have := this.beg; simp only; omega
    · have := this.prev
      simp only
      rw [show b.pcur + 1 + l.length = b.pcur + (l.length + 1) by omega]
      exact this
    · have := this.next
      simp only
      rw [show b.pcur + 1 + l.length = b.pcur + (l.length + 1) by omega]
      exact this

theorem look_nil {b : Buffer} (h : NumAhead b []) :
    ∃ c b1 b2, b.nextc = .ok (c, b1) ∧ TermMB c b1 ∧ b1.pushback c = .ok b2 ∧ NumAhead b2 [] ∧ b2.pcur = b.pcur := by
  have hends := h.ends
  simp only [List.length_nil, Nat.add_zero] at hends
  by_cases he : b.eofp = true
  · have hp := (h.eof he).2
    refine ⟨none, b, b, ?_, ⟨by simp, by simp⟩, rfl, h, rfl⟩
    have hb : ({ b with nextline := 0, eofp := true } : Buffer) = b := by
      have := h.nonl
      cases b; simp_all
    unfold Buffer.nextc Buffer.nextlineFn
    rw [if_pos (.inl hp), h.nonl]
    simp [he, Bind.bind, Except.bind, Pure.pure, Except.pure, hb]
  · rw [Bool.not_eq_true] at he
    rcases hends.next with hq | ⟨hlt, c, hc, hstop, hpt⟩
    · obtain ⟨p, hp, hp10, hp13⟩ := hends.prev
      let b1 : Buffer := { b with eofp := true }
      have hn : b.nextc = .ok (none, b1) := by
        have hb : ({ b with nextline := 0 } : Buffer) = b := by
          cases b; simp only [Buffer.mk.injEq, and_true, true_and]; exact h.nonl.symm
        unfold Buffer.nextc Buffer.nextlineFn
        rw [if_pos (.inl hq), h.nonl]
        simp only [hb, he, Bool.false_eq_true, if_false, if_true]
        rw [if_pos (by have := hends.beg; omega)]
        simp only [Input.uncheckedByteAt]
        rw [hq] at hp
        simp only [Buffer.d] at hp
        rw [hp]
        simp [Bind.bind, Except.bind, Pure.pure, Except.pure, Functor.map, Except.map, hp10, Buffer.gotoEol, b1, hq, h.nonl]
      refine ⟨none, b1, b1, hn, ⟨by simp, by simp⟩, rfl, ?_, rfl⟩
      exact ⟨h.nonl, h.plen, h.text, h.le, fun _ => ⟨rfl, hq⟩, ⟨h.ends.beg, h.ends.prev, h.ends.next⟩⟩
    · obtain ⟨p, hp, hp10, hp13⟩ := hends.prev
      by_cases h13 : c = 13
      · subst h13
        by_cases hlf : b.pcur + 1 < b.pend ∧ b.d.bytes[b.pcur + 1]? = some 10
        · refine ⟨some 10, { b with pcur := b.pcur + 2 }, b, ?_, ?_, ?_, h, rfl⟩
          · unfold Buffer.nextc
            rw [if_neg (by rw [h.nonl, he]; simp; omega)]
            unfold Buffer.readByte
            simp only [Input.byteAt]
            simp only [Buffer.d] at hc hlf
            rw [hc]
            have hpk : ({ b with pcur := b.pcur + 1 } : Buffer).peek 10 = .ok true := by
              unfold Buffer.peek Buffer.peekN
              rw [if_neg (by simp [Buffer.isEolN]; omega)]
              simp only [Input.uncheckedByteAt, Nat.add_zero]
              rw [hlf.2]
              rfl
            simp [Buffer.parserCr, hpk, Bind.bind, Except.bind, Pure.pure, Except.pure]
          · exact ⟨by simp [Stops]; decide, fun h => absurd h (by decide)⟩
          · simp only [Buffer.pushback, Buffer.pushbackByte, csub, Bind.bind, Except.bind, Pure.pure, Except.pure]
            rw [if_pos (by omega)]
            simp only
            rw [if_pos]
            · simp
            · simp only [Buffer.byteAt, Input.byteAt]
              have := hends.beg
              refine ⟨by omega, hlf.2, ?_⟩
              simpa using hc
        · have hn : b.nextc = .ok (some 13, { b with pcur := b.pcur + 1 }) := by
            unfold Buffer.nextc
            rw [if_neg (by rw [h.nonl, he]; simp; omega)]
            unfold Buffer.readByte
            simp only [Input.byteAt]
            simp only [Buffer.d] at hc hlf
            rw [hc]
            have hpk : ({ b with pcur := b.pcur + 1 } : Buffer).peek 10 = .ok false := by
              unfold Buffer.peek Buffer.peekN
              by_cases hpe : b.pcur + 1 < b.pend
              · rw [if_neg (by simp [Buffer.isEolN]; omega)]
                have hplen := h.plen
                obtain ⟨y, hy⟩ : ∃ y, b.d.bytes[b.pcur + 1]? = some y := ⟨_, List.getElem?_eq_getElem (by omega)⟩
                simp only [Input.uncheckedByteAt, Nat.add_zero]
                simp only [Buffer.d] at hy
                rw [hy]
                have hy10 : y ≠ 10 := fun e => hlf ⟨hpe, by rw [hy, e]⟩
                simp [Bind.bind, Except.bind, Pure.pure, Except.pure, Ne.symm hy10]
              · rw [if_pos (by simp [Buffer.isEolN]; omega)]
            simp [Buffer.parserCr, hpk, Bind.bind, Except.bind, Pure.pure, Except.pure]
          refine ⟨some 13, _, b, hn, ⟨by simp [Stops]; decide, fun h => absurd h (by decide)⟩, pushback_byte hc (.inl (by decide)), h, rfl⟩
      · refine ⟨some c, _, b, nextc_byte h.nonl he hlt hc h13, ⟨by rintro x ⟨⟩; exact hstop, ?_⟩,
          pushback_byte hc (.inr ⟨p, hp, hp13⟩), h, rfl⟩
        intro hcp
        obtain ⟨h1, x, hx, hxd, hx13⟩ := hpt (by simpa using hcp)
        refine ⟨x, _, nextc_byte (b := { b with pcur := b.pcur + 1 }) h.nonl he h1 hx hx13, hxd,
          pushback_byte (b := { b with pcur := b.pcur + 1 }) hx (.inr ⟨c, ?_, h13⟩)⟩
        simpa using hc

/-- Reading the next character, and putting it back. -/
theorem look {b : Buffer} {l : Bytes} (h : NumAhead b l) (hl : ∀ c ∈ l, c ≠ 10 ∧ c ≠ 13) :
    ∃ c b1 b2, b.nextc = .ok (c, b1) ∧ First l c b1 ∧ (l ≠ [] → b1.pcur = b.pcur + 1) ∧ b1.pushback c = .ok b2 ∧ NumAhead b2 l ∧
      b2.pcur = b.pcur := by
  cases l with
  | nil =>
    obtain ⟨c, b1, b2, h1, h2, h3, h4, h5⟩ := look_nil h
    exact ⟨c, b1, b2, h1, h2, by simp, h3, h4, h5⟩
  | cons x l =>
    obtain ⟨b1, h1, h2, h3, h4⟩ := look_cons h (hl x (by simp)).1 (hl x (by simp)).2
    exact ⟨some x, b1, b, h1, ⟨rfl, h2⟩, fun _ => h3, h4, h, rfl⟩

/-! ### Characters -/

theorem byte_forall {p : UInt8 → Prop} (h : ∀ n : Fin 256, p (UInt8.ofNat n.val)) (c : UInt8) : p c := by
  have := h ⟨c.toNat, UInt8.toNat_lt c⟩
  simpa using this

instance : DecidablePred Dec := fun c => inferInstanceAs (Decidable (c ∈ ascs "0123456789"))
instance : DecidablePred Hex := fun c => inferInstanceAs (Decidable (c ∈ ascs "0123456789abcdefABCDEF"))
instance : DecidablePred Oct := fun c => inferInstanceAs (Decidable (c ∈ ascs "01234567"))
instance : DecidablePred Bin := fun c => inferInstanceAs (Decidable (c ∈ ascs "01"))
instance : DecidablePred Stops := fun c => inferInstanceAs (Decidable (c < 128 ∧ c ∉ _))

theorem dec_iff (c : UInt8) : MB.isDigit (some c) = true ↔ Dec c := by
  revert c; exact byte_forall (by decide +kernel)
theorem hex_iff (c : UInt8) : MB.isHexdigit (some c) = true ↔ Hex c := by
  revert c; exact byte_forall (by decide +kernel)
theorem bin_iff (c : UInt8) : (isC (some c) '0' || isC (some c) '1') = true ↔ Bin c := by
  revert c; exact byte_forall (by decide +kernel)
theorem oct_iff (c : UInt8) : Oct c ↔ MB.lt (some c) (asc '0') = false ∧ MB.gt (some c) (asc '7') = false := by
  revert c; exact byte_forall (by decide +kernel)
theorem oct_facts (c : UInt8) : Oct c → isC (some c) '_' = false ∧ MB.lt (some c) (asc '0') = false ∧
    MB.gt (some c) (asc '9') = false ∧ MB.gt (some c) (asc '7') = false ∧ MB.ge (some c) (asc '0') = true ∧
    MB.le (some c) (asc '7') = true ∧ MB.isDigit (some c) = true ∧ c ≠ 10 ∧ c ≠ 13 ∧
    isC (some c) 'x' = false ∧ isC (some c) 'X' = false ∧ isC (some c) 'b' = false ∧ isC (some c) 'B' = false ∧
    isC (some c) 'd' = false ∧ isC (some c) 'D' = false ∧ isC (some c) 'o' = false ∧ isC (some c) 'O' = false := by
  revert c; exact byte_forall (by decide +kernel)
theorem dec_facts (c : UInt8) : Dec c → isC (some c) '_' = false ∧ isC (some c) '.' = false ∧ isC (some c) 'e' = false ∧
    isC (some c) 'E' = false ∧ c ≠ 10 ∧ c ≠ 13 := by
  revert c; exact byte_forall (by decide +kernel)
theorem hex_facts (c : UInt8) : Hex c → c ≠ asc '_' ∧ c ≠ 10 ∧ c ≠ 13 := by
  revert c; exact byte_forall (by decide +kernel)

/-- A character that ends the digits of a number. -/
structure NotNum (c : MB) (b1 : Buffer) : Prop where
  dig : MB.isDigit c = false
  hex : MB.isHexdigit c = false
  us : isC c '_' = false
  e : isC c 'e' = false
  E : isC c 'E' = false
  letters : ∀ ch ∈ "xXbBdDoO".toList, isC c ch = false
  notInv : (MB.gt c (asc '7') && MB.le c (asc '9')) = false
  notOct : (MB.ge c (asc '0') && MB.le c (asc '7')) = false
  out : (MB.lt c (asc '0') || MB.gt c (asc '9')) = true
  point : isC c '.' = true → ∃ x b2, b1.nextc = .ok (some x, b2) ∧ MB.isDigit (some x) = false ∧ b2.pushback (some x) = .ok b1

theorem notNum_bytes (c : UInt8) : (Stops c ∨ c = asc 'r' ∨ c = asc 'i') → MB.isDigit (some c) = false ∧ MB.isHexdigit (some c) = false ∧
    isC (some c) '_' = false ∧ isC (some c) 'e' = false ∧ isC (some c) 'E' = false ∧
    (∀ ch ∈ "xXbBdDoO".toList, isC (some c) ch = false) ∧ (MB.gt (some c) (asc '7') && MB.le (some c) (asc '9')) = false ∧
    (MB.ge (some c) (asc '0') && MB.le (some c) (asc '7')) = false ∧
    (MB.lt (some c) (asc '0') || MB.gt (some c) (asc '9')) = true := by
  revert c; exact byte_forall (by decide +kernel)

theorem notNum_of {c : UInt8} {b1 : Buffer} (h : Stops c ∨ c = asc 'r' ∨ c = asc 'i')
    (hp : isC (some c) '.' = true → ∃ x b2, b1.nextc = .ok (some x, b2) ∧ MB.isDigit (some x) = false ∧ b2.pushback (some x) = .ok b1) :
    NotNum (some c) b1 := by
  obtain ⟨h1, h2, h3, h4, h5, h6, h7, h8, h9⟩ := notNum_bytes c h
  exact ⟨h1, h2, h3, h4, h5, h6, h7, h8, h9, hp⟩

theorem notNum_none {b1 : Buffer} : NotNum none b1 := by
  refine ⟨rfl, rfl, rfl, rfl, rfl, ?_, rfl, rfl, rfl, ?_⟩
  · intro ch _; rfl
  · intro h; simp [isC] at h

theorem suffix_chars {r i : Bool} {x : Bytes} (h : Suffix r i x) : ∀ c ∈ x, c ≠ 10 ∧ c ≠ 13 := by
  cases h <;> decide

theorem first_suffix {r i : Bool} {x : Bytes} {c : MB} {b1 : Buffer} (h : Suffix r i x) (hf : First x c b1) : NotNum c b1 := by
  have hr : NotNum (some (asc 'r')) b1 := notNum_of (.inr (.inl rfl)) fun h => absurd h (by decide)
  have hi : NotNum (some (asc 'i')) b1 := notNum_of (.inr (.inr rfl)) fun h => absurd h (by decide)
  cases h with
  | none =>
    cases c with
    | none => exact notNum_none
    | some c =>
      refine notNum_of (.inl (hf.stop c rfl)) fun hc => ?_
      obtain ⟨x, b2, h1, h2, h3⟩ := hf.point (by simpa [isC] using hc)
      refine ⟨x, b2, h1, ?_, h3⟩
      rw [← Bool.not_eq_true, dec_iff]; exact h2
  | r => rw [show ascs "r" = [asc 'r'] from rfl] at hf; rw [hf.1]; exact hr
  | i => rw [show ascs "i" = [asc 'i'] from rfl] at hf; rw [hf.1]; exact hi
  | ri => rw [show ascs "ri" = [asc 'r', asc 'i'] from rfl] at hf; rw [hf.1]; exact hr

/-! ### Steps -/

theorem Wp.nextc_eq {Q : MB → Lexer → Prop} {s : Lexer} {c : MB} {b1 : Buffer} (h : s.buffer.nextc = .ok (c, b1))
    (hq : Q c { s with buffer := b1 }) : Wp Lexer.nextc Q s :=
  ⟨c, _, by simp [Lexer.nextc, h, Bind.bind, Except.bind, Pure.pure, Except.pure], hq⟩

theorem Wp.pushback_eq {Q : Unit → Lexer → Prop} {s : Lexer} {c : MB} {b1 : Buffer} (h : s.buffer.pushback c = .ok b1)
    (hq : Q () { s with buffer := b1 }) : Wp (Lexer.pushback c) Q s :=
  ⟨(), _, by simp [Lexer.pushback, h, Bind.bind, Except.bind, Pure.pure, Except.pure], hq⟩

theorem Wp.tokaddMB_eq {Q : Unit → Lexer → Prop} {s : Lexer} {c : UInt8}
    (hq : Q () { s with tokenbuf := s.tokenbuf ++ [c] }) : Wp (Lexer.tokaddMB (some c)) Q s := ⟨(), _, rfl, hq⟩

theorem stops_suffix (c : UInt8) : Stops c → isC (some c) 'i' = false ∧ isC (some c) 'r' = false ∧
    (!MB.isAscii (some c) || MB.isAlpha (some c) || isC (some c) '_') = false := by
  revert c; exact byte_forall (by decide +kernel)

theorem suffixLoop_nil {s : Lexer} (h : NumAhead s.buffer []) (lastp n : Nat) (mask res : NumSuffix) {Q : NumSuffix → Lexer → Prop}
    (hq : ∀ b, NumAhead b [] → b.pcur = s.buffer.pcur → Q res { s with buffer := b }) : Wp (suffixLoop lastp (n + 1) mask res) Q s := by
  obtain ⟨c, b1, b2, h1, h2, h3, h4, h5⟩ := look_nil h
  unfold suffixLoop
  refine Wp.bind (Wp.nextc_eq h1 ?_)
  cases c with
  | none =>
    simp only [Option.isNone_none, if_true]
    have : b2 = b1 := by simpa [Buffer.pushback] using h3.symm
    subst this
    exact Wp.pure (hq _ h4 h5)
  | some c =>
    obtain ⟨k1, k2, k3⟩ := stops_suffix c (h2.stop c rfl)
    simp only [Option.isNone_some, Bool.false_eq_true, if_false, k1, k2, k3, Bool.and_false]
    exact Wp.bind (Wp.pushback_eq h3 (Wp.pure (hq _ h4 h5)))

/-- The suffixes that a mask allows are recognised. -/
theorem numberLiteralSuffix_run {s : Lexer} {r i : Bool} {x : Bytes} {mask : NumSuffix} (hx : Suffix r i x) (h : NumAhead s.buffer x)
    (hm : mask.i = true) (hr : r = true → mask.r = true) {Q : NumSuffix → Lexer → Prop}
    (hq : ∀ b, NumAhead b [] → b.pcur = s.buffer.pcur + x.length → Q ⟨r, i⟩ { s with buffer := b }) :
    Wp (numberLiteralSuffix mask) Q s := by
  unfold numberLiteralSuffix
  refine Wp.bind (Wp.getB (Wp.bind (Wp.getS ?_)))
  generalize hn : 64 * (s.buffer.input.decoded.bytes.length + 1) = n
  obtain ⟨m, rfl⟩ : ∃ m, n = m + 3 := ⟨n - 3, by omega⟩
  cases hx with
  | none => exact suffixLoop_nil h _ _ _ _ fun b h1 h2 => hq b h1 (by simpa using h2)
  | r =>
    obtain ⟨b1, h1, h2, h3, h4⟩ := look_cons h (by decide) (by decide)
    unfold suffixLoop
    refine Wp.bind (Wp.nextc_eq h1 ?_)
    have e1 : isC (some (asc 'r')) 'i' = false := by decide
    have e2 : isC (some (asc 'r')) 'r' = true := by decide
    simp only [Option.isNone_some, Bool.false_eq_true, if_false, e1, e2, hm, hr rfl, Bool.and_self, Bool.and_false, if_true]
    exact suffixLoop_nil h2 _ _ _ _ fun b g1 g2 => hq b g1 (by rw [g2]; simp [h3, ascs])
  | i =>
    obtain ⟨b1, h1, h2, h3, h4⟩ := look_cons h (by decide) (by decide)
    unfold suffixLoop
    refine Wp.bind (Wp.nextc_eq h1 ?_)
    have e1 : isC (some (asc 'i')) 'i' = true := by decide
    simp only [Option.isNone_some, Bool.false_eq_true, if_false, e1, hm, Bool.and_self, if_true]
    exact suffixLoop_nil h2 _ _ _ _ fun b g1 g2 => hq b g1 (by rw [g2]; simp [h3, ascs])
  | ri =>
    obtain ⟨b1, h1, h2, h3, h4⟩ := look_cons h (by decide) (by decide)
    obtain ⟨b2, k1, k2, k3, k4⟩ := look_cons h2 (by decide) (by decide)
    unfold suffixLoop
    refine Wp.bind (Wp.nextc_eq h1 ?_)
    have e1 : isC (some (asc 'r')) 'i' = false := by decide
    have e2 : isC (some (asc 'r')) 'r' = true := by decide
    simp only [Option.isNone_some, Bool.false_eq_true, if_false, e1, e2, hm, hr rfl, Bool.and_self, Bool.and_false, if_true]
    unfold suffixLoop
    refine Wp.bind (Wp.nextc_eq (s := { s with buffer := b1 }) k1 ?_)
    have e1 : isC (some (asc 'i')) 'i' = true := by decide
    simp only [Option.isNone_some, Bool.false_eq_true, if_false, e1, hm, Bool.and_self, if_true]
    exact suffixLoop_nil k2 _ _ _ _ fun b g1 g2 => hq b g1 (by rw [g2]; simp [k3, h3, ascs])

/-! ### The end of a literal -/

/-- The token of a kind of literal. -/
def tokOf : Kind → Tok
  | .integer => .tINTEGER
  | .float => .tFLOAT
  | .rational => .tRATIONAL
  | .imaginary => .tIMAGINARY

/-- The scanner has returned token `k` with value `text`, at position `q`, having reported nothing since `ds`. -/
structure Done (text : Bytes) (k : Kind) (q : Nat) (ds : List LexDiag) (t : Tok) (s' : Lexer) : Prop where
  tok : t = tokOf k
  val : s'.lval = some text
  pos : s'.buffer.pcur = q
  quiet : s'.diagnostics = ds
  eof : s'.buffer.eofp = true → s'.buffer.pcur = s'.buffer.pend

theorem setIntegerLiteral_run {s : Lexer} {v : Bytes} {r i : Bool} {x : Bytes} (hx : Suffix r i x) (he : s.buffer.eofp = true → s.buffer.pcur = s.buffer.pend) :
    Wp (setIntegerLiteral v ⟨r, i⟩) (Done (v ++ x) (kindOf false r i) s.buffer.pcur s.diagnostics) s := by
  cases hx <;> exact ⟨_, _, rfl, ⟨rfl, by simp [ascs], rfl, rfl, he⟩⟩

theorem parseNumericFooter_run {s : Lexer} {f e r i : Bool} {x : Bytes} (hx : Suffix r i x) (h : NumAhead s.buffer x)
    (he : e = true → r = false) :
    Wp (parseNumericFooter f e) (Done (s.tokenbuf ++ x) (kindOf f r i) (s.buffer.pcur + x.length) s.diagnostics) s := by
  unfold parseNumericFooter
  cases f with
  | false =>
    simp only [Bool.false_eq_true, if_false]
    refine Wp.bind (numberLiteralSuffix_run hx h rfl (fun _ => rfl) fun b h1 h2 => ?_)
    refine Wp.bind ⟨_, _, rfl, ?_⟩
    have := setIntegerLiteral_run (s := { s with buffer := b, tokenbuf := [] }) (v := s.tokenbuf) hx fun e => (h1.eof e).2
    simpa only [h2] using this
  | true =>
    simp only [if_true]
    refine Wp.bind (numberLiteralSuffix_run hx h (by split <;> rfl) ?_ fun b h1 h2 => ?_)
    · intro hr
      cases e with
      | false => rfl
      | true => exact absurd (he rfl) (by simp [hr])
    · refine Wp.bind ⟨_, _, rfl, ?_⟩
      cases hx <;> exact ⟨_, _, rfl, ⟨rfl, by simp [ascs], h2, rfl, fun e => (h1.eof e).2⟩⟩

theorem decodeNum_run {s : Lexer} {c : MB} {b2 : Buffer} {f e r i : Bool} {x : Bytes} (hp : s.buffer.pushback c = .ok b2)
    (hx : Suffix r i x) (h : NumAhead b2 x) (he : e = true → r = false) :
    Wp (decodeNum c none f e) (Done (s.tokenbuf ++ x) (kindOf f r i) (b2.pcur + x.length) s.diagnostics) s := by
  unfold decodeNum
  exact Wp.bind (Wp.pushback_eq hp (parseNumericFooter_run (s := { s with buffer := b2 }) hx h he))

/-- Reading the next character and going on with the main loop. -/
def NumNext (n : Nat) (f sp se : Bool) (Q : Tok → Lexer → Prop) (s : Lexer) : Prop :=
  Wp nextc (fun c s1 => Wp (numLoop n c f sp se none) Q s1) s

theorem numNext_end {s : Lexer} {n : Nat} {f sp se r i : Bool} {x : Bytes} (hx : Suffix r i x) (h : NumAhead s.buffer x)
    (he : se = true → r = false) :
    NumNext (n + 1) f sp se (Done (s.tokenbuf ++ x) (kindOf f r i) (s.buffer.pcur + x.length) s.diagnostics) s := by
  obtain ⟨c, b1, b2, h1, h2, -, h4, h5, h6⟩ := look h (suffix_chars hx)
  have hn := first_suffix hx h2
  refine Wp.nextc_eq h1 ?_
  unfold numLoop
  simp only [hn.dig, hn.us, hn.e, hn.E, Bool.false_eq_true, if_false, Bool.or_self]
  have hdone := decodeNum_run (s := { s with buffer := b1 }) (f := f) (e := se) h4 hx h5 he
  simp only [h6] at hdone
  refine Wp.ite (fun hpt => ?_) fun _ => hdone
  refine Wp.ite (fun _ => hdone) fun _ => ?_
  obtain ⟨y, b3, k1, k2, k3⟩ := hn.point hpt
  refine Wp.bind (Wp.nextc_eq (s := { s with buffer := b1 }) k1 ?_)
  simp only [k2, Bool.not_false, if_true]
  exact Wp.bind (Wp.pushback_eq (s := { s with buffer := b3 }) k3 hdone)

/-- A digit in the main loop. -/
theorem numLoop_digit {s : Lexer} {n : Nat} {f sp se : Bool} {nd : Option MB} {d : UInt8} {Q : Tok → Lexer → Prop} (hd : Dec d)
    (hq : NumNext n f sp se Q { s with tokenbuf := s.tokenbuf ++ [d] }) : Wp (numLoop (n + 1) (some d) f sp se nd) Q s := by
  unfold numLoop
  simp only [(dec_iff d).2 hd, if_true]
  exact Wp.bind (Wp.tokaddMB_eq (Wp.bind hq))

theorem numNext_tail {f sp se : Bool} {l : Bytes} {Q : Tok → Lexer → Prop} {w : Bytes} (hw : Tail Dec w) (n : Nat) {s : Lexer}
    (h : NumAhead s.buffer (w ++ l))
    (hq : ∀ b, NumAhead b l → b.pcur = s.buffer.pcur + w.length →
      NumNext n f sp se Q { s with buffer := b, tokenbuf := s.tokenbuf ++ w }) :
    NumNext (n + w.length) f sp se Q s := by
  induction hw generalizing s with
  | nil => simpa using hq s.buffer h rfl
  | @digit d w hd _ ih =>
    obtain ⟨b1, h1, h2, h3, -⟩ := look_cons (x := d) (l := w ++ l) h (dec_facts d hd).2.2.2.2.1 (dec_facts d hd).2.2.2.2.2
    refine Wp.nextc_eq h1 ?_
    rw [List.length_cons, ← Nat.add_assoc]
    refine numLoop_digit hd (ih h2 fun b g1 g2 => ?_)
    have := hq b g1 (by simp [g2, h3]; omega)
    simpa using this
  | @sep d w hd _ ih =>
    obtain ⟨b1, h1, h2, h3, -⟩ := look_cons (x := asc '_') (l := d :: (w ++ l)) h (by decide) (by decide)
    obtain ⟨b2, k1, k2, k3, -⟩ := look_cons h2 (dec_facts d hd).2.2.2.2.1 (dec_facts d hd).2.2.2.2.2
    refine Wp.nextc_eq h1 ?_
    rw [List.length_cons, List.length_cons, ← Nat.add_assoc, ← Nat.add_assoc]
    unfold numLoop
    have e1 : MB.isDigit (some (asc '_')) = false := by decide
    have e2 : isC (some (asc '_')) '.' = false := by decide
    have e3 : isC (some (asc '_')) 'e' = false := by decide
    have e4 : isC (some (asc '_')) 'E' = false := by decide
    have e5 : isC (some (asc '_')) '_' = true := by decide
    simp only [e1, e2, e3, e4, e5, Bool.false_eq_true, if_false, if_true, Bool.or_self, Option.isSome_none]
    refine Wp.bind (Wp.tokaddMB_eq (Wp.bind (Wp.nextc_eq (s := { s with buffer := b1, tokenbuf := s.tokenbuf ++ [asc '_'] }) k1 ?_)))
    refine numLoop_digit hd (ih k2 fun b g1 g2 => ?_)
    have := hq b g1 (by simp [g2, k3, h3]; omega)
    simpa using this

/-- A decimal point. -/
theorem numNext_point {l : Bytes} {Q : Tok → Lexer → Prop} {w : Bytes} (hw : Digits Dec w) (n : Nat) {s : Lexer} {f : Bool}
    (h : NumAhead s.buffer (asc '.' :: (w ++ l)))
    (hq : ∀ b, NumAhead b l → b.pcur = s.buffer.pcur + 1 + w.length →
      NumNext n true true false Q { s with buffer := b, tokenbuf := s.tokenbuf ++ asc '.' :: w }) :
    NumNext (n + w.length) f false false Q s := by
  cases hw with
  | @mk d w hd hw =>
    obtain ⟨b1, h1, h2, h3, -⟩ := look_cons (x := asc '.') (l := d :: (w ++ l)) h (by decide) (by decide)
    obtain ⟨b2, k1, k2, k3, -⟩ := look_cons h2 (dec_facts d hd).2.2.2.2.1 (dec_facts d hd).2.2.2.2.2
    refine Wp.nextc_eq h1 ?_
    rw [List.length_cons, ← Nat.add_assoc]
    unfold numLoop
    have e1 : MB.isDigit (some (asc '.')) = false := by decide
    have e2 : isC (some (asc '.')) '.' = true := by decide
    simp only [e1, e2, Bool.false_eq_true, if_false, if_true, Bool.or_self]
    refine Wp.bind (Wp.nextc_eq (s := { s with buffer := b1 }) k1 ?_)
    simp only [(dec_iff d).2 hd, Bool.not_true, Bool.false_eq_true, if_false]
    refine Wp.bind ⟨_, _, rfl, Wp.bind (Wp.tokaddMB_eq (Wp.bind ?_))⟩
    refine numNext_tail hw n (s := { s with buffer := b2, tokenbuf := s.tokenbuf ++ [asc '.'] ++ [d] }) k2 fun b g1 g2 => ?_
    have := hq b g1 (by simp [g2, k3, h3]; omega)
    simpa using this

theorem sign_digit (c : UInt8) : Dec c → (isC (some c) '-' = false ∧ isC (some c) '+' = false) := by
  revert c; exact byte_forall (by decide +kernel)

/-- An exponent. -/
theorem numNext_exp {l : Bytes} {Q : Tok → Lexer → Prop} {e : UInt8} {sg w : Bytes} (he : ExpLetter e) (hs : Sign sg)
    (hw : Digits Dec w) (n : Nat) {s : Lexer} {f sp : Bool} (h : NumAhead s.buffer (e :: (sg ++ (w ++ l))))
    (hq : ∀ n', n ≤ n' → ∀ b, NumAhead b l → b.pcur = s.buffer.pcur + 1 + sg.length + w.length →
      NumNext n' true sp true Q { s with buffer := b, tokenbuf := s.tokenbuf ++ e :: (sg ++ w) }) :
    NumNext (n + w.length + 1) f sp false Q s := by
  have hee : isC (some e) 'e' = true ∨ isC (some e) 'E' = true := by rcases he with rfl | rfl <;> decide
  have he1 : MB.isDigit (some e) = false := by rcases he with rfl | rfl <;> decide
  have he2 : isC (some e) '.' = false := by rcases he with rfl | rfl <;> decide
  have he3 : (isC (some e) 'e' || isC (some e) 'E') = true := by simpa using hee
  cases hw with
  | @mk d w hd hw =>
    obtain ⟨b1, h1, h2, h3, -⟩ := look_cons h (by rcases he with rfl | rfl <;> decide) (by rcases he with rfl | rfl <;> decide)
    refine Wp.nextc_eq h1 ?_
    have hd' := dec_facts d hd
    rw [List.length_cons, ← Nat.add_assoc, Nat.add_assoc, Nat.add_comm 1, ← Nat.add_assoc]
    unfold numLoop
    simp only [he1, he2, he3, Bool.false_eq_true, if_false, if_true]
    rcases hs with rfl | hs
    · obtain ⟨b2, k1, k2, k3, -⟩ := look_cons (x := d) (l := w ++ l) h2 hd'.2.2.2.2.1 hd'.2.2.2.2.2
      refine Wp.bind (Wp.nextc_eq (s := { s with buffer := b1 }) k1 ?_)
      simp only [(dec_iff d).2 hd, sign_digit d hd, Bool.not_true, Bool.and_false, Bool.false_eq_true, if_false, Bool.or_self]
      refine Wp.bind (Wp.tokaddMB_eq (Wp.bind (Wp.tokaddMB_eq (Wp.bind ?_))))
      rw [Nat.add_right_comm]
      refine numNext_tail hw (n + 1) (s := { s with buffer := b2, tokenbuf := s.tokenbuf ++ [e] ++ [d] }) k2 fun b g1 g2 => ?_
      have := hq (n + 1) (by omega) b g1 (by simp [g2, k3, h3]; omega)
      simpa using this
    · obtain ⟨c, rfl, hc⟩ : ∃ c, sg = [c] ∧ (c = asc '+' ∨ c = asc '-') := by
        rcases hs with rfl | rfl
        · exact ⟨_, rfl, .inl rfl⟩
        · exact ⟨_, rfl, .inr rfl⟩
      have hc1 : c ≠ 10 ∧ c ≠ 13 := by rcases hc with rfl | rfl <;> decide
      have hc2 : (!isC (some c) '-' && !isC (some c) '+' && !MB.isDigit (some c)) = false := by rcases hc with rfl | rfl <;> decide
      have hc3 : (isC (some c) '-' || isC (some c) '+') = true := by rcases hc with rfl | rfl <;> decide
      obtain ⟨b2, k1, k2, k3, -⟩ := look_cons (x := c) (l := d :: (w ++ l)) h2 hc1.1 hc1.2
      obtain ⟨b3, m1, m2, m3, -⟩ := look_cons k2 hd'.2.2.2.2.1 hd'.2.2.2.2.2
      refine Wp.bind (Wp.nextc_eq (s := { s with buffer := b1 }) k1 ?_)
      simp only [hc2, hc3, Bool.false_eq_true, if_false, if_true]
      refine Wp.bind (Wp.tokaddMB_eq (Wp.bind (Wp.tokaddMB_eq (Wp.bind (Wp.nextc_eq
        (s := { s with buffer := b2, tokenbuf := s.tokenbuf ++ [e] ++ [c] }) m1 ?_)))))
      refine numLoop_digit hd (numNext_tail hw n
        (s := { s with buffer := b3, tokenbuf := s.tokenbuf ++ [e] ++ [c] ++ [d] }) m2 fun b g1 g2 => ?_)
      have := hq n (Nat.le_refl _) b g1 (by simp [g2, m3, k3, h3]; omega)
      simpa using this

/-- What follows the whole part of a float. -/
theorem numNext_fraction {fr x : Bytes} {e r i : Bool} (hf : Fraction e fr) (hx : Suffix r i x) (he : e = true → r = false) {s : Lexer}
    {n : Nat} (hn : fr.length + 3 ≤ n) (h : NumAhead s.buffer (fr ++ x)) :
    NumNext n false false false
      (Done (s.tokenbuf ++ (fr ++ x)) (kindOf true r i) (s.buffer.pcur + (fr ++ x).length) s.diagnostics) s := by
  cases hf with
  | @point w hw =>
    obtain ⟨m, rfl⟩ : ∃ m, n = m + 1 + w.length := ⟨n - 1 - w.length, by simp at hn; omega⟩
    refine numNext_point hw _ h fun b h1 h2 => ?_
    have := numNext_end (n := m) (f := true) (sp := true) (se := false)
      (s := { s with buffer := b, tokenbuf := s.tokenbuf ++ asc '.' :: w }) hx h1 (by simp)
    rw [h2] at this
    simpa [Nat.add_comm, Nat.add_left_comm, Nat.add_assoc] using this
  | @exp e sg w he' hs hw =>
    obtain ⟨m, rfl⟩ : ∃ m, n = m + 1 + w.length + 1 := ⟨n - 2 - w.length, by simp at hn; omega⟩
    refine numNext_exp he' hs hw _ (by simpa using h) fun n' hn' b h1 h2 => ?_
    obtain ⟨k, rfl⟩ : ∃ k, n' = k + 1 := ⟨n' - 1, by omega⟩
    have := numNext_end (n := k) (f := true) (sp := false) (se := true)
      (s := { s with buffer := b, tokenbuf := s.tokenbuf ++ e :: (sg ++ w) }) hx h1 (fun _ => he rfl)
    rw [h2] at this
    simpa [Nat.add_comm, Nat.add_left_comm, Nat.add_assoc] using this
  | @pointExp v e sg w hv he' hs hw =>
    obtain ⟨m, rfl⟩ : ∃ m, n = (m + 1 + w.length + 1) + v.length := ⟨n - 2 - w.length - v.length, by simp at hn; omega⟩
    refine numNext_point hv _ (l := e :: (sg ++ (w ++ x))) (by simpa using h) fun b h1 h2 => ?_
    refine numNext_exp he' hs hw (m + 1) (s := { s with buffer := b, tokenbuf := s.tokenbuf ++ asc '.' :: v }) h1
      fun n' hn' b' k1 k2 => ?_
    obtain ⟨k, rfl⟩ : ∃ k, n' = k + 1 := ⟨n' - 1, by omega⟩
    have := numNext_end (n := k) (f := true) (sp := true) (se := true)
      (s := { s with buffer := b', tokenbuf := s.tokenbuf ++ asc '.' :: v ++ e :: (sg ++ w) }) hx k1 (fun _ => he rfl)
    simp only at k2
    rw [k2, h2] at this
    simpa [Nat.add_comm, Nat.add_left_comm, Nat.add_assoc] using this

theorem NumNext.elim {s : Lexer} {n : Nat} {f sp se : Bool} {Q : Tok → Lexer → Prop} {c : MB} {b1 : Buffer} (h : NumNext n f sp se Q s)
    (hc : s.buffer.nextc = .ok (c, b1)) : Wp (numLoop n c f sp se none) Q { s with buffer := b1 } := by
  obtain ⟨c', s', e, hq⟩ := h
  simp only [nextc, hc, Bind.bind, Except.bind, Pure.pure, Except.pure, Except.ok.injEq, Prod.mk.injEq] at e
  obtain ⟨rfl, rfl⟩ := e
  exact hq

theorem NumAhead.fuel {b : Buffer} {l : Bytes} (h : NumAhead b l) : l.length + 40 ≤ 64 * (b.input.decoded.bytes.length + 1) := by
  have h1 := h.le
  have h2 := h.plen
  simp only [Buffer.d] at h2
  omega

/-- A decimal literal that starts with a digit other than `0`, read up to that digit. -/
theorem numLoop_nonzero {w x l : Bytes} {d : UInt8} {s : Lexer} {n : Nat} {Q : Tok → Lexer → Prop} (hd : Dec d) (hw : Tail Dec w)
    (hn : w.length + 1 ≤ n) (h : NumAhead s.buffer (w ++ l))
    (hq : ∀ b, NumAhead b l → b.pcur = s.buffer.pcur + w.length →
      NumNext (n - w.length - 1) false false false Q { s with buffer := b, tokenbuf := s.tokenbuf ++ d :: w }) :
    Wp (numLoop n (some d) false false false none) Q s := by
  obtain ⟨m, rfl⟩ : ∃ m, n = m + w.length + 1 := ⟨n - w.length - 1, by omega⟩
  refine numLoop_digit hd (numNext_tail hw m (s := { s with tokenbuf := s.tokenbuf ++ [d] }) h fun b h1 h2 => ?_)
  have := hq b h1 h2
  rw [show m + w.length + 1 - w.length - 1 = m by omega] at this
  simpa using this

/-! ### Digits after a prefix -/

/-- Where the digits end: at `q`, before the suffix `x`, with `T` in the token buffer. -/
def DigitsEnd (T x : Bytes) (q : Nat) (ds : List LexDiag) (c : MB) (nd : Option MB) (s' : Lexer) : Prop :=
  nd = none ∧ s'.tokenbuf = T ∧ s'.diagnostics = ds ∧ ∃ b2, s'.buffer.pushback c = .ok b2 ∧ NumAhead b2 x ∧ b2.pcur = q

/-- Reading the next character and going on with the digits. -/
def DigNext (isD : MB → Bool) (n : Nat) (nd : Option MB) (Q : MB × Option MB → Lexer → Prop) (s : Lexer) : Prop :=
  Wp nextc (fun c s1 => Wp (if c.isNone then pure (c, nd) else digitLoop isD n c nd) Q s1) s

theorem digitLoop_digit {isD : MB → Bool} {d : UInt8} (hd : isD (some d) = true) (hu : d ≠ asc '_') {n : Nat} {nd : Option MB} {s : Lexer}
    {Q : MB × Option MB → Lexer → Prop} (hq : DigNext isD n none Q { s with tokenbuf := s.tokenbuf ++ [d] }) :
    Wp (digitLoop isD (n + 1) (some d) nd) Q s := by
  unfold digitLoop
  have : isC (some d) '_' = false := by simpa [isC] using hu
  simp only [this, hd, Bool.not_true, Bool.false_eq_true, if_false]
  exact Wp.bind (Wp.tokaddMB_eq (Wp.bind hq))

theorem digNext_tail {isD : MB → Bool} {D : UInt8 → Prop} (hD : ∀ c, D c → isD (some c) = true ∧ c ≠ asc '_' ∧ c ≠ 10 ∧ c ≠ 13)
    {w x : Bytes} {r i : Bool} (hw : Tail D w) (hx : Suffix r i x) (hnd : ∀ c b, NotNum c b → isD c = false) (n : Nat) {s : Lexer}
    (h : NumAhead s.buffer (w ++ x)) :
    DigNext isD (n + 1 + w.length) none
      (fun p => DigitsEnd (s.tokenbuf ++ w) x (s.buffer.pcur + w.length) s.diagnostics p.1 p.2) s := by
  induction hw generalizing s with
  | nil =>
    obtain ⟨c, b1, b2, h1, h2, -, h4, h5, h6⟩ := look h (suffix_chars hx)
    have hn := first_suffix hx h2
    refine Wp.nextc_eq h1 ?_
    have hend : DigitsEnd (s.tokenbuf ++ []) x (s.buffer.pcur + 0) s.diagnostics c none { s with buffer := b1 } :=
      ⟨rfl, by simp, rfl, b2, h4, h5, h6⟩
    refine Wp.ite (fun _ => Wp.pure (a := (c, none)) hend) fun _ => ?_
    unfold digitLoop
    refine Wp.ite (fun h => absurd h (by simp [hn.us])) fun _ => Wp.ite (fun _ => Wp.pure (a := (c, none)) hend) fun h => ?_
    exact absurd (by simp [hnd c b1 hn]) h
  | @digit d w hd _ ih =>
    obtain ⟨g1, g2, g3, g4⟩ := hD d hd
    obtain ⟨b1, h1, h2, h3, -⟩ := look_cons (x := d) (l := w ++ x) h g3 g4
    refine Wp.nextc_eq h1 ?_
    simp only [Option.isNone_some, Bool.false_eq_true, if_false]
    rw [List.length_cons, ← Nat.add_assoc]
    refine digitLoop_digit g1 g2 ?_
    have := ih (s := { s with buffer := b1, tokenbuf := s.tokenbuf ++ [d] }) h2
    rw [h3] at this
    simpa [Nat.add_comm, Nat.add_left_comm, Nat.add_assoc] using this
  | @sep d w hd _ ih =>
    obtain ⟨g1, g2, g3, g4⟩ := hD d hd
    obtain ⟨b1, h1, h2, h3, -⟩ := look_cons (x := asc '_') (l := d :: (w ++ x)) h (by decide) (by decide)
    obtain ⟨b2, k1, k2, k3, -⟩ := look_cons h2 g3 g4
    refine Wp.nextc_eq h1 ?_
    simp only [Option.isNone_some, Bool.false_eq_true, if_false]
    rw [List.length_cons, List.length_cons, ← Nat.add_assoc, ← Nat.add_assoc]
    unfold digitLoop
    have e5 : isC (some (asc '_')) '_' = true := by decide
    simp only [e5, if_true, Option.isSome_none, Bool.false_eq_true, if_false]
    refine Wp.bind (Wp.tokaddMB_eq (Wp.bind (Wp.nextc_eq (s := { s with buffer := b1, tokenbuf := s.tokenbuf ++ [asc '_'] }) k1 ?_)))
    refine Wp.ite (fun h => absurd h (by simp)) fun _ => ?_
    refine digitLoop_digit g1 g2 ?_
    have := ih (s := { s with buffer := b2, tokenbuf := s.tokenbuf ++ [asc '_'] ++ [d] }) k2
    rw [k3, h3] at this
    simpa [Nat.add_comm, Nat.add_left_comm, Nat.add_assoc] using this

/-- A literal with prefix letter `p`, read up to that letter. -/
theorem prefixed_run {isD : MB → Bool} {D : UInt8 → Prop} (hD : ∀ c, D c → isD (some c) = true ∧ c ≠ asc '_' ∧ c ≠ 10 ∧ c ≠ 13)
    {w x : Bytes} {r i : Bool} (hw : Digits D w) (hx : Suffix r i x) (hnd : ∀ c b, NotNum c b → isD c = false) {s : Lexer} {p : UInt8}
    (h : NumAhead s.buffer (w ++ x)) (ht : s.tokenbuf = []) :
    Wp (prefixed isD 0 (some p)) (Done (asc '0' :: p :: (w ++ x)) (kindOf false r i) (s.buffer.pcur + (w ++ x).length) s.diagnostics) s := by
  have hfuel := h.fuel
  cases hw with
  | @mk d w hd hw =>
    obtain ⟨g1, g2, g3, g4⟩ := hD d hd
    obtain ⟨b1, h1, h2, h3, -⟩ := look_cons (x := d) (l := w ++ x) h g3 g4
    have hfuel1 := h2.fuel
    unfold prefixed
    refine Wp.bind (Wp.tokaddMB_eq (Wp.bind (Wp.nextc_eq (s := { s with tokenbuf := s.tokenbuf ++ [p] }) h1 ?_)))
    simp only [g1, if_true]
    refine Wp.bind (Wp.getS ?_)
    obtain ⟨m, hm⟩ : ∃ m, 64 * (b1.input.decoded.bytes.length + 1) = m + 1 + w.length + 1 :=
      ⟨64 * (b1.input.decoded.bytes.length + 1) - 2 - w.length, by simp at hfuel1; omega⟩
    simp only [hm]
    refine Wp.bind (digitLoop_digit g1 g2 ?_)
    have hdig := digNext_tail hD hw hx hnd m (s := { s with buffer := b1, tokenbuf := s.tokenbuf ++ [p] ++ [d] }) h2
    refine Wp.mono hdig fun c s1 hc => Wp.mono hc fun cn s2 hend => ?_
    obtain ⟨c, nd⟩ := cn
    obtain ⟨rfl, hT, hds, b2, k1, k2, k3⟩ := hend
    refine Wp.bind (Wp.pushback_eq k1 (Wp.bind (Wp.getS ?_)))
    rw [if_neg (by simp [hT, ht])]
    refine Wp.bind (numberLiteralSuffix_run (s := { s2 with buffer := b2 }) hx k2 rfl (fun _ => rfl) fun b3 m1 m2 => ?_)
    refine Wp.bind ⟨_, _, rfl, ?_⟩
    have := setIntegerLiteral_run (s := { s2 with buffer := b3, tokenbuf := [] }) (v := ascs "0" ++ s2.tokenbuf) hx fun e => (m1.eof e).2
    simp only at m2 k3
    refine Wp.mono this fun t s3 hd => ⟨hd.tok, ?_, ?_, hd.quiet.trans hds, hd.eof⟩
    · rw [hd.val, hT, ht]; simp [ascs]
    · rw [hd.pos]; simp only [m2, k3, h3, List.length_append, List.length_cons]; omega

/-! ### Octal digits -/

/-- Reading the next character and going on with the octal digits. -/
def OctNext (n : Nat) (nd : Option MB) (Q : OctEnd → Lexer → Prop) (s : Lexer) : Prop :=
  Wp nextc (fun c s1 => Wp (if c.isNone then pure (.stop c nd) else octalLoop n c nd) Q s1) s

theorem octalLoop_digit {d : UInt8} (hd : Oct d) {n : Nat} {nd : Option MB} {s : Lexer}
    {Q : OctEnd → Lexer → Prop} (hq : OctNext n none Q { s with tokenbuf := s.tokenbuf ++ [d] }) :
    Wp (octalLoop (n + 1) (some d) nd) Q s := by
  obtain ⟨h1, h2, h3, h4, -⟩ := oct_facts d hd
  unfold octalLoop
  simp only [h1, h2, h3, h4, Bool.or_self, Bool.false_eq_true, if_false]
  exact Wp.bind (Wp.tokaddMB_eq (Wp.bind hq))

/-- The octal digits end before the suffix. -/
def OctalEnd (T x : Bytes) (q : Nat) (ds : List LexDiag) (r : OctEnd) (s' : Lexer) : Prop :=
  ∃ c, r = .stop c none ∧ DigitsEnd T x q ds c none s'

theorem octNext_tail {w x : Bytes} {r i : Bool} (hw : Tail Oct w) (hx : Suffix r i x) (n : Nat) {s : Lexer}
    (h : NumAhead s.buffer (w ++ x)) :
    OctNext (n + 1 + w.length) none (OctalEnd (s.tokenbuf ++ w) x (s.buffer.pcur + w.length) s.diagnostics) s := by
  induction hw generalizing s with
  | nil =>
    obtain ⟨c, b1, b2, h1, h2, -, h4, h5, h6⟩ := look h (suffix_chars hx)
    have hn := first_suffix hx h2
    refine Wp.nextc_eq h1 ?_
    have hend : OctalEnd (s.tokenbuf ++ []) x (s.buffer.pcur + 0) s.diagnostics (.stop c none) { s with buffer := b1 } :=
      ⟨c, rfl, rfl, by simp, rfl, b2, h4, h5, h6⟩
    refine Wp.ite (fun _ => Wp.pure hend) fun _ => ?_
    unfold octalLoop
    refine Wp.ite (fun h => absurd h (by simp [hn.us])) fun _ => Wp.ite (fun _ => Wp.pure hend) fun h => ?_
    exact absurd hn.out h
  | @digit d w hd _ ih =>
    have hf := oct_facts d hd
    obtain ⟨b1, h1, h2, h3, -⟩ := look_cons (x := d) (l := w ++ x) h hf.2.2.2.2.2.2.2.1 hf.2.2.2.2.2.2.2.2.1
    refine Wp.nextc_eq h1 ?_
    refine Wp.ite (fun h => absurd h (by simp)) fun _ => ?_
    rw [List.length_cons, ← Nat.add_assoc]
    refine octalLoop_digit hd ?_
    have := ih (s := { s with buffer := b1, tokenbuf := s.tokenbuf ++ [d] }) h2
    rw [h3] at this
    simpa [Nat.add_comm, Nat.add_left_comm, Nat.add_assoc] using this
  | @sep d w hd _ ih =>
    have hf := oct_facts d hd
    obtain ⟨b1, h1, h2, h3, -⟩ := look_cons (x := asc '_') (l := d :: (w ++ x)) h (by decide) (by decide)
    obtain ⟨b2, k1, k2, k3, -⟩ := look_cons h2 hf.2.2.2.2.2.2.2.1 hf.2.2.2.2.2.2.2.2.1
    refine Wp.nextc_eq h1 ?_
    refine Wp.ite (fun h => absurd h (by simp)) fun _ => ?_
    rw [List.length_cons, List.length_cons, ← Nat.add_assoc, ← Nat.add_assoc]
    unfold octalLoop
    refine Wp.ite (fun _ => ?_) fun h => absurd (by decide) h
    refine Wp.ite (fun h => absurd h (by simp)) fun _ => ?_
    refine Wp.bind (Wp.tokaddMB_eq (Wp.bind (Wp.nextc_eq (s := { s with buffer := b1, tokenbuf := s.tokenbuf ++ [asc '_'] }) k1 ?_)))
    refine Wp.ite (fun h => absurd h (by simp)) fun _ => ?_
    refine octalLoop_digit hd ?_
    have := ih (s := { s with buffer := b2, tokenbuf := s.tokenbuf ++ [asc '_'] ++ [d] }) k2
    rw [k3, h3] at this
    simpa [Nat.add_comm, Nat.add_left_comm, Nat.add_assoc] using this

theorem OctNext.elim {s : Lexer} {n : Nat} {Q : OctEnd → Lexer → Prop} {c : UInt8} {b1 : Buffer} (h : OctNext n none Q s)
    (hc : s.buffer.nextc = .ok (some c, b1)) : Wp (octalLoop n (some c) none) Q { s with buffer := b1 } := by
  obtain ⟨c', s', e, hq⟩ := h
  simp only [nextc, hc, Bind.bind, Except.bind, Pure.pure, Except.pure, Except.ok.injEq, Prod.mk.injEq] at e
  obtain ⟨rfl, rfl⟩ := e
  simpa using hq

theorem parseOctal_run {c : UInt8} {w x : Bytes} {r i : Bool} (hw : Tail Oct (c :: w)) (hx : Suffix r i x) {s : Lexer} {b0 : Buffer}
    (h : NumAhead b0 (c :: w ++ x)) (h1 : b0.nextc = .ok (some c, s.buffer)) (hf : (w ++ x).length + 3 ≤ 64 * (s.buffer.input.decoded.bytes.length + 1)) :
    Wp (parseOctal (some c) none 0)
      (fun res s' => ∃ t, res = .tok t ∧ Done (asc '0' :: (s.tokenbuf ++ c :: (w ++ x))) (kindOf false r i)
        (b0.pcur + (c :: w ++ x).length) s.diagnostics t s') s := by
  unfold parseOctal
  refine Wp.bind (Wp.getS ?_)
  obtain ⟨m, hm⟩ : ∃ m, 64 * (s.buffer.input.decoded.bytes.length + 1) = m + 1 + (c :: w).length :=
    ⟨64 * (s.buffer.input.decoded.bytes.length + 1) - 1 - (c :: w).length, by simp at hf ⊢; omega⟩
  simp only [hm]
  have hloop := (octNext_tail hw hx m (s := { s with buffer := b0 }) h).elim (c := c) (b1 := s.buffer) h1
  refine Wp.bind (Wp.mono hloop fun oe s2 hoe => ?_)
  obtain ⟨c', rfl, -, hT, hds, b2, k1, k2, k3⟩ := hoe
  refine Wp.bind (Wp.getS ?_)
  refine Wp.ite (fun _ => ?_) fun h => absurd (by rw [hT]; simp only [List.length_append, List.length_cons]; omega) h
  refine Wp.bind (Wp.pushback_eq k1 ?_)
  refine Wp.bind (numberLiteralSuffix_run (s := { s2 with buffer := b2 }) hx k2 rfl (fun _ => rfl) fun b3 m1 m2 => ?_)
  refine Wp.bind ⟨_, _, rfl, ?_⟩
  have := setIntegerLiteral_run (s := { s2 with buffer := b3, tokenbuf := [] }) (v := ascs "0" ++ s2.tokenbuf) hx fun e => (m1.eof e).2
  simp only at m2 k3
  refine Wp.bind (Wp.mono this fun t s3 hd => Wp.pure ⟨t, rfl, hd.tok, ?_, ?_, hd.quiet.trans hds, hd.eof⟩)
  · rw [hd.val, hT]; simp [ascs]
  · rw [hd.pos]; simp only [m2, k3, List.length_append, List.length_cons]; omega

/-! ### Literals that start with zero -/

theorem digit_facts_hex (c : UInt8) (h : Hex c) : MB.isHexdigit (some c) = true ∧ c ≠ asc '_' ∧ c ≠ 10 ∧ c ≠ 13 :=
  ⟨(hex_iff c).2 h, hex_facts c h⟩
theorem digit_facts_dec (c : UInt8) : Dec c → MB.isDigit (some c) = true ∧ c ≠ asc '_' ∧ c ≠ 10 ∧ c ≠ 13 := by
  revert c; exact byte_forall (by decide +kernel)
theorem digit_facts_bin (c : UInt8) : Bin c → (isC (some c) '0' || isC (some c) '1') = true ∧ c ≠ asc '_' ∧ c ≠ 10 ∧ c ≠ 13 := by
  revert c; exact byte_forall (by decide +kernel)

theorem notNum_bin (c : MB) (b : Buffer) (h : NotNum c b) : (isC c '0' || isC c '1') = false := by
  have := h.dig
  cases c with
  | none => rfl
  | some c =>
    clear h
    revert this; revert c; exact byte_forall (by decide +kernel)

theorem octal_then {c : MB} {s : Lexer} {text : Bytes} {k : Kind} {q : Nat} {ds : List LexDiag} {start : Nat} {f : MB → Option MB → LexM Tok}
    (h : Wp (parseOctal c none start) (fun res s' => ∃ t, res = .tok t ∧ Done text k q ds t s') s) :
    Wp (do
      match ← parseOctal c none start with
      | .tok t => return t
      | .cont c nondigit => f c nondigit) (Done text k q ds) s := by
  refine Wp.bind (Wp.mono h fun res s' hr => ?_)
  obtain ⟨t, rfl, hd⟩ := hr
  exact Wp.pure hd

/-- A literal with a base prefix, read up to the `0`. -/
theorem zeroLiteral_based {w x : Bytes} {r i : Bool} (hw : Based (asc '0' :: w)) (hx : Suffix r i x) {s : Lexer} (ht : s.tokenbuf = [])
    (h : NumAhead s.buffer (w ++ x)) :
    Wp zeroLiteral (Done (asc '0' :: (w ++ x)) (kindOf false r i) (s.buffer.pcur + (w ++ x).length) s.diagnostics) s := by
  unfold zeroLiteral
  refine Wp.bind (Wp.getS ?_)
  rw [ht]
  have pre {isD : MB → Bool} {D : UInt8 → Prop} {p : UInt8} {v : Bytes} {b1 : Buffer} (hw : w = p :: v)
      (hD : ∀ c, D c → isD (some c) = true ∧ c ≠ asc '_' ∧ c ≠ 10 ∧ c ≠ 13) (hv : Digits D v)
      (hnd : ∀ c b, NotNum c b → isD c = false) (h2 : NumAhead b1 (v ++ x)) (h3 : b1.pcur = s.buffer.pcur + 1) :
      Wp (prefixed isD 0 (some p)) (Done (asc '0' :: (w ++ x)) (kindOf false r i) (s.buffer.pcur + (w ++ x).length) s.diagnostics)
        { s with buffer := b1 } := by
    subst hw
    refine Wp.mono (prefixed_run (s := { s with buffer := b1 }) hD hv hx hnd h2 ht) fun t s' hd => ⟨hd.tok, ?_, ?_, hd.quiet, hd.eof⟩
    · simpa using hd.val
    · rw [hd.pos]; simp only [h3, List.length_append, List.length_cons]; omega
  cases hw with
  | @hex p v hp hv =>
    have hp1 : p ≠ 10 ∧ p ≠ 13 := by rcases hp with rfl | rfl <;> decide
    obtain ⟨b1, h1, h2, h3, -⟩ := look_cons (x := p) (l := v ++ x) h hp1.1 hp1.2
    refine Wp.bind (Wp.nextc_eq h1 ?_)
    have e : (isC (some p) 'x' || isC (some p) 'X') = true := by rcases hp with rfl | rfl <;> decide
    refine Wp.ite (fun _ => pre rfl digit_facts_hex hv (fun c b h => h.hex) h2 h3) fun h => absurd e h
  | @bin p v hp hv =>
    have hp1 : p ≠ 10 ∧ p ≠ 13 := by rcases hp with rfl | rfl <;> decide
    obtain ⟨b1, h1, h2, h3, -⟩ := look_cons (x := p) (l := v ++ x) h hp1.1 hp1.2
    refine Wp.bind (Wp.nextc_eq h1 ?_)
    have e : (isC (some p) 'b' || isC (some p) 'B') = true := by rcases hp with rfl | rfl <;> decide
    have e0 : (isC (some p) 'x' || isC (some p) 'X') = false := by rcases hp with rfl | rfl <;> decide
    refine Wp.ite (fun h => absurd h (by simp [e0])) fun _ => ?_
    refine Wp.ite (fun _ => pre rfl digit_facts_bin hv notNum_bin h2 h3) fun h => absurd e h
  | @dec p v hp hv =>
    have hp1 : p ≠ 10 ∧ p ≠ 13 := by rcases hp with rfl | rfl <;> decide
    obtain ⟨b1, h1, h2, h3, -⟩ := look_cons (x := p) (l := v ++ x) h hp1.1 hp1.2
    refine Wp.bind (Wp.nextc_eq h1 ?_)
    have e : (isC (some p) 'd' || isC (some p) 'D') = true := by rcases hp with rfl | rfl <;> decide
    have e0 : (isC (some p) 'x' || isC (some p) 'X') = false := by rcases hp with rfl | rfl <;> decide
    have e1 : (isC (some p) 'b' || isC (some p) 'B') = false := by rcases hp with rfl | rfl <;> decide
    refine Wp.ite (fun h => absurd h (by simp [e0])) fun _ => ?_
    refine Wp.ite (fun h => absurd h (by simp [e1])) fun _ => ?_
    refine Wp.ite (fun _ => pre rfl digit_facts_dec hv (fun c b h => h.dig) h2 h3) fun h => absurd e h
  | @oct p v hp hv =>
    have hp1 : p ≠ 10 ∧ p ≠ 13 := by rcases hp with rfl | rfl <;> decide
    obtain ⟨b1, h1, h2, h3, -⟩ := look_cons (x := p) (l := v ++ x) h hp1.1 hp1.2
    refine Wp.bind (Wp.nextc_eq h1 ?_)
    have e : (isC (some p) 'o' || isC (some p) 'O') = true := by rcases hp with rfl | rfl <;> decide
    have e0 : (isC (some p) 'x' || isC (some p) 'X') = false := by rcases hp with rfl | rfl <;> decide
    have e1 : (isC (some p) 'b' || isC (some p) 'B') = false := by rcases hp with rfl | rfl <;> decide
    have e2 : (isC (some p) 'd' || isC (some p) 'D') = false := by rcases hp with rfl | rfl <;> decide
    have e3 : isC (some p) '_' = false := by rcases hp with rfl | rfl <;> decide
    refine Wp.ite (fun h => absurd h (by simp [e0])) fun _ => ?_
    refine Wp.ite (fun h => absurd h (by simp [e1])) fun _ => ?_
    refine Wp.ite (fun h => absurd h (by simp [e2])) fun _ => ?_
    refine Wp.ite (fun h => absurd h (by simp [e3])) fun _ => ?_
    unfold zeroOctal
    refine Wp.ite (fun _ => ?_) fun h => absurd e h
    cases hv with
    | @mk d v hd hv =>
      obtain ⟨f1, -, -, -, f5, f6, f7, f8, f9, -⟩ := oct_facts d hd
      obtain ⟨b2, k1, k2, k3, -⟩ := look_cons (x := d) (l := v ++ x) h2 f8 f9
      refine Wp.bind (Wp.tokaddMB_eq (Wp.bind (Wp.nextc_eq (s := { s with buffer := b1, tokenbuf := s.tokenbuf ++ [p] }) k1 ?_)))
      refine Wp.ite (fun h => absurd h (by simp [f1, f7])) fun _ => ?_
      refine Wp.ite (fun _ => ?_) fun h => absurd (by simp [f5, f6]) h
      refine octal_then ?_
      refine Wp.mono (parseOctal_run (s := { s with buffer := b2, tokenbuf := s.tokenbuf ++ [p] }) (.digit hd hv) hx h2 k1 (by have := k2.fuel; simp only; omega))
        fun res s' hr => ?_
      obtain ⟨t, rfl, hd'⟩ := hr
      refine ⟨t, rfl, hd'.tok, ?_, ?_, hd'.quiet, hd'.eof⟩
      · rw [hd'.val]; simp [ht]
      · rw [hd'.pos]; simp only [h3, List.length_append, List.length_cons]; omega
  | zero hne hw =>
    have key {c : UInt8} {v : Bytes} {b1 : Buffer} (hv : w = c :: v) (h1 : s.buffer.nextc = .ok (some c, b1)) (h2 : NumAhead b1 (v ++ x)) :
        Wp (parseOctal (some c) none 0) (fun res s' => ∃ t, res = .tok t ∧ Done (asc '0' :: (w ++ x)) (kindOf false r i)
          (s.buffer.pcur + (w ++ x).length) s.diagnostics t s') { s with buffer := b1 } := by
      subst hv
      refine Wp.mono (parseOctal_run (s := { s with buffer := b1 }) hw hx h h1 (by have := h2.fuel; simp only; omega)) fun res s' hr => ?_
      obtain ⟨t, rfl, hd'⟩ := hr
      refine ⟨t, rfl, hd'.tok, ?_, ?_, hd'.quiet, hd'.eof⟩
      · rw [hd'.val]; simp [ht]
      · rw [hd'.pos]
    cases hw with
    | nil => exact absurd rfl hne
    | @digit d v hd hv =>
      obtain ⟨f1, -, -, -, f5, f6, f7, f8, f9, l1, l2, l3, l4, l5, l6, l7, l8⟩ := oct_facts d hd
      obtain ⟨b1, h1, h2, h3, -⟩ := look_cons (x := d) (l := v ++ x) h f8 f9
      refine Wp.bind (Wp.nextc_eq h1 ?_)
      refine Wp.ite (fun h => absurd h (by simp [l1, l2])) fun _ => ?_
      refine Wp.ite (fun h => absurd h (by simp [l3, l4])) fun _ => ?_
      refine Wp.ite (fun h => absurd h (by simp [l5, l6])) fun _ => ?_
      refine Wp.ite (fun h => absurd h (by simp [f1])) fun _ => ?_
      unfold zeroOctal
      refine Wp.ite (fun h => absurd h (by simp [l7, l8])) fun _ => ?_
      refine Wp.ite (fun _ => ?_) fun h => absurd (by simp [f5, f6]) h
      exact octal_then (key rfl h1 h2)
    | @sep d v hd hv =>
      obtain ⟨b1, h1, h2, h3, -⟩ := look_cons (x := asc '_') (l := d :: (v ++ x)) h (by decide) (by decide)
      refine Wp.bind (Wp.nextc_eq h1 ?_)
      refine Wp.ite (fun h => absurd h (by decide)) fun _ => ?_
      refine Wp.ite (fun h => absurd h (by decide)) fun _ => ?_
      refine Wp.ite (fun h => absurd h (by decide)) fun _ => ?_
      refine Wp.ite (fun _ => ?_) fun h => absurd (by decide) h
      exact octal_then (key rfl h1 h2)

/-- `0` followed by something that is neither a base prefix nor a digit. -/
theorem zeroLiteral_other {s : Lexer} {c : MB} {b1 : Buffer} {Q : Tok → Lexer → Prop} (h1 : s.buffer.nextc = .ok (c, b1))
    (hl : ∀ ch ∈ "xXbBdDoO".toList, isC c ch = false) (hu : isC c '_' = false)
    (ho : (MB.ge c (asc '0') && MB.le c (asc '7')) = false) (hq : Wp (afterZero c none) Q { s with buffer := b1 }) :
    Wp zeroLiteral Q s := by
  unfold zeroLiteral
  refine Wp.bind (Wp.getS (Wp.bind (Wp.nextc_eq h1 ?_)))
  refine Wp.ite (fun h => absurd h (by simp [hl 'x' (by decide), hl 'X' (by decide)])) fun _ => ?_
  refine Wp.ite (fun h => absurd h (by simp [hl 'b' (by decide), hl 'B' (by decide)])) fun _ => ?_
  refine Wp.ite (fun h => absurd h (by simp [hl 'd' (by decide), hl 'D' (by decide)])) fun _ => ?_
  refine Wp.ite (fun h => absurd h (by simp [hu])) fun _ => ?_
  unfold zeroOctal
  refine Wp.ite (fun h => absurd h (by simp [hl 'o' (by decide), hl 'O' (by decide)])) fun _ => ?_
  exact Wp.ite (fun h => absurd h (by simp only [ho]; simp)) fun _ => hq

/-- The integer zero. -/
theorem zeroLiteral_integer {x : Bytes} {r i : Bool} (hx : Suffix r i x) {s : Lexer} (h : NumAhead s.buffer x) :
    Wp zeroLiteral (Done (s.tokenbuf ++ asc '0' :: x) (kindOf false r i) (s.buffer.pcur + x.length) s.diagnostics) s := by
  obtain ⟨c, b1, b2, h1, h2, -, h4, h5, h6⟩ := look h (suffix_chars hx)
  have hn := first_suffix hx h2
  refine zeroLiteral_other h1 hn.letters hn.us hn.notOct ?_
  unfold afterZero
  refine Wp.ite (fun h => absurd h (by simp only [hn.notInv]; simp)) fun _ => ?_
  refine Wp.ite (fun _ => ?_) fun _ => ?_
  · refine Wp.bind ⟨_, _, rfl, Wp.bind (Wp.getS ?_)⟩
    have hfu := h.fuel
    have hf1 : 1 ≤ 64 * (b1.input.decoded.bytes.length + 1) := by omega
    obtain ⟨m, hm⟩ : ∃ m, 64 * (b1.input.decoded.bytes.length + 1) = m + 1 := ⟨_, (Nat.sub_add_cancel hf1).symm⟩
    simp only [hm]
    have := (numNext_end (n := m) (f := false) (sp := false) (se := false)
      (s := { s with tokenbuf := s.tokenbuf ++ [asc '0'] }) hx h (by simp)).elim h1
    simpa using this
  · refine Wp.bind (Wp.pushback_eq (s := { s with buffer := b1 }) h4 ?_)
    refine Wp.bind (numberLiteralSuffix_run (s := { s with buffer := b2 }) hx h5 rfl (fun _ => rfl) fun b3 m1 m2 => ?_)
    refine Wp.bind ⟨_, _, rfl, ?_⟩
    have := setIntegerLiteral_run (s := { s with buffer := b3, tokenbuf := [] }) (v := s.tokenbuf ++ [asc '0']) hx fun e => (m1.eof e).2
    simp only at m2
    simp only [m2, h6] at this
    simpa using this

/-- A float that starts with zero. -/
theorem zeroLiteral_float {fr x : Bytes} {e r i : Bool} (hf : Fraction e fr) (hx : Suffix r i x) (he : e = true → r = false) {s : Lexer}
    (h : NumAhead s.buffer (fr ++ x)) :
    Wp zeroLiteral (Done (s.tokenbuf ++ asc '0' :: (fr ++ x)) (kindOf true r i) (s.buffer.pcur + (fr ++ x).length) s.diagnostics) s := by
  obtain ⟨c, v, hfr, hc⟩ : ∃ c v, fr = c :: v ∧ (c = asc '.' ∨ c = asc 'e' ∨ c = asc 'E') := by
    cases hf with
    | point => exact ⟨_, _, rfl, .inl rfl⟩
    | exp he' => exact ⟨_, _, rfl, .inr he'⟩
    | pointExp => exact ⟨_, _, rfl, .inl rfl⟩
  have hc1 : c ≠ 10 ∧ c ≠ 13 := by rcases hc with rfl | rfl | rfl <;> decide
  obtain ⟨b1, h1, h2, h3, -⟩ := look_cons (x := c) (l := v ++ x) (by rw [← List.cons_append, ← hfr]; exact h) hc1.1 hc1.2
  refine zeroLiteral_other h1 ?_ ?_ ?_ ?_
  · rcases hc with rfl | rfl | rfl <;> decide
  · rcases hc with rfl | rfl | rfl <;> decide
  · rcases hc with rfl | rfl | rfl <;> decide
  · unfold afterZero
    have e1 : (MB.gt (some c) (asc '7') && MB.le (some c) (asc '9')) = false := by rcases hc with rfl | rfl | rfl <;> decide
    have e2 : (isC (some c) '.' || isC (some c) 'e' || isC (some c) 'E') = true := by rcases hc with rfl | rfl | rfl <;> decide
    refine Wp.ite (fun h => absurd h (by simp only [e1]; simp)) fun _ => ?_
    refine Wp.ite (fun _ => ?_) fun h => absurd e2 h
    refine Wp.bind ⟨_, _, rfl, Wp.bind (Wp.getS ?_)⟩
    have hfu := h2.fuel
    have := (numNext_fraction hf hx he (s := { s with tokenbuf := s.tokenbuf ++ [asc '0'] }) (n := 64 * (b1.input.decoded.bytes.length + 1))
      (by rw [hfr]; simp at hfu ⊢; omega) h).elim h1
    simpa using this

/-! ### The entry -/

theorem NumAhead.newtok {b : Buffer} {l : Bytes} (h : NumAhead b l) {i j : Nat} : NumAhead { b with tokidx := i, tokline := j } l :=
  ⟨h.nonl, h.plen, h.text, h.le, h.eof, ⟨h.ends.beg, h.ends.prev, h.ends.next⟩⟩

theorem decimal_run {k : Kind} {c : UInt8} {w : Bytes} (hw : Decimal k (c :: w)) {s : Lexer} (h : NumAhead s.buffer w) :
    Wp (do if isC (some c) '0' then zeroLiteral else numLoop (← fuel) (some c) false false false none)
      (Done (s.tokenbuf ++ c :: w) k (s.buffer.pcur + w.length) s.diagnostics) s := by
  have hfu := h.fuel
  generalize hcw : c :: w = cw at hw
  cases hw with
  | @integer v x r i hv hx =>
    cases hv with
    | zero =>
      obtain ⟨rfl, rfl⟩ : c = asc '0' ∧ w = x := by simpa [ascs] using hcw
      exact Wp.ite (fun _ => zeroLiteral_integer hx h) fun h => absurd (by decide) h
    | @nonzero d v hd h0 hv =>
      obtain ⟨rfl, rfl⟩ : c = d ∧ w = v ++ x := by simpa using hcw
      refine Wp.ite (fun e => absurd e (by simpa [isC] using h0)) fun _ => Wp.bind (Wp.getS ?_)
      simp only [List.length_append] at hfu
      refine numLoop_nonzero (x := x) hd hv (by omega) h fun b h1 h2 => ?_
      obtain ⟨m, hm⟩ : ∃ m, 64 * (s.buffer.input.decoded.bytes.length + 1) - v.length - 1 = m + 1 :=
        ⟨64 * (s.buffer.input.decoded.bytes.length + 1) - v.length - 2, by omega⟩
      rw [hm]
      have := numNext_end (n := m) (f := false) (sp := false) (se := false)
        (s := { s with buffer := b, tokenbuf := s.tokenbuf ++ c :: v }) hx h1 (by simp)
      simp only [h2] at this
      simpa [Nat.add_assoc] using this
  | @float v f x e r i hv hf hx he =>
    cases hv with
    | zero =>
      obtain ⟨rfl, rfl⟩ : c = asc '0' ∧ w = f ++ x := by simpa [ascs] using hcw
      exact Wp.ite (fun _ => zeroLiteral_float hf hx he h) fun h => absurd (by decide) h
    | @nonzero d v hd h0 hv =>
      obtain ⟨rfl, rfl⟩ : c = d ∧ w = v ++ (f ++ x) := by simpa using hcw
      refine Wp.ite (fun e => absurd e (by simpa [isC] using h0)) fun _ => Wp.bind (Wp.getS ?_)
      simp only [List.length_append] at hfu
      refine numLoop_nonzero (x := x) hd hv (by omega) h fun b h1 h2 => ?_
      have := numNext_fraction hf hx he (s := { s with buffer := b, tokenbuf := s.tokenbuf ++ c :: v })
        (n := 64 * (s.buffer.input.decoded.bytes.length + 1) - v.length - 1) (by omega) h1
      simp only [h2] at this
      simpa [Nat.add_assoc] using this

theorem parseNumeric_unsigned {k : Kind} {c : UInt8} {w : Bytes} (hw : Literal k (c :: w)) {s : Lexer} (h : NumAhead s.buffer w) :
    Wp (parseNumeric c) (Done (c :: w) k (s.buffer.pcur + w.length) s.diagnostics) s := by
  have hc : Dec c := by
    generalize hcw : c :: w = cw at hw
    have z : Dec (asc '0') := by unfold Dec; decide
    cases hw with
    | decimal hw =>
      cases hw with
      | integer hv => cases hv with
        | zero => obtain ⟨rfl, -⟩ : c = asc '0' ∧ _ := by simpa [ascs] using hcw
                  exact z
        | nonzero hd => obtain ⟨rfl, -⟩ := by simpa using hcw
                        exact hd
      | float hv => cases hv with
        | zero => obtain ⟨rfl, -⟩ : c = asc '0' ∧ _ := by simpa [ascs] using hcw
                  exact z
        | nonzero hd => obtain ⟨rfl, -⟩ := by simpa using hcw
                        exact hd
    | based hb => cases hb <;> (obtain ⟨rfl, -⟩ := by simpa using hcw) <;> exact z
  have hs : ¬ (c = asc '-' ∨ c = asc '+') := byte_forall (p := fun c => Dec c → ¬ (c = asc '-' ∨ c = asc '+')) (by decide +kernel) c hc
  have h' : NumAhead { s.buffer with tokidx := 0, tokline := s.buffer.rubySourceline } w := h.newtok
  unfold parseNumeric
  refine Wp.bind ⟨_, _, rfl, Wp.bind ⟨_, _, rfl, ?_⟩⟩
  refine Wp.ite (fun h => absurd h hs) fun _ => Wp.bind (Wp.pure ?_)
  generalize hcw : c :: w = cw at hw
  cases hw with
  | decimal hw =>
    subst hcw
    exact decimal_run hw h'
  | @based v x r i hv hx =>
    obtain ⟨v, rfl⟩ : ∃ v', v = asc '0' :: v' := by cases hv <;> exact ⟨_, rfl⟩
    obtain ⟨rfl, rfl⟩ : c = asc '0' ∧ w = v ++ x := by simpa using hcw
    exact Wp.ite (fun _ => zeroLiteral_based hv hx rfl h') fun h => absurd (by decide) h

theorem parseNumeric_plus {k : Kind} {w : Bytes} (hw : Decimal k w) {s : Lexer} (h : NumAhead s.buffer w) :
    Wp (parseNumeric (asc '+')) (Done (asc '+' :: w) k (s.buffer.pcur + w.length) s.diagnostics) s := by
  obtain ⟨c, v, rfl, hc⟩ : ∃ c v, w = c :: v ∧ Dec c := by
    have z : Dec (asc '0') := by unfold Dec; decide
    cases hw with
    | integer hv => cases hv with
      | zero => exact ⟨_, _, rfl, z⟩
      | nonzero hd => exact ⟨_, _, rfl, hd⟩
    | float hv => cases hv with
      | zero => exact ⟨_, _, rfl, z⟩
      | nonzero hd => exact ⟨_, _, rfl, hd⟩
  obtain ⟨-, -, n1, n2⟩ := digit_facts_dec c hc
  have h' : NumAhead { s.buffer with tokidx := 0, tokline := s.buffer.rubySourceline } (c :: v) := h.newtok
  unfold parseNumeric
  refine Wp.bind ⟨_, _, rfl, Wp.bind ⟨_, _, rfl, ?_⟩⟩
  refine Wp.ite (fun _ => ?_) fun h => absurd (Or.inr rfl) h
  obtain ⟨b1, h1, h2, h3, -⟩ := look_cons h' n1 n2
  refine Wp.bind ⟨_, _, rfl, Wp.bind (Wp.nextc_eq h1 ?_)⟩
  refine Wp.mono (decimal_run hw h2) fun t s' hd => ⟨hd.tok, ?_, ?_, hd.quiet, hd.eof⟩
  · exact hd.val
  · rw [hd.pos]; simp only [h3, List.length_cons]; omega

end Verif.Lexer
