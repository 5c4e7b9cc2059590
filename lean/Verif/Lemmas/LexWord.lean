import Verif.Lemmas.LexOpTable
import Verif.Props.ReservedWords
import Verif.Lemmas.Utf8Split
import Verif.Spec.Names
/-! Names and keywords are read as the specification says. -/
namespace Verif.Lexer
open Verif.Props (collapse Seq nextc_text)
open NameSpec (NameChar NameByte Name Setter keywords kind stateAfter LabelAt Colon)

/-- A character after the current line's text was read, or the end of the input was seen. -/
structure ReadNext (bs text : Bytes) (b0 b : Buffer) : Prop where
  undo : Undo bs text b0 b
  stop : text = [] → b.eofp = true
  pos : 0 < b.pcur
  took : ∀ c t, text = c :: t → b.eofp = false ∧ bs[b.pcur - 1]? = some c ∧ (c ≠ 10 → Behind bs t b ∧ b.pcur = b0.pcur + 1 ∧ b.ptok = b0.ptok)

theorem Behind.next {bs text : Bytes} {s : Lexer} (h : Behind bs text s.buffer) (hp : 0 < s.buffer.pcur) {Q : MB → Lexer → Prop}
    (hq : ∀ b, ReadNext bs text s.buffer b → b.d.bytes = bs → Q text.head? { s with buffer := b }) : Wp Lexer.nextc Q s := by
  obtain ⟨c1, s1, e1, b, rfl, rfl, hu⟩ := h.peekc (Q := fun r s' => ∃ b, r = text.head? ∧ s' = { s with buffer := b } ∧ Undo bs text s.buffer b)
    fun b hu => ⟨b, rfl, rfl, hu⟩
  obtain ⟨c', b', e, hn⟩ := nextc_good h.inline.at'.seq.good
  have hrun : Lexer.nextc s = .ok (c', { s with buffer := b' }) := by simp [Lexer.nextc, e, Bind.bind, Except.bind, Pure.pure, Except.pure]
  obtain ⟨-, h2, -⟩ := nextc_text h.inline.at'.seq e
  rw [hrun] at e1
  simp only [Except.ok.injEq, Prod.mk.injEq, Lexer.mk.injEq, true_and, and_true] at e1
  obtain ⟨rfl, rfl⟩ := e1
  have hd : b'.d.bytes = bs := by simp only [Buffer.d, h2]; exact h.inline.at'.d
  refine ⟨_, _, hrun, hq _ ?_ hd⟩
  cases text with
  | nil =>
    refine ⟨hu, fun _ => ?_, ?_, fun c t e => by cases e⟩
    · generalize hm : ([] : Bytes).head? = m at hn
      cases hn with
      | eof h5 => exact h5
      | eofNow _ _ _ _ => rfl
      | eofLoad _ hl h5 h6 h7 =>
        exfalso
        have h8 := (hl.atEnd h.inline.at'.seq.nl).1
        have h9 := hl.later
        have h10 := hl.good.llen
        have hd' : b'.d = s.buffer.d := by simp only [Buffer.d, h2]
        rw [hd'] at h10
        have h11 := h.inline.at'.seq.good.tab.last_lf (i := s.buffer.lastline) (by omega)
        rw [← h.inline.at'.seq.good.stop, h.inline.at'.d, ← h8] at h11
        obtain ⟨c, hc, hne⟩ := h.prev
        rw [hc] at h11
        simp only [Option.some.injEq] at h11
        exact hne h11
      | here _ _ _ _ => cases hm
      | load _ _ _ _ _ => cases hm
    · obtain ⟨b2, g1, -, g3, -⟩ := hu
      simp only [List.head?_nil, Buffer.pushback] at g1
      cases g1
      omega
  | cons c t =>
    obtain ⟨c2, s2, e2, g1, g2, g3, g4, g5⟩ := Upcoming.nextc (Q := fun r s' => r = some c ∧ Took bs c t s'.buffer ∧ s'.buffer.pbPos = s.buffer.pcur ∧
        (c ≠ 10 → s'.buffer.pcur = s.buffer.pcur + 1) ∧ True)
      h.inline.at' fun b ht hm => ⟨rfl, ht, hm.back, hm.one, trivial⟩
    rw [hrun] at e2
    simp only [Except.ok.injEq, Prod.mk.injEq] at e2
    obtain ⟨-, rfl⟩ := e2
    refine ⟨hu, (fun e => by cases e), g2.pos, fun c' t' e => ?_⟩
    cases e
    refine ⟨g2.noeof, g2.last, fun hc => ⟨g2.behind hc, g4 hc, ?_⟩⟩
    have h1 := h.inline.step hc
    have h2 := h1.run
    rw [hrun] at h2
    simp only [Except.ok.injEq, Prod.mk.injEq] at h2
    have h3 := congrArg (fun s => s.buffer.ptok) h2.2
    exact h3

/-- Looking at the next character. -/
theorem Behind.peekN0 {bs text : Bytes} {b : Buffer} (h : Behind bs text b) (hp : 0 < b.pcur) {c : UInt8} (hc : c ≠ 10 ∧ c ≠ 13) :
    b.peekN c 0 = .ok (decide (text.head? = some c)) := by
  rw [peekN_ok h.inline.at'.seq.good, h.inline.at'.d]
  congr 1
  rw [decide_eq_decide, ← h.inline.at'.txt, collapse_head hc, List.head?_drop, Nat.add_zero]
  refine ⟨fun e => e.2, fun e => ⟨?_, e⟩⟩
  by_contra hn
  obtain ⟨d, hd, hne⟩ := h.prev
  have := line_end h.inline.at' (Nat.le_refl _) hp hd hne (by omega) h.inline.at'.seq.good.hi
  rw [this] at e; cases e

/-- Looking at the character after that. -/
theorem Behind.peekN1 {bs text : Bytes} {s : Lexer} {d : UInt8} (h : Behind bs (d :: text) s.buffer) (hd : d ≠ 10) {c : UInt8} (hc : c ≠ 10 ∧ c ≠ 13) :
    s.buffer.peekN c 1 = .ok (decide (text.head? = some c)) := by
  have h1 := Inline.step h.inline hd
  have h2 : Behind bs text ({ s.buffer with pcur := s.buffer.pcur + 1 } : Buffer) := ⟨h1.next, d, h1.byte, hd⟩
  rw [← h2.peekN0 (by dsimp only; omega) hc]
  rfl

theorem identByte (c : UInt8) : (MB.u8Alnum c || c == asc '_' || !MB.u8Ascii c) = true ↔ NameByte c := by
  unfold NameByte
  revert c; exact byte_forall (by decide +kernel)

/-- Does the character that was read continue the name? -/
theorem ReadNext.identchar {bs text : Bytes} {b0 : Buffer} {s : Lexer} (h : ReadNext bs text b0 s.buffer) (hd : s.buffer.d.bytes = bs) {Q : Bool → Lexer → Prop}
    (hq : ∀ r, (r = true ↔ ∃ c, text.head? = some c ∧ NameByte c) → Q r s) : Wp Lexer.isIdentchar Q s := by
  refine Wp.isIdentchar h.pos fun r hr => hq r ?_
  rw [hr]
  cases text with
  | nil => simp [h.stop rfl]
  | cons c t =>
    obtain ⟨h1, h2, -⟩ := h.took c t rfl
    have h3 : s.buffer.isIdentcharAt (s.buffer.pcur - 1) = (MB.u8Alnum c || c == asc '_' || !MB.u8Ascii c) := by
      unfold Buffer.isIdentcharAt
      have : s.buffer.input.byteAt (s.buffer.pcur - 1) = some c := by rw [← h2, ← hd]; rfl
      rw [this]
    rw [h3, identByte]
    simp [h1]

theorem lead_len {cp : Nat} (h : Utf8.isScalar cp = true) {c : UInt8} {tl : Bytes} (he : Utf8.encode cp = c :: tl) :
    (if c &&& 0x80 = 0 then some 1
      else if c &&& 0xE0 = 0xC0 then some 2
      else if c &&& 0xF0 = 0xE0 then some 3
      else if c &&& 0xF8 = 0xF0 then some 4
      else none) = some (tl.length + 1) := by
  have hb : cp < 0x110000 := by
    unfold Utf8.isScalar at h; simp only [Bool.or_eq_true, decide_eq_true_eq, Bool.and_eq_true] at h; omega
  have key : ∀ c : UInt8, (c.toNat < 128 → c &&& 0x80 = 0) ∧
      (192 ≤ c.toNat → c.toNat < 224 → ¬ c &&& 0x80 = 0 ∧ c &&& 0xE0 = 0xC0) ∧
      (224 ≤ c.toNat → c.toNat < 240 → ¬ c &&& 0x80 = 0 ∧ ¬ c &&& 0xE0 = 0xC0 ∧ c &&& 0xF0 = 0xE0) ∧
      (240 ≤ c.toNat → c.toNat < 248 → ¬ c &&& 0x80 = 0 ∧ ¬ c &&& 0xE0 = 0xC0 ∧ ¬ c &&& 0xF0 = 0xE0 ∧ c &&& 0xF8 = 0xF0) :=
    byte_forall (by decide +kernel)
  obtain ⟨k1, k2, k3, k4⟩ := key c
  unfold Utf8.encode at he
  split at he
  · simp only [List.cons.injEq] at he
    obtain ⟨rfl, rfl⟩ := he
    rw [if_pos (k1 (by rw [Utf8.toUInt8_toNat]; omega))]; rfl
  split at he
  · simp only [List.cons.injEq] at he
    obtain ⟨rfl, rfl⟩ := he
    have := k2 (by rw [Utf8.toUInt8_toNat]; omega) (by rw [Utf8.toUInt8_toNat]; omega)
    rw [if_neg this.1, if_pos this.2]; rfl
  split at he
  · simp only [List.cons.injEq] at he
    obtain ⟨rfl, rfl⟩ := he
    have := k3 (by rw [Utf8.toUInt8_toNat]; omega) (by rw [Utf8.toUInt8_toNat]; omega)
    rw [if_neg this.1, if_neg this.2.1, if_pos this.2.2]; rfl
  · simp only [List.cons.injEq] at he
    obtain ⟨rfl, rfl⟩ := he
    have := k4 (by rw [Utf8.toUInt8_toNat]; omega) (by rw [Utf8.toUInt8_toNat]; omega)
    rw [if_neg this.1, if_neg this.2.1, if_neg this.2.2.1, if_pos this.2.2.2]; rfl

theorem encode_no_lf {cp : Nat} (h : Utf8.isScalar cp = true) (hn : cp ≠ 10) : ∀ c ∈ Utf8.encode cp, c ≠ 10 := by
  rcases Utf8.encode_bytes h with ⟨x, hx, he⟩ | hb
  · intro c hc e
    rw [he, List.mem_singleton] at hc
    subst hc; subst e
    unfold Utf8.encode at he
    split at he
    · simp only [List.cons.injEq, and_true] at he
      have := congrArg UInt8.toNat he
      rw [Utf8.toUInt8_toNat] at this
      have h10 : (10 : UInt8).toNat = 10 := rfl
      omega
    · split at he
      · simp at he
      · split at he <;> simp at he
  · intro c hc e
    have := hb c hc
    rw [e] at this
    exact absurd this (by decide)

/-- One character of a name. -/
theorem tokaddMbchar_run {bs text tl : Bytes} {cp : Nat} {c : UInt8} {s : Lexer} (hs : Utf8.isScalar cp = true) (hn : cp ≠ 10) (he : Utf8.encode cp = c :: tl)
    (h : Inline bs (tl ++ text) s.buffer) (hp : 0 < s.buffer.pcur) (hb : bs[s.buffer.pcur - 1]? = some c) {Q : Bool → Lexer → Prop}
    (hq : Behind bs text (at_ s (s.buffer.pcur + tl.length)).buffer → Q true { at_ s (s.buffer.pcur + tl.length) with tokenbuf := s.tokenbuf ++ Utf8.encode cp }) :
    Wp (Lexer.tokaddMbchar (some c)) Q s := by
  have hlf := encode_no_lf hs hn
  rw [he] at hlf
  obtain ⟨h1, w, h2, h3⟩ := Inline.skip tl h fun c hc => hlf c (by simp [hc])
  have hall : bs.drop (s.buffer.pcur - 1) = c :: tl ++ w := by
    obtain ⟨g1, g2⟩ := List.getElem?_eq_some_iff.1 hb
    rw [List.drop_eq_getElem_cons g1, g2, show s.buffer.pcur - 1 + 1 = s.buffer.pcur by omega, h2]; rfl
  have hlen : s.buffer.pcur + tl.length ≤ bs.length := by
    have := congrArg List.length h2
    simp only [List.length_drop, List.length_append] at this
    have := h.at'.le
    omega
  have hsl : Spec.slice bs (s.buffer.pcur - 1) (s.buffer.pcur - 1 + (tl.length + 1)) = c :: tl := by
    unfold Spec.slice
    rw [hall, Nat.add_sub_cancel_left]
    simp
  have hsl2 : Spec.slice bs s.buffer.pcur (s.buffer.pcur + tl.length) = tl := by
    unfold Spec.slice
    rw [h2, Nat.add_sub_cancel_left]
    simp
  have hml : multibyteLenB s.buffer (s.buffer.pcur - 1) = .ok (some (tl.length + 1)) := by
    unfold multibyteLenB
    have : s.buffer.byteAt (s.buffer.pcur - 1) = some c := by rw [← hb, ← h.at'.d]; rfl
    rw [this]
    dsimp only
    rw [lead_len hs he]
    dsimp only
    rw [substrAt_ok (by omega) (by rw [h.at'.d]; omega), h.at'.d, hsl]
    have : Utf8.valid (c :: tl) = true := by
      have := Utf8.valid_encodeAll (cs := [cp]) (by simpa using hs)
      simpa [Utf8.encodeAll, he] using this
    simp [Bind.bind, Except.bind, Pure.pure, Except.pure, this]
  have hlast : ∃ c', bs[s.buffer.pcur + tl.length - 1]? = some c' ∧ c' ≠ 10 := by
    have : bs[s.buffer.pcur + tl.length - 1]? = (c :: tl)[tl.length]? := by
      have e : bs[s.buffer.pcur + tl.length - 1]? = (bs.drop (s.buffer.pcur - 1))[tl.length]? := by
        rw [List.getElem?_drop]; congr 1; omega
      rw [e, hall, List.getElem?_append_left (by simp)]
    rw [this, List.getElem?_eq_getElem (by simp)]
    exact ⟨_, rfl, hlf _ (List.getElem_mem _)⟩
  unfold Lexer.tokaddMbchar
  refine Wp.bind (Wp.pcurSub hp (Wp.bind ?_))
  unfold multibyteCharLen
  refine Wp.bind (Wp.liftB _ hml ?_)
  refine Wp.ite (fun e => absurd e (by simp)) fun _ => Wp.pure ?_
  dsimp only
  unfold tokadd tokcopy
  refine Wp.bind (Wp.modS (Wp.bind (Wp.liftB tl.length (by simp [csub]) (Wp.bind (Wp.modB (Wp.bind (Wp.bind (Wp.pcurSub ?_ (Wp.bind ?_)))))))))
  · dsimp only; omega
  dsimp only
  refine Wp.liftB (some tl) ?_ ?_
  · rw [substrAt_ok (by simp)]
    · simp only [Buffer.d]
      have := h.at'.d
      simp only [Buffer.d] at this
      rw [this, Nat.add_sub_cancel, hsl2]
    · have := h.at'.d
      simp only [Buffer.d] at this ⊢
      rw [this]; omega
  · dsimp only
    refine Wp.modS (Wp.pure ?_)
    have := hq ⟨h1, hlast⟩
    rw [he] at this
    rw [List.append_assoc]
    exact this

theorem NameChar.scalar {cp : Nat} (h : NameChar cp) : Utf8.isScalar cp = true ∧ cp ≠ 10 := by
  unfold NameChar at h
  rcases h with h | h | h | h | h
  · exact ⟨by simp [Utf8.isScalar]; omega, by omega⟩
  · exact ⟨by simp [Utf8.isScalar]; omega, by omega⟩
  · exact ⟨by simp [Utf8.isScalar]; omega, by omega⟩
  · exact ⟨by simp [Utf8.isScalar]; omega, by omega⟩
  · exact ⟨h.2, by omega⟩

theorem encode_ascii {cp : Nat} (h : cp < 128) : Utf8.encode cp = [cp.toUInt8] := by
  unfold Utf8.encode; rw [if_pos h]

theorem NameChar.byte {cp : Nat} (h : NameChar cp) {c : UInt8} (hc : c ∈ Utf8.encode cp) : NameByte c := by
  obtain ⟨hs, -⟩ := NameChar.scalar h
  rcases Utf8.encode_bytes hs with ⟨x, hx, he⟩ | hb
  · have h128 : cp < 128 := by
      by_contra hn
      unfold Utf8.encode at he
      rw [if_neg (by omega)] at he
      split at he
      · simp at he
      · split at he <;> simp at he
    rw [encode_ascii h128, List.mem_singleton] at hc
    subst hc
    unfold NameByte
    simp only [UInt8.le_iff_toNat_le, ← UInt8.toNat_inj, Utf8.toUInt8_toNat, Nat.mod_eq_of_lt (show cp < 256 by omega)]
    have e : ∀ n : Nat, n < 256 → (OfNat.ofNat n : UInt8).toNat = n := fun n hn => by
      show (UInt8.ofNat n).toNat = n
      simp; omega
    rw [e 97 (by decide), e 122 (by decide), e 65 (by decide), e 90 (by decide), e 48 (by decide), e 57 (by decide), e 95 (by decide)]
    unfold NameChar at h
    rcases h with h | h | h | h | h
    · exact .inl h
    · exact .inr (.inl h)
    · exact .inr (.inr (.inl h))
    · exact .inr (.inr (.inr (.inl h)))
    · omega
  · exact .inr (.inr (.inr (.inr (hb c hc))))

/-- The loop over the characters of a name. -/
theorem identLoop_run {bs text : Bytes} (hstop : ∀ c, text.head? = some c → ¬ NameByte c) : ∀ (cps : List Nat) {cp : Nat} {c : UInt8} {tl : Bytes} {n : Nat} {s : Lexer}
    {Q : Option MB → Lexer → Prop}, NameChar cp → (∀ c ∈ cps, NameChar c) → Utf8.encode cp = c :: tl → cps.length < n →
    Inline bs (tl ++ (Utf8.encodeAll cps ++ text)) s.buffer → 0 < s.buffer.pcur → bs[s.buffer.pcur - 1]? = some c →
    (∀ b0 b, Behind bs text b0 → b0.pcur = s.buffer.pcur + tl.length + (Utf8.encodeAll cps).length → b0.ptok = s.buffer.ptok → ReadNext bs text b0 b → b.d.bytes = bs →
      Q (some text.head?) { s with buffer := b, tokenbuf := s.tokenbuf ++ Utf8.encode cp ++ Utf8.encodeAll cps }) →
    Wp (Lexer.identLoop n (some c)) Q s
  | [], cp, c, tl, n + 1, s, Q, hcp, _, he, _, h, hp, hb, hq => by
    obtain ⟨hs, hlf⟩ := NameChar.scalar hcp
    unfold Lexer.identLoop
    refine Wp.bind (tokaddMbchar_run hs hlf he (text := text) (by simpa [Utf8.encodeAll] using h) hp hb fun h1 => ?_)
    refine Wp.ite (fun e => absurd e (by simp)) fun _ => Wp.bind (Behind.next (s := { at_ s (s.buffer.pcur + tl.length) with tokenbuf := s.tokenbuf ++ Utf8.encode cp }) h1 (by simp [at_]; omega) fun b h2 hd => ?_)
    refine Wp.bind (ReadNext.identchar (b0 := (at_ s (s.buffer.pcur + tl.length)).buffer) h2 hd fun r hr => ?_)
    have hr' : r = false := by
      by_contra hne
      obtain ⟨c, h3, h4⟩ := hr.1 (by simpa using hne)
      exact hstop c h3 h4
    subst hr'
    refine Wp.ite (fun _ => Wp.pure ?_) fun e => absurd e (by simp)
    have := hq _ _ h1 (by simp [at_, Utf8.encodeAll]) rfl h2 hd
    simpa [Utf8.encodeAll, at_] using this
  | cp2 :: cps, cp, c, tl, n + 1, s, Q, hcp, hcs, he, hn, h, hp, hb, hq => by
    obtain ⟨hs, hlf⟩ := NameChar.scalar hcp
    have hcp2 := hcs cp2 (by simp)
    obtain ⟨hs2, hlf2⟩ := NameChar.scalar hcp2
    obtain ⟨c2, tl2, he2⟩ := List.exists_cons_of_ne_nil (Utf8.encode_ne_nil cp2)
    have hc2 : c2 ≠ 10 := encode_no_lf hs2 hlf2 c2 (by simp [he2])
    have hall : Utf8.encodeAll (cp2 :: cps) = c2 :: (tl2 ++ Utf8.encodeAll cps) := by
      rw [Utf8.encodeAll_cons, he2]; rfl
    unfold Lexer.identLoop
    refine Wp.bind (tokaddMbchar_run hs hlf he (text := Utf8.encodeAll (cp2 :: cps) ++ text) h hp hb fun h1 => ?_)
    refine Wp.ite (fun e => absurd e (by simp)) fun _ => Wp.bind (Behind.next (s := { at_ s (s.buffer.pcur + tl.length) with tokenbuf := s.tokenbuf ++ Utf8.encode cp }) h1 (by simp [at_]; omega) fun b h2 hd => ?_)
    refine Wp.bind (ReadNext.identchar (b0 := (at_ s (s.buffer.pcur + tl.length)).buffer) h2 hd fun r hr => ?_)
    have hr' : r = true := hr.2 ⟨c2, by rw [hall]; rfl, NameChar.byte hcp2 (by simp [he2])⟩
    subst hr'
    refine Wp.ite (fun e => absurd e (by simp)) fun _ => ?_
    obtain ⟨h3, h4, h5⟩ := h2.took c2 (tl2 ++ Utf8.encodeAll cps ++ text) (by rw [hall]; rfl)
    obtain ⟨h5, h6, h7⟩ := h5 hc2
    rw [show (Utf8.encodeAll (cp2 :: cps) ++ text).head? = some c2 by rw [hall]; rfl]
    refine identLoop_run hstop cps hcp2 (fun c hc => hcs c (by simp [hc])) he2 (by simp at hn; omega) ?_ h2.pos h4 fun b0 b' g1 g2 g3 g4 g5 => ?_
    · dsimp only; rw [← List.append_assoc]; exact h5.inline
    · have := hq b0 b' g1 (by
        rw [g2]; dsimp only; rw [h6, hall]
        simp only [at_, List.length_cons, List.length_append]; omega) (by rw [g3]; dsimp only; rw [h7]; rfl) g4 g5
      dsimp only [at_] at this ⊢
      rw [Utf8.encodeAll_cons] at this
      rw [List.append_assoc (s.tokenbuf ++ Utf8.encode cp)]
      exact this
  | [], _, _, _, 0, _, _, _, _, _, hn, _, _, _, _ => absurd hn (by simp)
  | _ :: _, _, _, _, 0, _, _, _, _, _, hn, _, _, _, _ => absurd hn (by simp)

/-- The provisional token of `identSuffix`. -/
def suffixTok (mark : Bytes) : Tok :=
  if mark = [asc '!'] ∨ mark = [asc '?'] then .tFID
  else if mark = [] then .tCONSTANT
  else .tIDENTIFIER

theorem setterSuffix_run {bs rest : Bytes} {s : Lexer} (h : Behind bs rest s.buffer) (hp : 0 < s.buffer.pcur) {Q : Bool → Lexer → Prop}
    (hq : ∀ r, (r = true ↔ Setter rest) → Q r s) : Wp setterSuffix Q s := by
  unfold setterSuffix
  have k0 : ∀ c : UInt8, c ≠ 10 ∧ c ≠ 13 → s.buffer.peek c = .ok (decide (rest.head? = some c)) := fun c hc => by
    have := h.peekN0 hp hc
    exact this
  by_cases h1 : rest.head? = some (asc '~')
  · refine Wp.liftB false ?_ (hq _ ?_)
    · rw [k0 _ (by decide), decide_eq_true h1]; rfl
    · simp [Setter, h1]
  by_cases h2 : rest.head? = some (asc '>')
  · refine Wp.liftB false ?_ (hq _ ?_)
    · rw [k0 _ (by decide), k0 _ (by decide), decide_eq_false h1, decide_eq_true h2]; rfl
    · simp [Setter, h2]
  by_cases h3 : rest.head? = some (asc '=')
  · obtain ⟨t, rfl⟩ : ∃ t, rest = asc '=' :: t := by
      cases rest with
      | nil => cases h3
      | cons d t => simp only [List.head?_cons, Option.some.injEq] at h3; exact ⟨t, by rw [h3]⟩
    refine Wp.liftB (decide (t.head? = some (asc '>'))) ?_ (hq _ ?_)
    · rw [k0 _ (by decide), k0 _ (by decide), k0 _ (by decide), decide_eq_false h1, decide_eq_false h2, decide_eq_true h3]
      exact h.peekN1 (by decide) (by decide)
    · rw [decide_eq_true_iff]
      exact ⟨fun e => ⟨h1, h2, fun _ => e⟩, fun e => e.2.2 rfl⟩
  · refine Wp.liftB true ?_ (hq _ ?_)
    · rw [k0 _ (by decide), k0 _ (by decide), k0 _ (by decide), decide_eq_false h1, decide_eq_false h2, decide_eq_false h3]; rfl
    · exact ⟨fun _ => ⟨h1, h2, fun e => absurd e h3⟩, fun _ => rfl⟩

/-- What may stand at the end of a name. -/
theorem identSuffix_run {bs mark rest : Bytes} {b0 : Buffer} {s : Lexer} (h0 : Behind bs (mark ++ rest) b0) (hp : 0 < b0.pcur) (h : ReadNext bs (mark ++ rest) b0 s.buffer)
    (he : NameSpec.Ends (s.lexState.isSome EXPR_FNAME) mark rest) {Q : Tok → Lexer → Prop}
    (hq : ∀ b, Upcoming bs rest b → b.pcur = b0.pcur + mark.length → b.ptok = b0.ptok → (∃ c, bs[b.pcur - 1]? = some c ∧ c ≠ 10) →
      Q (suffixTok mark) { s with buffer := b, tokenbuf := s.tokenbuf ++ mark }) : Wp (identSuffix (mark ++ rest).head?) Q s := by
  have back : ∀ {Q : Unit → Lexer → Prop}, mark = [] → (∀ b, Upcoming bs rest b → b.pcur = b0.pcur + mark.length → b.ptok = b0.ptok →
      (∃ c, bs[b.pcur - 1]? = some c ∧ c ≠ 10) → Q () { s with buffer := b, tokenbuf := s.tokenbuf ++ mark }) → Wp (Lexer.pushback (mark ++ rest).head?) Q s := by
    rintro Q rfl hq
    refine Undo.pushback h.undo rfl fun b h1 h2 h3 => ?_
    have := hq b h1 (by simpa using h2) h3 (by rw [h2]; exact h0.prev)
    simpa using this
  unfold identSuffix getState
  cases he with
  | plain stop bang setter =>
    cases rest with
    | nil =>
      refine Wp.ite (fun e => absurd e (by simp [isC])) fun _ => Wp.bind (Wp.pure ?_)
      refine Wp.ite (fun e => absurd e (by simp)) fun _ => ?_
      refine Wp.bind (Wp.getS (Wp.ite (fun e => absurd e (by simp [isC])) fun _ => Wp.bind (Wp.pure ?_)))
      refine Wp.ite (fun e => absurd e (by simp)) fun _ => Wp.bind (back rfl fun b g1 g2 g3 g4 => Wp.pure (hq b g1 g2 g3 g4))
    | cons c t =>
      obtain ⟨t1, t2, t3⟩ := h.took c t rfl
      have last : Wp (do
          let setter ← if isC (some c) '=' && s.lexState.isSome EXPR_FNAME then setterSuffix else pure false
          if setter then do
            tokaddMB (some c)
            return Tok.tIDENTIFIER
          else do
            Lexer.pushback (some c)
            return Tok.tCONSTANT) Q s := by
        have fin : Wp (do
            Lexer.pushback (some c)
            return Tok.tCONSTANT) Q s := Wp.bind (back rfl fun b g1 g2 g3 g4 => Wp.pure (hq b g1 g2 g3 g4))
        refine Wp.ite (fun e => Wp.bind ?_) fun _ => Wp.bind (Wp.pure ?_)
        · simp only [isC, Bool.and_eq_true, beq_iff_eq, Option.some.injEq] at e
          obtain ⟨rfl, e⟩ := e
          obtain ⟨g1, g2, -⟩ := t3 (by decide)
          refine setterSuffix_run g1 (by omega) fun r hr => ?_
          refine Wp.ite (fun e' => absurd (hr.1 e') (setter t rfl e)) fun _ => fin
        · exact Wp.ite (fun e => absurd e (by simp)) fun _ => fin
      by_cases hm : c = asc '!' ∨ c = asc '?'
      · obtain ⟨g1, g2, -⟩ := t3 (by rcases hm with rfl | rfl <;> decide)
        refine Wp.ite (fun _ => Wp.bind (Wp.map ?_)) fun e => absurd ?_ e
        · refine Wp.liftB true ?_ ?_
          · have := g1.peekN0 (c := asc '=') (by omega) (by decide)
            rw [decide_eq_true (bang c t rfl hm)] at this
            exact this
          · refine Wp.ite (fun e => absurd e (by simp)) fun _ => Wp.bind (Wp.getS last)
        · rcases hm with rfl | rfl <;> simp [isC]
      · refine Wp.ite (fun e => ?_) fun _ => Wp.bind (Wp.pure ?_)
        · simp only [isC, List.nil_append, List.head?_cons, Bool.or_eq_true, beq_iff_eq, Option.some.injEq] at e
          exact absurd e hm
        · exact Wp.ite (fun e => absurd e (by simp)) fun _ => Wp.bind (Wp.getS last)
  | @mark c _ hm next =>
    obtain ⟨t1, t2, t3⟩ := h.took c rest rfl
    have hc : c ≠ 10 := by rcases hm with rfl | rfl <;> decide
    obtain ⟨g1, g2, g3⟩ := t3 hc
    refine Wp.ite (fun _ => Wp.bind (Wp.map ?_)) fun e => absurd ?_ e
    · refine Wp.liftB false ?_ ?_
      · have := g1.peekN0 (c := asc '=') (by omega) (by decide)
        rw [decide_eq_false next] at this
        exact this
      · refine Wp.ite (fun _ => ?_) fun e => absurd e (by simp)
        have := hq s.buffer g1.inline.at' g2 g3 ⟨c, t2, hc⟩
        have e : suffixTok [c] = .tFID := by rcases hm with rfl | rfl <;> rfl
        rw [e] at this
        exact Wp.bind (Wp.modS (Wp.pure this))
    · rcases hm with rfl | rfl <;> simp [isC]
  | setter def' next =>
    obtain ⟨t1, t2, t3⟩ := h.took (asc '=') rest rfl
    obtain ⟨g1, g2, g3⟩ := t3 (by decide)
    refine Wp.ite (fun e => absurd e (by simp [isC, asc])) fun _ => Wp.bind (Wp.pure ?_)
    refine Wp.ite (fun e => absurd e (by simp)) fun _ => Wp.bind (Wp.getS (Wp.ite (fun _ => Wp.bind ?_) fun e => absurd ?_ e))
    · refine setterSuffix_run g1 (by omega) fun r hr => ?_
      refine Wp.ite (fun _ => ?_) fun e => absurd (hr.2 next) e
      exact Wp.bind (Wp.modS (Wp.pure (hq s.buffer g1.inline.at' g2 g3 ⟨_, t2, by decide⟩)))
    · simp [isC, def']

/-- The part of `parseIdent` after the name was read. -/
def identTail (x : Ext) (lastState : LexState) (cmdState : Bool) (result : Tok) : LexM Tok := do
  let label ← if (← getState).isLabelPossible cmdState then isLabelSuffix 0 else pure false
  if label then
    setState (EXPR_ARG ||| EXPR_LABELED)
    let _ ← nextc
    setYylvalName
    return .tLABEL
  else
    let kw ← if !(← getState).isSome EXPR_DOT then do
        let tok ← getS (·.tokenbuf)
        liftB fun _ => reservedWord tok
      else pure none
    match kw with
    | some kw => identKeyword kw
    | none => identName x lastState result cmdState

/-- The first byte of a name was read. -/
structure WordFirst (bs : Bytes) (cps : List Nat) (text : Bytes) (c : UInt8) (p : Nat) (s : Lexer) : Prop where
  head : ∃ tl, Utf8.encodeAll cps = c :: tl ∧ Behind bs (tl ++ text) s.buffer
  byte : bs[p]? = some c
  pcur : s.buffer.pcur = p + 1
  ptok : s.buffer.ptok = p
  buf : s.tokenbuf = []
  lval : s.lval = none
  strterm : s.strterm = none
  ls : s.lvalStart = none
  le : s.lvalEnd = none

theorem encodeAll_length (cps : List Nat) : cps.length ≤ (Utf8.encodeAll cps).length := by
  induction cps with
  | nil => simp
  | cons c cps ih =>
    rw [Utf8.encodeAll_cons, List.length_append, List.length_cons]
    have := List.length_pos_iff.2 (Utf8.encode_ne_nil c)
    omega

theorem Ends.stop {d : Bool} {mark rest : Bytes} (h : NameSpec.Ends d mark rest) : ∀ c, (mark ++ rest).head? = some c → ¬ NameByte c := by
  cases h with
  | plain h _ _ => exact h
  | mark hm _ =>
    intro c hc
    simp only [List.cons_append, List.head?_cons, Option.some.injEq] at hc
    subst hc
    unfold NameByte
    rcases hm with rfl | rfl <;> decide
  | setter _ _ =>
    intro c hc
    simp only [List.cons_append, List.head?_cons, Option.some.injEq] at hc
    subst hc
    unfold NameByte
    decide

/-- Reading a name, up to its classification. -/
theorem parseIdent_head {x : Ext} {bs mark rest : Bytes} {cps : List Nat} {c : UInt8} {p : Nat} {s : Lexer} {cmd : Bool} {Q : Tok → Lexer → Prop}
    (h : WordFirst bs cps (mark ++ rest) c p s) (hn : Name cps) (he : NameSpec.Ends (s.lexState.isSome EXPR_FNAME) mark rest)
    (hq : ∀ b, Upcoming bs rest b → b.pcur = p + (Utf8.encodeAll cps ++ mark).length → b.ptok = p → (∃ c, bs[b.pcur - 1]? = some c ∧ c ≠ 10) →
      Wp (identTail x s.lexState cmd (suffixTok mark)) Q { s with buffer := b, tokenbuf := Utf8.encodeAll cps ++ mark }) :
    Wp (parseIdent x (some c) cmd) Q s := by
  obtain ⟨⟨tl, h1, h2⟩, h3, h4, h5, h6, -, -, -, -⟩ := h
  cases cps with
  | nil => simp [Utf8.encodeAll] at h1
  | cons cp cps =>
    have hcp := hn.chars cp (by simp)
    obtain ⟨c', tl', he'⟩ := List.exists_cons_of_ne_nil (Utf8.encode_ne_nil cp)
    have h1' := h1
    rw [Utf8.encodeAll_cons, he', List.cons_append, List.cons.injEq] at h1
    obtain ⟨rfl, rfl⟩ := h1
    unfold parseIdent getState
    have hfuel : cps.length < 64 * (s.buffer.d.bytes.length + 1) := by
      have e1 := encodeAll_length cps
      have e2 : (tl' ++ Utf8.encodeAll cps ++ (mark ++ rest)).length ≤ bs.length := by
        rw [← h2.inline.at'.txt]
        exact Nat.le_trans (collapse_length _ (Nat.le_refl _)) (by simp)
      simp only [List.length_append] at e2
      rw [h2.inline.at'.d]
      omega
    refine Wp.bind (Wp.getS (Wp.bind (Wp.fuel (Wp.bind (identLoop_run (Ends.stop he) cps hcp (fun c hc => hn.chars c (by simp [hc])) he' hfuel
      (by rw [← List.append_assoc]; exact h2.inline) (by omega) (by rw [h4, Nat.add_sub_cancel]; exact h3) fun b0 b g1 g2 g3 g4 g5 => ?_)))))
    dsimp only
    refine Wp.bind (identSuffix_run (s := { s with buffer := b, tokenbuf := s.tokenbuf ++ Utf8.encode cp ++ Utf8.encodeAll cps }) g1 (by omega) g4 he fun b' k1 k2 k3 k4 => ?_)
    have := hq b' k1 (by
      rw [k2, g2, h4, List.length_append, h1']
      simp only [List.length_append, List.length_cons]; omega) (by rw [k3, g3, h5]) k4
    rw [h6, List.nil_append]
    rw [Utf8.encodeAll_cons] at this
    exact this

/-- A word was read. -/
structure WordRead (bs w rest : Bytes) (p len : Nat) (s0 : Lexer) (t : Tok) (st : LexState) (r : Tok) (s : Lexer) : Prop where
  tok : r = t
  up : Upcoming bs rest s.buffer
  pcur : s.buffer.pcur = p + len
  ptok : s.buffer.ptok = p
  lval : s.lval = none ∧ len = w.length ∨ s.lval = some w
  strterm : s.strterm = none
  ls : s.lvalStart = none
  le : s.lvalEnd = none
  diag : s.diagnostics = s0.diagnostics
  state : s.lexState = st

theorem labelPossible {st : LexState} {cmd : Bool} : st.isLabelPossible cmd = true ↔ LabelAt st cmd := by
  unfold LexState.isLabelPossible LabelAt LexState.isArg
  simp

theorem colonNext_iff {rest : Bytes} : colonNext rest = true ↔ Colon rest := by
  unfold colonNext Colon
  rw [decide_eq_true_iff]

/-- The label suffix is read as the specification says. -/
theorem labelHere_run {bs rest : Bytes} {cmd : Bool} {s : Lexer} (h : Upcoming bs rest s.buffer) (hp : 0 < s.buffer.pcur) (hb : ∃ c, bs[s.buffer.pcur - 1]? = some c ∧ c ≠ 10)
    {k : Bool → LexM Tok} {Q : Tok → Lexer → Prop} (hq : ∀ r, (r = true ↔ LabelAt s.lexState cmd ∧ Colon rest) → Wp (k r) Q s) :
    Wp (do
      let label ← if (← getState).isLabelPossible cmd then isLabelSuffix 0 else pure false
      k label) Q s := by
  unfold getState
  obtain ⟨c, hc, hne⟩ := hb
  refine Wp.bind (Wp.getS (Wp.ite (fun e => Wp.bind (Wp.labelSuffix h hp hc hne (hq _ ?_))) fun e => Wp.bind (Wp.pure (hq _ ?_))))
  · rw [colonNext_iff]
    exact ⟨fun h => ⟨labelPossible.1 e, h⟩, fun h => h.2⟩
  · simp only [Bool.false_eq_true, false_iff]
    exact fun h => e (labelPossible.2 h.1)

section
variable {x : Ext} {bs w rest : Bytes} {p : Nat} {s : Lexer} {cmd : Bool} {result : Tok} {last : LexState}

/-- A label. -/
theorem tail_label (h : Upcoming bs rest s.buffer) (hp : s.buffer.pcur = p + w.length) (h0 : 0 < s.buffer.pcur) (ht : s.buffer.ptok = p)
    (hb : ∃ c, bs[s.buffer.pcur - 1]? = some c ∧ c ≠ 10) (hw : s.tokenbuf = w) (hst : s.strterm = none) (hls : s.lvalStart = none) (hle : s.lvalEnd = none)
    (hl : LabelAt s.lexState cmd ∧ Colon rest) :
    Wp (identTail x last cmd result) (WordRead bs w rest.tail p (w.length + 1) s .tLABEL (EXPR_ARG ||| EXPR_LABELED)) s := by
  unfold identTail
  refine labelHere_run h h0 hb fun r hr => ?_
  refine Wp.ite (fun _ => ?_) fun e => absurd (hr.2 hl) e
  unfold setState setYylvalName
  obtain ⟨t, rfl⟩ : ∃ t, rest = asc ':' :: t := by
    have := hl.2.1
    cases rest with
    | nil => cases this
    | cons d t => simp only [List.head?_cons, Option.some.injEq] at this; exact ⟨t, by rw [this]⟩
  refine Wp.bind (Wp.modS (Wp.bind ?_))
  have hbe : Behind bs (asc ':' :: t) s.buffer := by
    obtain ⟨c, hc, hne⟩ := hb
    refine ⟨⟨h, h.noeof, fun _ => ?_⟩, c, hc, hne⟩
    by_contra hn
    have h1 := line_end h (Nat.le_refl _) h0 hc hne (by omega) h.seq.good.hi
    have h2 := h.txt
    rw [List.drop_eq_nil_iff.2 (List.getElem?_eq_none_iff.1 h1)] at h2
    simp [collapse] at h2
  refine Behind.eat (s := { s with lexState := EXPR_ARG ||| EXPR_LABELED }) hbe (by decide) fun b h1 h2 h3 => Wp.bind (Wp.modS (Wp.pure ?_))
  exact ⟨rfl, h1.inline.at', by dsimp only at h2 ⊢; omega, by dsimp only at h3 ⊢; omega, .inr (by dsimp only; rw [hw]), hst, hls, hle, rfl, rfl⟩

theorem lookup_run {k : Option ReservedWord → LexM Tok} {Q : Tok → Lexer → Prop} (hw : s.tokenbuf = w)
    (hq : ∀ r, (∀ kw, r = some kw ↔ s.lexState.isSome EXPR_DOT = false ∧ kw ∈ reservedWordsList ∧ kw.name = w) → Wp (k r) Q s) :
    Wp (do
      let kw ← if !(← getState).isSome EXPR_DOT then do
          let tok ← getS (·.tokenbuf)
          liftB fun _ => reservedWord tok
        else pure none
      k kw) Q s := by
  unfold getState
  obtain ⟨r, h1, h2⟩ := C18_lookup w
  refine Wp.bind (Wp.getS (Wp.ite (fun e => Wp.bind (Wp.getS (Wp.bind (Wp.liftB r (by rw [hw]; exact h1) (hq r ?_))))) fun e => Wp.bind (Wp.pure (hq _ ?_))))
  · intro kw
    simp only [Bool.not_eq_true'] at e
    rw [h2 kw]
    exact ⟨fun h => ⟨e, h⟩, fun h => h.2⟩
  · intro kw
    simp only [Bool.not_eq_true', Bool.not_eq_false] at e
    simp [e]

/-- A name that is not a keyword. -/
theorem tail_name {mark : Bytes} {cps : List Nat} (h : Upcoming bs rest s.buffer) (hp : s.buffer.pcur = p + w.length) (h0 : 0 < s.buffer.pcur) (ht : s.buffer.ptok = p)
    (hb : ∃ c, bs[s.buffer.pcur - 1]? = some c ∧ c ≠ 10) (hw : s.tokenbuf = w) (hst : s.strterm = none) (hls : s.lvalStart = none) (hle : s.lvalEnd = none)
    (hl : ¬ (LabelAt s.lexState cmd ∧ Colon rest)) (hcps : w = Utf8.encodeAll cps ++ mark) (hn : Name cps) (hm : NameSpec.Ends (s.lexState.isSome EXPR_FNAME) mark rest)
    (hk : s.lexState.isSome EXPR_DOT = true ∨ ∀ kw ∈ reservedWordsList, kw.name ≠ w) {cp : Nat} (hcp : cps.head? = some cp) :
    Wp (identTail x s.lexState cmd (suffixTok mark)) (WordRead bs w rest p w.length s (kind mark (x.isUppercase cp))
      (stateAfter s.lexState cmd (!s.lexState.isSome (EXPR_DOT ||| EXPR_FNAME) && kind mark (x.isUppercase cp) == .tIDENTIFIER && s.staticEnv.isDeclared (textOf w)))) s := by
  unfold identTail
  refine labelHere_run h h0 hb fun r hr => ?_
  refine Wp.ite (fun e => absurd (hr.1 e) hl) fun _ => ?_
  refine lookup_run hw fun r hr => ?_
  have hr' : r = none := by
    cases r with
    | none => rfl
    | some kw =>
      obtain ⟨g1, g2, g3⟩ := (hr kw).1 rfl
      rcases hk with hk | hk
      · rw [g1] at hk; cases hk
      · exact absurd g3 (hk kw g2)
  subst hr'
  dsimp only
  obtain ⟨cps, rfl⟩ : ∃ t, cps = cp :: t := by
    cases cps with
    | nil => cases hcp
    | cons d t => simp only [List.head?_cons, Option.some.injEq] at hcp; exact ⟨t, by rw [hcp]⟩
  have hsc : ∀ c ∈ cp :: cps, Utf8.isScalar c = true := fun c hc => (NameChar.scalar (hn.chars c hc)).1
  obtain ⟨mcps, hmc, hms⟩ : ∃ ms : List Nat, Utf8.encodeAll ms = mark ∧ ∀ c ∈ ms, Utf8.isScalar c = true := by
    cases hm with
    | plain _ _ _ => exact ⟨[], rfl, by simp⟩
    | mark hm _ => rcases hm with rfl | rfl
                   · exact ⟨[33], rfl, by decide⟩
                   · exact ⟨[63], rfl, by decide⟩
    | setter _ _ => exact ⟨[61], rfl, by decide⟩
  have hwe : w = Utf8.encodeAll (cp :: cps ++ mcps) := by rw [Utf8.encodeAll_append, hmc, hcps]
  have hall : ∀ c ∈ cp :: cps ++ mcps, Utf8.isScalar c = true := by
    intro c hc
    rcases List.mem_append.1 hc with h | h
    · exact hsc c h
    · exact hms c h
  have hvar : isVarName x w = !x.isUppercase cp := by
    unfold isVarName
    rw [hwe, Utf8.lossy_encodeAll hall]; rfl
  have hkind : (if suffixTok mark = .tCONSTANT ∧ isVarName x w = true then Tok.tIDENTIFIER else suffixTok mark) = kind mark (x.isUppercase cp) := by
    rw [hvar]
    cases hm with
    | plain _ _ _ => cases x.isUppercase cp <;> rfl
    | mark hm _ => rcases hm with rfl | rfl <;> cases x.isUppercase cp <;> rfl
    | setter _ _ => cases x.isUppercase cp <;> rfl
  unfold identName getState
  refine Wp.bind (Wp.getS ?_)
  have fin : ∀ v, v = stateAfter s.lexState cmd false → Wp (do
      setYylvalName
      let ident ← getS (·.tokenbuf)
      if !Utf8.valid ident then
        yyerror0 .InvalidMultibyteChar
        return .END_OF_INPUT
      else
        let result := if suffixTok mark = .tCONSTANT ∧ isVarName x ident then Tok.tIDENTIFIER else suffixTok mark
        if !s.lexState.isSome (EXPR_DOT ||| EXPR_FNAME) && result == .tIDENTIFIER && (← isLvarDefined ident) then
          setState (EXPR_END ||| EXPR_LABEL)
          return result
        else return result) (WordRead bs w rest p w.length s (kind mark (x.isUppercase cp))
      (stateAfter s.lexState cmd (!s.lexState.isSome (EXPR_DOT ||| EXPR_FNAME) && kind mark (x.isUppercase cp) == .tIDENTIFIER && s.staticEnv.isDeclared (textOf w))))
      { s with lexState := v } := by
    intro v hv
    unfold setYylvalName isLvarDefined setState
    refine Wp.bind (Wp.modS (Wp.bind (Wp.getS ?_)))
    dsimp only
    rw [hw]
    refine Wp.ite (fun e => absurd e ?_) fun _ => ?_
    · rw [hwe, Utf8.valid_encodeAll hall]; simp
    rw [hkind]
    refine Wp.bind (Wp.getS ?_)
    dsimp only
    generalize hb : (!s.lexState.isSome (EXPR_DOT ||| EXPR_FNAME) && kind mark (x.isUppercase cp) == Tok.tIDENTIFIER && s.staticEnv.isDeclared (textOf w)) = d
    cases d with
    | true =>
      refine Wp.ite (fun _ => Wp.bind (Wp.modS (Wp.pure ?_))) fun e => absurd rfl e
      exact ⟨rfl, h, hp, ht, .inr rfl, hst, hls, hle, rfl, rfl⟩
    | false =>
      refine Wp.ite (fun e => absurd e (by simp)) fun _ => Wp.pure ?_
      exact ⟨rfl, h, hp, ht, .inr rfl, hst, hls, hle, rfl, hv⟩
  unfold setState
  refine Wp.ite (fun e => ?_) fun e => ?_
  · refine Wp.bind (Wp.modS (fin _ ?_))
    simp only [stateAfter, Bool.false_eq_true, if_false, if_pos e]
  · refine Wp.ite (fun e' => ?_) fun e' => ?_
    · refine Wp.bind (Wp.modS (fin _ ?_))
      simp only [LexState.is, beq_iff_eq] at e'
      simp only [stateAfter, Bool.false_eq_true, if_false, if_neg e, if_pos e']
    · refine Wp.bind (Wp.modS (fin _ ?_))
      simp only [LexState.is, beq_iff_eq] at e'
      simp only [stateAfter, Bool.false_eq_true, if_false, if_neg e, if_neg e']

/-- The token of a keyword, other than `do`. -/
def keywordTok (st : LexState) (kw : ReservedWord) : Tok :=
  if st.isSome EXPR_FNAME then kw.id else if st.isSome (EXPR_BEG ||| EXPR_LABELED) then kw.id else kw.modifierId

/-- The state after a keyword. -/
def keywordState (st : LexState) (kw : ReservedWord) : LexState :=
  if st.isSome EXPR_FNAME then EXPR_ENDFN
  else if kw.id ≠ .kDO ∧ st.isSome (EXPR_BEG ||| EXPR_LABELED) = false ∧ kw.id ≠ kw.modifierId then EXPR_BEG ||| EXPR_LABEL else kw.state

/-- The token of `do`. -/
def doTok (s : Lexer) : Tok :=
  if s.lexState.isSome EXPR_FNAME then .kDO
  else if s.lparBeg = s.parenNest then .kDO_LAMBDA
  else if s.cond.isActive then .kDO_COND
  else if s.cmdarg.isActive ∧ s.lexState.isSome EXPR_CMDARG = false then .kDO_BLOCK
  else .kDO

/-- A keyword. -/
theorem tail_keyword (h : Upcoming bs rest s.buffer) (hp : s.buffer.pcur = p + w.length) (h0 : 0 < s.buffer.pcur) (ht : s.buffer.ptok = p)
    (hb : ∃ c, bs[s.buffer.pcur - 1]? = some c ∧ c ≠ 10) (hw : s.tokenbuf = w) (hlv : s.lval = none) (hst : s.strterm = none) (hls : s.lvalStart = none) (hle : s.lvalEnd = none)
    (hl : ¬ (LabelAt s.lexState cmd ∧ Colon rest)) {kw : ReservedWord} (hk : kw ∈ reservedWordsList) (hkw : kw.name = w) (hdot : s.lexState.isSome EXPR_DOT = false) :
    Wp (identTail x last cmd result) (WordRead bs w rest p w.length s (if kw.id = .kDO then doTok s else keywordTok s.lexState kw) (keywordState s.lexState kw)) s := by
  unfold identTail
  refine labelHere_run h h0 hb fun r hr => ?_
  refine Wp.ite (fun e => absurd (hr.1 e) hl) fun _ => ?_
  refine lookup_run hw fun r hr => ?_
  have hr' : r = some kw := (hr kw).2 ⟨hdot, hk, hkw⟩
  subst hr'
  dsimp only
  unfold identKeyword getState setState setYylvalName isLambdaBeginning
  refine Wp.bind (Wp.getS (Wp.ite (fun e => ?_) fun e => ?_))
  · refine Wp.bind (Wp.modS (Wp.bind (Wp.modS (Wp.pure ?_))))
    refine ⟨?_, h, hp, ht, .inr (by dsimp only; rw [hw]), hst, hls, hle, rfl, ?_⟩
    · split
      · rename_i e1; rw [doTok, if_pos e, e1]
      · rw [keywordTok, if_pos e]
    · rw [keywordState, if_pos e]
  · have fin : ∀ (t : Tok) (s' : Lexer), t = (if kw.id = .kDO then doTok s else keywordTok s.lexState kw) → s'.buffer = s.buffer → s'.lval = s.lval → s'.strterm = s.strterm →
        s'.lvalStart = s.lvalStart → s'.lvalEnd = s.lvalEnd → s'.diagnostics = s.diagnostics → s'.lexState = keywordState s.lexState kw →
        WordRead bs w rest p w.length s (if kw.id = .kDO then doTok s else keywordTok s.lexState kw) (keywordState s.lexState kw) t s' := by
      intro t s' e1 e2 e3 e4 e5 e6 e7 e8
      exact ⟨e1, by rw [e2]; exact h, by rw [e2]; exact hp, by rw [e2]; exact ht, .inl ⟨by rw [e3]; exact hlv, rfl⟩, by rw [e4]; exact hst, by rw [e5]; exact hls,
        by rw [e6]; exact hle, e7, e8⟩
    refine Wp.bind (Wp.modS (Wp.bind (Wp.modS ?_)))
    obtain ⟨cs, hcs⟩ : ∃ cs, (if LexState.isSome ({ s with lexState := kw.state } : Lexer).lexState EXPR_BEG = true then { s with lexState := kw.state, commandStart := true }
        else { s with lexState := kw.state } : Lexer) = { s with lexState := kw.state, commandStart := cs } := by
      split
      · exact ⟨_, rfl⟩
      · exact ⟨s.commandStart, rfl⟩
    rw [hcs]
    refine Wp.ite (fun e1 => ?_) fun e1 => ?_
    · have hs : kw.state = keywordState s.lexState kw := by simp [keywordState, e, e1]
      have hdo : ∀ t, t = (if s.lparBeg = s.parenNest then Tok.kDO_LAMBDA else if s.cond.isActive then .kDO_COND
          else if s.cmdarg.isActive ∧ s.lexState.isSome EXPR_CMDARG = false then .kDO_BLOCK else .kDO) →
          t = (if kw.id = .kDO then doTok s else keywordTok s.lexState kw) := fun t ht => by rw [if_pos e1, doTok, if_neg e]; exact ht
      refine Wp.bind (Wp.getS (Wp.ite (fun e2 => ?_) fun e2 => ?_))
      · exact Wp.bind (Wp.modS (Wp.pure (fin _ _ (hdo _ (by rw [if_pos (by simpa using e2)])) rfl rfl rfl rfl rfl rfl hs)))
      · replace hdo := fun t ht => hdo t (by rw [if_neg (by simpa using e2)]; exact ht)
        refine Wp.bind (Wp.getS (Wp.ite (fun e3 => Wp.pure (fin _ _ (hdo _ (by rw [if_pos e3])) rfl rfl rfl rfl rfl rfl hs)) fun e3 => ?_))
        replace hdo := fun t ht => hdo t (by rw [if_neg e3]; exact ht)
        refine Wp.bind (Wp.getS (Wp.ite (fun e4 => Wp.pure (fin _ _ (hdo _ ?_) rfl rfl rfl rfl rfl rfl hs)) fun e4 => Wp.pure (fin _ _ (hdo _ ?_) rfl rfl rfl rfl rfl rfl hs)))
        · rw [if_pos (by simpa using e4)]
        · rw [if_neg (by simpa using e4)]
    · refine Wp.ite (fun e2 => Wp.pure (fin _ _ ?_ rfl rfl rfl rfl rfl rfl ?_)) fun e2 => ?_
      · rw [if_neg e1, keywordTok, if_neg e, if_pos e2]
      · simp [keywordState, e, e2]
      · have ht : kw.modifierId = (if kw.id = .kDO then doTok s else keywordTok s.lexState kw) := by rw [if_neg e1, keywordTok, if_neg e, if_neg e2]
        refine Wp.ite (fun e3 => Wp.bind (Wp.modS (Wp.pure (fin _ _ ht rfl rfl rfl rfl rfl rfl ?_)))) fun e3 => Wp.pure (fin _ _ ht rfl rfl rfl rfl rfl rfl ?_)
        · simp only [Bool.not_eq_true] at e2
          simp [keywordState, e, e1, e2, e3]
        · simp only [ne_eq, not_not] at e3
          simp [keywordState, e, e3]

end

/-- The word `__END__`. -/
def endMark : Bytes := ascs "__END__"

theorem wholeMatch {b : Buffer} (hg : Good b) (eos : Bytes) : ∃ r, b.isWholeMatch eos 0 = .ok r ∧ (r = true → b.pbeg + eos.length ≤ b.pend ∧
    Spec.slice b.d.bytes b.pbeg (b.pbeg + eos.length) = eos ∧
    (b.pend = b.pbeg + eos.length ∨ b.d.bytes[b.pbeg + eos.length]? = some 10 ∨ b.d.bytes[b.pbeg + eos.length]? = some 13)) := by
  unfold Buffer.isWholeMatch
  have e0 : (if 0 > 0 then b.skipWs b.pbeg else b.pbeg) = b.pbeg := rfl
  dsimp only
  rw [e0]
  by_cases h1 : b.pend < b.pbeg + eos.length
  · exact ⟨false, by rw [if_pos h1]; rfl, by simp⟩
  rw [if_neg h1, csub_of_le (by omega)]
  simp only [Bind.bind, Except.bind, Pure.pure, Except.pure]
  split
  · exact ⟨false, rfl, by simp⟩
  · rename_i hc
    have := hg.pend_le
    rw [substrAt_ok (by omega) (by omega)]
    refine ⟨_, rfl, fun hr => ⟨by omega, ?_, ?_⟩⟩
    · simp only [beq_iff_eq, Option.some.injEq] at hr
      exact hr.symm
    · by_cases h2 : b.pend = b.pbeg + eos.length
      · exact .inl h2
      · right
        by_contra hn
        simp only [not_or] at hn
        exact hc ⟨by omega, hn.1, .inl hn.2⟩

/-- First bytes of names. -/
def wordByte (c : UInt8) : Bool := (97 ≤ c && c ≤ 122) || (65 ≤ c && c ≤ 90) || c == 95 || 128 ≤ c

theorem wordByte_digit : ∀ c : UInt8, MB.u8Digit c = true → ¬ wordByte c = true := byte_forall (by decide +kernel)

theorem dispatch_word {x : Ext} {c : UInt8} {sp cmd ts : Bool} {last : LexState} {s : Lexer} {Q : Next → Lexer → Prop} (hc : wordByte c = true)
    (h1 : c = asc '_' → Wp lexUnderscore Q s) (h2 : Wp (lexOther c sp) Q s) : Wp (dispatch x c sp last cmd ts) Q s := by
  unfold dispatch
  repeat ((with_reducible refine Wp.ite (fun e => absurd hc ?_) fun _ => ?_); (· first
    | (rcases e with rfl | rfl | rfl | rfl <;> decide) | (rcases e with rfl | rfl | rfl <;> decide) | (subst e; decide)
    | exact wordByte_digit c e))
  exact Wp.ite h1 fun _ => h2

theorem encodeAll_bytes {cps : List Nat} (h : ∀ c ∈ cps, NameChar c) : ∀ c ∈ Utf8.encodeAll cps, NameByte c := by
  intro c hc
  simp only [Utf8.encodeAll, List.mem_flatten, List.mem_map] at hc
  obtain ⟨l, ⟨cp, h1, rfl⟩, h2⟩ := hc
  exact NameChar.byte (h cp h1) h2

theorem nameByte_plain {c : UInt8} (h : NameByte c) : c ≠ 10 ∧ c ≠ 13 := by
  constructor <;> rintro rfl <;> exact absurd h (by unfold NameByte; decide)

/-- At the start of a name other than `__END__`, the line is not `__END__`. -/
theorem not_end {bs tl text : Bytes} {cps : List Nat} {c : UInt8} {s : Lexer} {p : Nat} (hn : Name cps) (hw : Utf8.encodeAll cps = c :: tl)
    (h : Behind bs (tl ++ text) s.buffer) (hp : s.buffer.pcur = p + 1) (hb : bs[p]? = some c) (hstop : ∀ c, text.head? = some c → ¬ NameByte c)
    (hne : Utf8.encodeAll cps ≠ endMark) (hbeg : s.buffer.pbeg = p) : s.buffer.isWholeMatch endMark 0 = .ok false := by
  obtain ⟨r, h1, h2⟩ := wholeMatch h.inline.at'.seq.good endMark
  cases r with
  | false => exact h1
  | true =>
    exfalso
    obtain ⟨g1, g2, g3⟩ := h2 rfl
    have hbytes := encodeAll_bytes hn.chars
    rw [hw] at hbytes hne
    obtain ⟨-, w, k1, k2⟩ := Inline.skip tl h.inline fun e he => (nameByte_plain (hbytes e (by simp [he]))).1
    have hall : bs.drop p = c :: tl ++ w := by
      obtain ⟨q1, q2⟩ := List.getElem?_eq_some_iff.1 hb
      rw [List.drop_eq_getElem_cons q1, q2, ← hp, k1]; rfl
    have hsl : (c :: tl ++ w).take 7 = endMark := by
      rw [← g2, h.inline.at'.d, hbeg, ← hall]
      unfold Spec.slice
      rw [Nat.add_sub_cancel_left]; rfl
    have hmb : ∀ c ∈ endMark, NameByte c := by unfold NameByte; decide
    have hml : endMark.length = 7 := rfl
    by_cases hlt : (c :: tl).length < 7
    · have e1 : (c :: tl ++ w)[(c :: tl).length]? = endMark[(c :: tl).length]? := by
        rw [← hsl, List.getElem?_take_of_lt hlt]
      rw [List.getElem?_append_right (Nat.le_refl _), Nat.sub_self, List.getElem?_eq_getElem (l := endMark) (by rw [hml]; exact hlt)] at e1
      have hnb := hmb _ (List.getElem_mem (l := endMark) (n := (c :: tl).length) (by rw [hml]; exact hlt))
      have hpl := nameByte_plain hnb
      rw [← List.head?_eq_getElem?] at e1
      exact hstop _ (by rw [← k2]; exact (collapse_head hpl).2 e1) hnb
    · by_cases heq : (c :: tl).length = 7
      · rw [← heq, List.take_left] at hsl
        exact hne hsl
      · have hgt : 7 < (c :: tl).length := by omega
        have e1 : bs[p + 7]? = some ((c :: tl)[7]'hgt) := by
          have : bs[p + 7]? = (bs.drop p)[7]? := by rw [List.getElem?_drop]
          rw [this, hall, List.getElem?_append_left hgt, List.getElem?_eq_getElem hgt]
        have e2 : bs[p + 6]? = some ((c :: tl)[6]'(by omega)) := by
          have : bs[p + 6]? = (bs.drop p)[6]? := by rw [List.getElem?_drop]
          rw [this, hall, List.getElem?_append_left (by omega), List.getElem?_eq_getElem (by omega)]
        have n1 := nameByte_plain (hbytes _ (List.getElem_mem hgt))
        have n2 := nameByte_plain (hbytes _ (List.getElem_mem (show 6 < (c :: tl).length by omega)))
        rw [h.inline.at'.d, hbeg, hml] at g3
        rcases g3 with g3 | g3 | g3
        · have := line_end h.inline.at' (i := p + 7) (by omega) (by omega) e2 n2.1 (by omega) (by omega)
          rw [this] at e1; cases e1
        · rw [g3] at e1; simp only [Option.some.injEq] at e1; exact n1.1 e1.symm
        · rw [g3] at e1; simp only [Option.some.injEq] at e1; exact n1.2 e1.symm

/-- The token is the word, and the lexer stands behind it. -/
structure WordToken (bs w rest : Bytes) (t : Tok) (st : LexState) (p len : Nat) (s : Lexer) (r : Token) (s' : Lexer) : Prop where
  tok : r = ⟨t, w, ⟨p, p + len⟩⟩
  up : Upcoming bs rest s'.buffer
  pcur : s'.buffer.pcur = p + len
  strterm : s'.strterm = none
  ls : s'.lvalStart = none
  le : s'.lvalEnd = none
  diag : s'.diagnostics = s.diagnostics
  state : s'.lexState = st

/-- The fields that decide about words. -/
structure SameForWords (s s1 : Lexer) : Prop where
  lexState : s1.lexState = s.lexState
  staticEnv : s1.staticEnv = s.staticEnv
  lparBeg : s1.lparBeg = s.lparBeg
  parenNest : s1.parenNest = s.parenNest
  cond : s1.cond = s.cond
  cmdarg : s1.cmdarg = s.cmdarg

/-- The lexer stands behind a word, which is not classified yet. -/
structure AfterWord (bs w rest : Bytes) (p : Nat) (s : Lexer) : Prop where
  up : Upcoming bs rest s.buffer
  pcur : s.buffer.pcur = p + w.length
  pos : 0 < s.buffer.pcur
  ptok : s.buffer.ptok = p
  prev : ∃ c, bs[s.buffer.pcur - 1]? = some c ∧ c ≠ 10
  buf : s.tokenbuf = w
  lval : s.lval = none
  strterm : s.strterm = none
  ls : s.lvalStart = none
  le : s.lvalEnd = none

theorem Name.wordByte {cps : List Nat} (hn : Name cps) {c : UInt8} {tl : Bytes} (hw : Utf8.encodeAll cps = c :: tl) : wordByte c = true := by
  obtain ⟨cp, h1, h2⟩ := hn.first
  cases cps with
  | nil => cases h1
  | cons d cps =>
    simp only [List.head?_cons, Option.some.injEq] at h1
    subst h1
    have hch := hn.chars d (by simp)
    have hnb : NameByte c := encodeAll_bytes hn.chars c (by rw [hw]; simp)
    have hnd : ¬ (48 ≤ c ∧ c ≤ 57) := by
      rintro ⟨h3, h4⟩
      rw [Utf8.encodeAll_cons] at hw
      by_cases hd : d < 128
      · rw [encode_ascii hd, List.cons_append, List.cons.injEq] at hw
        have e := congrArg UInt8.toNat hw.1
        rw [Utf8.toUInt8_toNat] at e
        rw [UInt8.le_iff_toNat_le] at h3 h4
        have e48 : (48 : UInt8).toNat = 48 := rfl
        have e57 : (57 : UInt8).toNat = 57 := rfl
        omega
      · rcases Utf8.encode_bytes (NameChar.scalar hch).1 with ⟨y, hy, he⟩ | hbig
        · unfold Utf8.encode at he
          rw [if_neg hd] at he
          split at he
          · simp at he
          · split at he <;> simp at he
        · obtain ⟨c', tl', he'⟩ := List.exists_cons_of_ne_nil (Utf8.encode_ne_nil d)
          rw [he', List.cons_append, List.cons.injEq] at hw
          have := hbig c' (by rw [he']; simp)
          rw [hw.1] at this
          rw [UInt8.le_iff_toNat_le] at this h4
          have e57 : (57 : UInt8).toNat = 57 := rfl
          have e128 : (128 : UInt8).toNat = 128 := rfl
          omega
    unfold NameByte at hnb
    unfold Lexer.wordByte
    revert hnb hnd
    generalize c = c
    revert c
    exact byte_forall (by decide +kernel)

/-- A word in the main loop. -/
theorem yylex_word {x : Ext} {bs blanks mark rest rest' v : Bytes} {cps : List Nat} {len : Nat} {s : Lexer} {t : Tok} {st : LexState}
    (h : Upcoming bs (blanks ++ (Utf8.encodeAll cps ++ (mark ++ rest))) s.buffer)
    (hb : SkipsTo x bs s.lexState blanks (Utf8.encodeAll cps ++ (mark ++ rest))) (hn : Name cps) (hne : Utf8.encodeAll cps ≠ endMark) (he : NameSpec.Ends (s.lexState.isSome EXPR_FNAME) mark rest) (htn : t ≠ .tNL)
    (hv : v = Utf8.encodeAll cps ++ mark) (hst : s.strterm = none) (hls : s.lvalStart = none) (hle : s.lvalEnd = none)
    (hd : ∀ s1, SameForWords s s1 → AfterWord bs v rest (s.buffer.pcur + blanks.length) s1 →
      Wp (identTail x s1.lexState s.commandStart (suffixTok mark)) (WordRead bs v rest' (s.buffer.pcur + blanks.length) len s1 t st) s1) :
    Wp (yylex x) (WordToken bs v rest' t st (s.buffer.pcur + blanks.length) len s) s := by
  refine yylex_code hst ?_
  obtain ⟨c, tl, hw⟩ : ∃ c tl, Utf8.encodeAll cps = c :: tl := by
    obtain ⟨cp, h1, -⟩ := hn.first
    cases cps with
    | nil => cases h1
    | cons d cps =>
      obtain ⟨c, tl, he⟩ := List.exists_cons_of_ne_nil (Utf8.encode_ne_nil d)
      exact ⟨c, tl ++ Utf8.encodeAll cps, by rw [Utf8.encodeAll_cons, he]; rfl⟩
  have hlen : (blanks ++ (Utf8.encodeAll cps ++ (mark ++ rest))).length ≤ bs.length := by
    rw [← h.txt]
    exact Nat.le_trans (collapse_length _ (Nat.le_refl _)) (by simp)
  refine hb.run (s := { s with lval := none, commandStart := false, tokenSeen := true }) rfl hst hls hle ?_ h fun n b sp tk cs hn' h1 hp _ => ?_
  · rw [h.d]; simp only [List.length_append] at hlen; omega
  obtain ⟨n, rfl⟩ : ∃ k', n = k' + 1 := ⟨n - 1, by omega⟩
  have h1' := h1
  rw [hw] at h1
  refine yylexLoop_char (s := { s with lval := none, commandStart := false, tokenSeen := tk, comments := cs, buffer := b }) h1 fun b1 h2 hm ht => Wp.bind ?_
  have hbytes := encodeAll_bytes hn.chars
  rw [hw] at hbytes
  have hc := (nameByte_plain (hbytes c (by simp))).1
  have hone := hm.one hc
  dsimp only at hone hp ht
  have hbeh : Behind bs (tl ++ (mark ++ rest)) b1 := h2.behind hc
  have hbyte : bs[s.buffer.pcur + blanks.length]? = some c := by
    rw [← h2.last]; congr 1; omega
  have hpc : b1.pcur = s.buffer.pcur + blanks.length + 1 := by omega
  have main : ∀ (b2 : Buffer), BSame b1 b2 → b2.ptok = b1.ptok → Wp (parseIdent x (some c) s.commandStart)
      (Finish (WordToken bs v rest' t st (s.buffer.pcur + blanks.length) len s)) { s with lval := none, commandStart := false, tokenSeen := tk, comments := cs, buffer := b2, tokenbuf := [] } := by
    intro b2 hb2 hpt
    have hbeh2 : Behind bs (tl ++ (mark ++ rest)) b2 := ⟨hbeh.inline.bsame hb2, by rw [hb2.pcur]; exact hbeh.prev⟩
    refine parseIdent_head (p := s.buffer.pcur + blanks.length) ⟨⟨tl, hw, hbeh2⟩, hbyte, by dsimp only; rw [hb2.pcur]; exact hpc, by dsimp only; rw [hpt]; omega, rfl, rfl, hst, hls, hle⟩ hn he
      fun b3 k1 k2 k3 k4 => ?_
    rw [← hv] at k2 ⊢
    have hpos : 0 < b3.pcur := by
      rw [k2, hv, hw]; simp only [List.cons_append, List.length_cons]; omega
    refine Wp.mono (hd { s with lval := none, commandStart := false, tokenSeen := tk, comments := cs, buffer := b3, tokenbuf := v } ⟨rfl, rfl, rfl, rfl, rfl, rfl⟩
      ⟨k1, k2, hpos, k3, k4, rfl, rfl, hst, hls, hle⟩) fun r s2 k => ?_
    obtain ⟨rfl, hup, hpc2, hpt2, hlv, hst2, hls2, hle2, hdi, hs2⟩ := k
    have hb2' : tBegin s2 = s.buffer.pcur + blanks.length := by simp only [tBegin, hls2, Option.getD, hpt2]
    have he2 : tEnd s2 = s.buffer.pcur + blanks.length + len := by simp only [tEnd, hle2, Option.getD, hpc2]
    refine ⟨htn, v, ?_, ?_⟩
    · rcases hlv with ⟨hlv, hl⟩ | hlv
      · refine .inr ⟨hlv, by omega, ?_, ?_⟩
        · rw [he2, ← hpc2, hup.d]; exact hup.le
        · rw [hup.d, hb2', he2, hl]
          have hmk : ∀ e ∈ tl ++ mark, e ≠ 10 := by
            intro e hem
            rcases List.mem_append.1 hem with h | h
            · exact (nameByte_plain (hbytes e (by simp [h]))).1
            · cases he with
              | plain _ _ _ => cases h
              | mark hm _ =>
                rw [List.mem_singleton] at h
                rw [h]
                rcases hm with rfl | rfl <;> decide
              | setter _ _ => rw [List.mem_singleton] at h; rw [h]; decide
          obtain ⟨-, w, hw1, -⟩ := Inline.skip (tl ++ mark) (s := { s with buffer := b1 }) (rest := rest) (by rw [List.append_assoc]; exact hbeh.inline) hmk
          dsimp only at hw1
          have e2 : bs.drop (s.buffer.pcur + blanks.length) = v ++ w := by
            obtain ⟨g1, g2⟩ := List.getElem?_eq_some_iff.1 hbyte
            rw [List.drop_eq_getElem_cons g1, g2, ← hpc, hw1, hv, hw]
            simp
          unfold Spec.slice
          rw [e2, Nat.add_sub_cancel_left]
          simp
      · exact .inl hlv
    · exact ⟨by rw [hb2', he2], hup, hpc2, hst2, rfl, rfl, hdi, hs2⟩
  have same : ∀ b : Buffer, BSame b { b with tokidx := 0, tokline := b.rubySourceline } := fun b => ⟨⟨rfl, rfl, rfl, rfl, rfl, rfl, rfl, rfl⟩, rfl, rfl⟩
  refine dispatch_word (Name.wordByte hn hw) (fun hu => ?_) ?_
  · unfold lexUnderscore newtok
    refine Wp.bind (Wp.getB (Wp.ite (fun e => Wp.bind (Wp.liftB false ?_ ?_)) fun e => Wp.bind (Wp.pure ?_)))
    · refine not_end (p := s.buffer.pcur + blanks.length) (s := { s with lval := none, commandStart := false, tokenSeen := tk, comments := cs, buffer := b1 }) hn hw hbeh hpc hbyte
        (Ends.stop he) hne ?_
      simp only [Buffer.wasBol, beq_iff_eq] at e
      dsimp only at e ⊢
      omega
    · refine Wp.ite (fun e => absurd e (by simp)) fun _ => Wp.bind (Wp.modS (Wp.pure ?_))
      exact main _ (same b1) rfl
    · refine Wp.ite (fun e => absurd e (by simp)) fun _ => Wp.bind (Wp.modS (Wp.pure ?_))
      exact main _ (same b1) rfl
  · unfold lexOther newtok
    refine Wp.bind (Wp.isIdentchar h2.pos fun r hr => ?_)
    have hr' : r = true := by
      rw [hr]
      refine ⟨h2.noeof, ?_⟩
      unfold Buffer.isIdentcharAt
      have : b1.input.byteAt (b1.pcur - 1) = some c := by rw [← h2.last, ← h2.at'.d]; rfl
      dsimp only
      rw [this]
      exact (identByte c).2 (hbytes c (by simp))
    subst hr'
    refine Wp.ite (fun e => absurd e (by simp)) fun _ => Wp.bind (Wp.modS (Wp.pure ?_))
    exact main _ (same b1) rfl

end Verif.Lexer
