import Verif.Lemmas.ReadNum
import Verif.Lemmas.Utf8Split
import Verif.Props.ReservedWords
/-! The text of names is UTF-8. -/
namespace Verif.Lexer
open Spec

/-- What does not change within a name. -/
structure Kp (D : Bytes) (k : Nat) (s : Lexer) : Prop where
  bytes : s.buffer.d.bytes = D
  ls : s.lvalStart = none
  le : s.lvalEnd = none
  lv : LvA s
  tok : s.buffer.ptok = k

/-- The characters from `q` on were added to the token buffer, which was `T` before. -/
structure Nm (D : Bytes) (k q : Nat) (T : Bytes) (s : Lexer) : Prop extends Kp D k s where
  mid : Mid s.buffer
  txt : s.tokenbuf = T ++ slice D q s.buffer.pcur
  val : Utf8.valid (slice D q s.buffer.pcur) = true
  lt : q < s.buffer.pcur

/-- The same for the characters before `ch`, which was just read. -/
structure NmC (D : Bytes) (k q : Nat) (T : Bytes) (ch : UInt8) (s : Lexer) : Prop extends Kp D k s where
  mid : Mid s.buffer
  noeof : s.buffer.eofp = false
  here : D[s.buffer.pcur - 1]? = some ch
  txt : s.tokenbuf = T ++ slice D q (s.buffer.pcur - 1)
  val : Utf8.valid (slice D q (s.buffer.pcur - 1)) = true
  lt : q < s.buffer.pcur

/-- A name was read and `c` after it. -/
structure NmR (D : Bytes) (k q : Nat) (T : Bytes) (c : MB) (s : Lexer) : Prop where
  rd : ∃ p b, Nm D k q T p ∧ Rd p c b ∧ s.buffer = b.buffer ∧ s.tokenbuf = p.tokenbuf
  ls : s.lvalStart = none
  le : s.lvalEnd = none
  lv : LvA s

theorem csub_ok {a b c : Nat} (h : csub a b = .ok c) : c = a - b ∧ b ≤ a := by
  unfold csub at h
  split at h
  · cases h; exact ⟨rfl, by assumption⟩
  · cases h

section
variable {α : Type} {s : Lexer} {Q : α → Lexer → Prop}
theorem Pc.liftB {f : Buffer → Res α} (h : ∀ a, f s.buffer = .ok a → Q a s) : Pc (Lexer.liftB f) Q s := by
  intro a s' e
  simp only [Lexer.liftB, Bind.bind, Except.bind, Pure.pure, Except.pure] at e
  cases hf : f s.buffer with
  | error p => rw [hf] at e; simp at e
  | ok r => rw [hf] at e; cases e; exact h _ hf
theorem Pc.mutB {f : Buffer → Buffer} {Q : Unit → Lexer → Prop} (h : Q () { s with buffer := f s.buffer }) : Pc (Lexer.modB f) Q s := by
  intro a s' e; cases e; exact h
theorem Pc.pcurSub {n : Nat} {Q : Nat → Lexer → Prop} (h : n ≤ s.buffer.pcur → Q (s.buffer.pcur - n) s) : Pc (Lexer.pcurSub n) Q s := by
  unfold Lexer.pcurSub
  refine Pc.liftB fun a e => ?_
  obtain ⟨rfl, h1⟩ := csub_ok e
  exact h h1
/-- Steps that change nothing here. -/
theorem Pc.nu {x : LexM α} (hx : Nu x) (hq : ∀ a s', Nt s s' → Q a s') : Pc x Q s := fun a s' e => hq a s' (hx s a s' e)
end

theorem multibyteLenB_valid {b : Buffer} {ptr len : Nat} (h : multibyteLenB b ptr = .ok (some len)) :
    1 ≤ len ∧ ptr + len ≤ b.d.bytes.length ∧ (∀ j, ptr < j → j < ptr + len → PlainAt b j) ∧ Utf8.valid (slice b.d.bytes ptr (ptr + len)) = true := by
  obtain ⟨r, h1, h2⟩ := multibyteLenB_ok b ptr
  rw [h] at h1; cases h1
  obtain ⟨h3, h4, h5, h6⟩ := h2 len rfl
  refine ⟨h3, h5, h6, ?_⟩
  unfold multibyteLenB at h
  split at h
  · cases h
  dsimp only at h
  split at h
  · cases h
  rename_i l _
  obtain ⟨r, k1, k2⟩ := substrAt_total b ptr (ptr + l)
  rw [k1] at h
  simp only [Bind.bind, Except.bind, Pure.pure, Except.pure] at h
  cases r with
  | none => cases h
  | some bs =>
    dsimp only at h
    split at h
    · rename_i hv
      cases h
      split at k2
      · cases k2; exact hv
      · cases k2
    · cases h

theorem Pc.multibyteCharLen {ptr : Nat} {s : Lexer} {Q : Option Nat → Lexer → Prop} (h0 : ∀ s', Q none s')
    (h1 : ∀ len, multibyteLenB s.buffer ptr = .ok (some len) → Q (some len) s) : Pc (Lexer.multibyteCharLen ptr) Q s := by
  unfold Lexer.multibyteCharLen
  refine Pc.bind (Pc.liftB fun r e => Pc.ite (fun hr => ?_) fun hr => ?_)
  · cases r with
    | some _ => cases hr
    | none => exact Pc.bind (Pc.nu Nu.yyerror0 fun _ s1 _ => Pc.pure (h0 _))
  · cases r with
    | none => exact absurd rfl hr
    | some len => exact Pc.pure (h1 len e)

theorem slice_one {D : Bytes} {p : Nat} {c : UInt8} (h : D[p]? = some c) : slice D p (p + 1) = [c] := by
  rw [slice_push (Nat.le_refl _) h, slice_nil]; rfl

section
variable {D T : Bytes} {k q : Nat} {ch : UInt8} {s : Lexer}

theorem tokaddMbchar_pc (h : NmC D k q T ch s) :
    Pc (Lexer.tokaddMbchar (some ch)) (fun r s' => r = true → Nm D k q T s' ∧ s'.buffer.eofp = false) s := by
  unfold Lexer.tokaddMbchar
  refine Pc.bind (Pc.pcurSub fun h1 => Pc.bind (Pc.multibyteCharLen (fun s' => Pc.pure (by simp)) fun len hlen => ?_))
  obtain ⟨l1, l2, l3, l4⟩ := multibyteLenB_valid hlen
  dsimp only
  have hline := mb_on_line h.mid l2 l3
  have hadv := advance_mid h.mid (k := len - 1) (fun _ => h.noeof) (by omega) (fun j j1 j2 => l3 j (by omega) (by omega))
  refine Pc.bind (Pc.modS (Pc.bind (Pc.liftB fun a ha => Pc.bind (Pc.mutB ?_))))
  obtain ⟨rfl, -⟩ := csub_ok ha
  unfold Lexer.tokcopy
  refine Pc.bind (Pc.bind (Pc.pcurSub fun _ => Pc.bind (Pc.liftB fun r hr => ?_)))
  obtain ⟨r', e1, e2⟩ := substrAt_total s.buffer (s.buffer.pcur) (s.buffer.pcur + (len - 1))
  have e3 : Buffer.substrAt { s.buffer with pcur := s.buffer.pcur + (len - 1) } (s.buffer.pcur) (s.buffer.pcur + (len - 1)) = .ok r' := e1
  dsimp only at hr
  rw [Nat.add_sub_cancel, e3] at hr
  cases hr
  have hle := h.mid.toGood.pend_le
  rw [if_pos ⟨by omega, by omega⟩] at e2
  subst e2
  refine Pc.modS (Pc.pure fun _ => ⟨⟨⟨h.bytes, h.ls, h.le, h.lv, h.tok⟩, hadv.1, ?_, ?_, ?_⟩, h.noeof⟩)
  · show s.tokenbuf ++ [ch] ++ slice s.buffer.d.bytes s.buffer.pcur (s.buffer.pcur + (len - 1)) = T ++ slice D q (s.buffer.pcur + (len - 1))
    rw [h.txt, h.bytes]
    have hq := h.lt
    have e4 : slice D q (s.buffer.pcur - 1 + 1) = slice D q (s.buffer.pcur - 1) ++ [ch] := slice_push (by omega) h.here
    rw [show s.buffer.pcur - 1 + 1 = s.buffer.pcur by omega] at e4
    rw [List.append_assoc T, ← e4, List.append_assoc, ← slice_append (by omega) (by omega)]
  · show Utf8.valid (slice D q (s.buffer.pcur + (len - 1))) = true
    have hq := h.lt
    rw [h.bytes, show s.buffer.pcur - 1 + len = s.buffer.pcur + (len - 1) by omega] at l4
    rw [slice_append (q := s.buffer.pcur - 1) (by omega) (by omega)]
    exact Utf8.valid_append h.val l4
  · show q < s.buffer.pcur + (len - 1)
    have hq := h.lt
    omega

theorem NmR.next {c : MB} (h : NmR D k q T c s) (hi : s.buffer.eofp = false ∧ s.buffer.isIdentcharAt (s.buffer.pcur - 1) = true) :
    ∃ ch, c = some ch ∧ NmC D k q T ch s := by
  obtain ⟨⟨p, b, h1, h2, h3, h4⟩, h5, h6, h7⟩ := h
  have := h2.ident (by rw [← h3]; exact hi)
  cases c with
  | none => exact absurd rfl this.2
  | some ch =>
    obtain ⟨k1, k2⟩ := (h2.isSome ch rfl).byte (fun e => this.1 (by rw [e]))
    have hb : s.buffer.d.bytes = D := by
      rw [h3, ← h1.bytes]; simp only [Buffer.d, h2.loc.1.same.input]
    have hpc : s.buffer.pcur = p.buffer.pcur + 1 := by rw [h3]; exact k1
    refine ⟨ch, rfl, ⟨hb, h5, h6, h7, ?_⟩, ?_, hi.1, ?_, ?_, ?_, ?_⟩
    · rw [h3, show b.buffer.ptok = p.buffer.ptok by rw [h2.eqB]]; exact h1.tok
    · rw [h3]; exact h2.mid this.1
    · rw [hpc, Nat.add_sub_cancel, ← h1.bytes]; exact k2
    · rw [hpc, Nat.add_sub_cancel, h4]; exact h1.txt
    · rw [hpc, Nat.add_sub_cancel]; exact h1.val
    · rw [hpc]; have := h1.lt; omega

theorem Pc.nextcN {Q : MB → Lexer → Prop} (h : Nm D k q T s) (hq : ∀ c s', NmR D k q T c s' → Q c s') : Pc Lexer.nextc Q s := by
  intro c s' e
  have h1 := Pc.of_wp (Wp.nextc (Q := fun c s' => Rd s c s') h.mid fun c s' h => h) c s' e
  obtain ⟨b, -, rfl⟩ := nextc_eq e
  exact hq _ _ ⟨⟨s, _, h, h1, rfl, rfl⟩, h.ls, h.le, h.lv⟩

theorem NmR.pos {c : MB} (h : NmR D k q T c s) : 0 < s.buffer.pcur := by
  obtain ⟨⟨p, b, h1, h2, h3, h4⟩, -⟩ := h
  rw [h3]; exact h2.pos

theorem identLoop_pc : ∀ {n : Nat} {ch : UInt8} {s : Lexer}, NmC D k q T ch s →
    Pc (Lexer.identLoop n (some ch)) (fun r s' => ∀ c, r = some c → NmR D k q T c s' ∧
      ¬ (s'.buffer.eofp = false ∧ s'.buffer.isIdentcharAt (s'.buffer.pcur - 1) = true)) s := by
  intro n
  induction n with
  | zero => intro ch s h; exact Pc.fail
  | succ n ih =>
    intro ch s h
    unfold Lexer.identLoop
    refine Pc.bind (Pc.mono (tokaddMbchar_pc h) fun r s1 h1 => Pc.ite (fun _ => Pc.pure (by simp)) fun hr => ?_)
    refine Pc.bind (Pc.nextcN (h1 (by simpa using hr)).1 fun c s2 h2 => Pc.bind (Pc.of_wp (Wp.isIdentchar h2.pos fun r hi => ?_)))
    refine Pc.ite (fun hn => Pc.pure fun c' e => ?_) fun hy => ?_
    · cases e
      exact ⟨h2, fun hc => by have := hi.2 hc; rw [this] at hn; cases hn⟩
    · obtain ⟨ch', rfl, h3⟩ := h2.next (hi.1 (by simpa using hy))
      exact ih h3

theorem Kp.nt {s s' : Lexer} (h : Kp D k s) (hn : Nt s s') : Kp D k s' :=
  ⟨by rw [hn.buf]; exact h.bytes, hn.ls.trans h.ls, hn.le.trans h.le, h.lv.congr hn.lv, by rw [hn.buf]; exact h.tok⟩
theorem Nm.nt {s s' : Lexer} (h : Nm D k q T s) (hn : Nt s s') (ht : s'.tokenbuf = s.tokenbuf) : Nm D k q T s' :=
  ⟨h.toKp.nt hn, by rw [hn.buf]; exact h.mid, by rw [hn.buf, ht]; exact h.txt, by rw [hn.buf]; exact h.val, by rw [hn.buf]; exact h.lt⟩
theorem NmR.nt {c : MB} {s s' : Lexer} (h : NmR D k q T c s) (hn : Nt s s') (ht : s'.tokenbuf = s.tokenbuf) : NmR D k q T c s' := by
  obtain ⟨⟨p, b, h1, h2, h3, h4⟩, h5, h6, h7⟩ := h
  exact ⟨⟨p, b, h1, h2, by rw [hn.buf]; exact h3, by rw [ht]; exact h4⟩, hn.ls.trans h5, hn.le.trans h6, h7.congr hn.lv⟩
theorem Pc.nuN {α : Type} {Q : α → Lexer → Prop} {x : LexM α} (h : Nm D k q T s) (hx : Nu x) (ht : Tn x) (hq : ∀ a s', Nm D k q T s' → Q a s') : Pc x Q s :=
  fun a s' e => hq a s' (h.nt (hx s a s' e) (ht s a s' e).2)
theorem Pc.nuNR {α : Type} {Q : α → Lexer → Prop} {c : MB} {x : LexM α} (h : NmR D k q T c s) (hx : Nu x) (ht : Tn x) (hq : ∀ a s', NmR D k q T c s' → Q a s') : Pc x Q s :=
  fun a s' e => hq a s' (h.nt (hx s a s' e) (ht s a s' e).2)

theorem Pc.pushbackN {Q : Unit → Lexer → Prop} {c : MB} (h : NmR D k q T c s) (hq : ∀ s', Nm D k q T s' → Q () s') : Pc (Lexer.pushback c) Q s := by
  intro u s' e
  obtain ⟨⟨p, b, h1, h2, h3, h0⟩, h4, h5, h6⟩ := h
  obtain ⟨b', e1, rfl⟩ := pushback_eq e
  have e2 : Lexer.pushback c b = .ok ((), { b with buffer := b' }) := by
    simp only [Lexer.pushback, ← h3, e1, Bind.bind, Except.bind, Pure.pure, Except.pure]
  have key := Pc.of_wp (Wp.pushback (Q := fun _ s3 => Loc p s3 ∧ Mid s3.buffer ∧ s3.buffer.pcur = p.buffer.pcur ∧ s3.buffer.ptok = p.buffer.ptok)
    h2 (.refl _) rfl rfl id (.refl _) fun s3 k1 k2 k3 k4 _ _ => ⟨k1, k2, k3, k4⟩) () _ e2
  obtain ⟨k1, k2, k3, k4⟩ := key
  have k3 : b'.pcur = _ := k3
  refine hq _ ⟨⟨?_, h4, h5, h6, ?_⟩, k2, ?_, ?_, ?_⟩
  · rw [← h1.bytes]; have := k1.1.same.input; simp only [Buffer.d] at this ⊢; rw [this]
  · exact (show b'.ptok = _ from k4).trans h1.tok
  · show s.tokenbuf = T ++ slice D q b'.pcur
    rw [k3, h0]; exact h1.txt
  · show Utf8.valid (slice D q b'.pcur) = true
    rw [k3]; exact h1.val
  · show q < b'.pcur
    rw [k3]; exact h1.lt

/-- An ASCII character is added to a name. -/
theorem Pc.tokaddN {Q : Unit → Lexer → Prop} {c : MB} (h : NmR D k q T c s) (hc : MAsc c) (h10 : c ≠ some 10) (hq : ∀ s', Nm D k q T s' → Q () s') :
    Pc (Lexer.tokaddMB c) Q s := by
  obtain ⟨⟨p, b, h1, h2, h3, h0⟩, h4, h5, h6⟩ := h
  cases c with
  | none => exact Pc.fail
  | some ch =>
    obtain ⟨k1, k2⟩ := (h2.isSome ch rfl).byte (fun e => h10 (by rw [e]))
    have hb : s.buffer.d.bytes = D := by
      rw [h3, ← h1.bytes]; simp only [Buffer.d, h2.loc.1.same.input]
    have hpc : s.buffer.pcur = p.buffer.pcur + 1 := by rw [h3]; exact k1
    have hsl : slice D q (p.buffer.pcur + 1) = slice D q p.buffer.pcur ++ [ch] :=
      slice_push (Nat.le_of_lt h1.lt) (by rw [← h1.bytes]; exact k2)
    refine Pc.modS (hq _ ⟨⟨hb, h4, h5, h6, ?_⟩, ?_, ?_, ?_, ?_⟩)
    · show s.buffer.ptok = k
      rw [h3, show b.buffer.ptok = p.buffer.ptok by rw [h2.eqB]]; exact h1.tok
    · show Mid s.buffer
      rw [h3]; exact h2.mid h10
    · show s.tokenbuf ++ [ch] = T ++ slice D q s.buffer.pcur
      rw [hpc, hsl, h0, h1.txt, List.append_assoc]
    · show Utf8.valid (slice D q s.buffer.pcur) = true
      rw [hpc, hsl]
      exact Utf8.valid_append h1.val (AsciiB.single (hc ch rfl)).valid
    · show q < s.buffer.pcur
      rw [hpc]; have := h1.lt; omega

theorem identSuffix_pc {c : MB} (h : NmR D k q T c s) :
    Pc (Lexer.identSuffix c) (fun t s' => (t = .tFID ∨ t = .tIDENTIFIER ∨ t = .tCONSTANT) ∧ Nm D k q T s') s := by
  unfold Lexer.identSuffix
  have add : ∀ {s}, NmR D k q T c s → ∀ t : Tok, (t = .tFID ∨ t = .tIDENTIFIER ∨ t = .tCONSTANT) → MAsc c → c ≠ some 10 →
      Pc (do { Lexer.tokaddMB c; return t }) (fun t s' => (t = .tFID ∨ t = .tIDENTIFIER ∨ t = .tCONSTANT) ∧ Nm D k q T s') s :=
    fun h t ht h1 h2 => Pc.bind (Pc.tokaddN h h1 h2 fun s' k => Pc.pure ⟨ht, k⟩)
  have second : ∀ {s}, NmR D k q T c s → Pc (do
      let setter ← if isC c '=' && (← Lexer.getState).isSome EXPR_FNAME then Lexer.setterSuffix else pure false
      if setter then
        Lexer.tokaddMB c
        return Tok.tIDENTIFIER
      else
        Lexer.pushback c
        return .tCONSTANT) (fun t s' => (t = .tFID ∨ t = .tIDENTIFIER ∨ t = .tCONSTANT) ∧ Nm D k q T s') s := by
    intro s h
    refine Pc.bind (Pc.nuNR h Nu.getState Tn.getState fun st s1 h1 => ?_)
    have back : ∀ {s}, NmR D k q T c s → Pc (do { Lexer.pushback c; return Tok.tCONSTANT })
        (fun t s' => (t = .tFID ∨ t = .tIDENTIFIER ∨ t = .tCONSTANT) ∧ Nm D k q T s') s :=
      fun h => Pc.bind (Pc.pushbackN h fun s' k => Pc.pure ⟨.inr (.inr rfl), k⟩)
    refine Pc.ite (fun hc => ?_) fun _ => ?_
    · have hc : isC c '=' = true := by simp only [Bool.and_eq_true] at hc; exact hc.1
      refine Pc.bind (Pc.nuNR h1 Nu.setterSuffix (by unfold Lexer.setterSuffix; repeat' tn1) fun r s2 h2 => Pc.ite (fun _ => ?_) fun _ => back h2)
      exact add h2 _ (.inr (.inl rfl)) (MAsc.isC hc (by decide)) (isC_ne10 hc (by decide))
    · exact Pc.bind (Pc.pure (back h1))
  refine Pc.ite (fun hc => ?_) fun _ => ?_
  · refine Pc.bind (Pc.map (Pc.nuNR h Nu.peek Tn.peek fun r s1 h1 => Pc.ite (fun _ => ?_) fun _ => second h1))
    have : MAsc c ∧ c ≠ some 10 := by
      rcases or_of hc with hc | hc <;> exact ⟨MAsc.isC hc (by decide), isC_ne10 hc (by decide)⟩
    exact add h1 _ (.inl rfl) this.1 this.2
  · exact Pc.bind (Pc.pure (second h))

/-- The end of `parse_ident`: `T` is what the token buffer held before. -/
def IdP (D T : Bytes) (k : Nat) (t : Tok) (s : Lexer) : Prop :=
  t = .END_OF_INPUT ∨
  (t = .tLABEL ∧ ∃ e, k < e ∧ Utf8.valid (slice D k e) = true ∧ s.lval = some (T ++ slice D k e) ∧ s.lvalEnd = none ∧ tBegin s < s.buffer.pcur) ∨
  (notName t = true ∧ Utf8.valid (Val s) = true) ∨
  ((t = .tFID ∨ t = .tIDENTIFIER ∨ t = .tCONSTANT) ∧ ∃ v, s.lval = some v ∧ v ≠ [] ∧ Utf8.valid v = true)

theorem Nm.value (h : Nm D k k T s) : Utf8.valid (Val s) = true := by
  unfold Val
  cases hv : s.lval with
  | some v => exact (h.lv v hv).2.valid
  | none =>
    simp only [Option.getD_none, tBegin, tEnd, h.ls, h.le, h.bytes, h.tok]
    exact h.val

theorem kw_fine : ∀ w ∈ reservedWordsList, AsciiB w.name ∧ notName w.id = true ∧ notName w.modifierId = true := by
  unfold AsciiB; decide +kernel

theorem identKeyword_pc {kw : ReservedWord} (hk : kw ∈ reservedWordsList) (ht : kw.name = s.tokenbuf) (h : Nm D k k T s) :
    Pc (Lexer.identKeyword kw) (IdP D T k) s := by
  obtain ⟨k1, k2, k3⟩ := kw_fine kw hk
  unfold Lexer.identKeyword
  have fin : ∀ {t : Tok} {s : Lexer}, notName t = true → Nm D k k T s → Pc (pure t) (IdP D T k) s :=
    fun ht h => Pc.pure (.inr (.inr (.inl ⟨ht, h.value⟩)))
  refine Pc.bind (Pc.getS (Pc.ite (fun _ => ?_) fun _ => ?_))
  · refine Pc.bind (Pc.modS (Pc.bind (Pc.modS (Pc.pure (.inr (.inr (.inl ⟨k2, ?_⟩)))))))
    show Utf8.valid s.tokenbuf = true
    rw [← ht]; exact k1.valid
  · refine Pc.bind (Pc.nuN h Nu.setState Tn.setState fun _ s1 h1 => Pc.bind (Pc.nuN h1 (by nu1; done) (by tn1; done) fun _ s2 h2 => ?_))
    refine Pc.ite (fun _ => ?_) fun _ => Pc.ite (fun _ => fin k2 h2) fun _ => ?_
    · refine Pc.bind (Pc.nuN h2 Nu.isLambdaBeginning Tn.isLambdaBeginning fun _ s3 h3 => Pc.ite (fun _ => ?_) fun _ => ?_)
      · exact Pc.bind (Pc.nuN h3 (by nu1; done) (by tn1; done) fun _ s4 h4 => fin rfl h4)
      · refine Pc.bind (Pc.nuN h3 (by nu1; done) (by tn1; done) fun _ s4 h4 => Pc.ite (fun _ => fin rfl h4) fun _ => ?_)
        exact Pc.bind (Pc.nuN h4 (by nu1; done) (by tn1; done) fun _ s4 h4 => Pc.ite (fun _ => fin rfl h4) fun _ => fin rfl h4)
    · refine Pc.ite (fun _ => Pc.bind (Pc.nuN h2 Nu.setState Tn.setState fun _ s4 h4 => fin k3 h4)) fun _ => ?_
      exact fin k3 h2

theorem identName_pc {x : Ext} {l : LexState} {t : Tok} {b : Bool} (ht : t = .tFID ∨ t = .tIDENTIFIER ∨ t = .tCONSTANT) (h : Nm D k q T s) :
    Pc (Lexer.identName x l t b) (IdP D T k) s := by
  unfold Lexer.identName
  have hne : s.tokenbuf ≠ [] := by
    rw [h.txt]
    intro e
    have hs := (List.append_eq_nil_iff.1 e).2
    unfold slice at hs
    have h1 := h.lt
    have h2 := h.mid.toGood.hi
    have h3 := h.mid.toGood.pend_le
    rw [h.bytes] at h3
    rw [List.take_eq_nil_iff] at hs
    rcases hs with hs | hs
    · omega
    · rw [List.drop_eq_nil_iff] at hs; omega
  have rest : ∀ {s : Lexer}, s.tokenbuf ≠ [] → Pc (do
      Lexer.setYylvalName
      let ident ← Lexer.getS (·.tokenbuf)
      if !Utf8.valid ident then
        Lexer.yyerror0 .InvalidMultibyteChar
        return .END_OF_INPUT
      else
        let result := if t = .tCONSTANT ∧ isVarName x ident then Tok.tIDENTIFIER else t
        if !l.isSome (EXPR_DOT ||| EXPR_FNAME) && result == .tIDENTIFIER && (← Lexer.isLvarDefined ident) then
          Lexer.setState (EXPR_END ||| EXPR_LABEL)
          return result
        else return result) (IdP D T k) s := by
    intro s hne
    refine Pc.bind (Pc.modS (Pc.bind (Pc.getS (Pc.ite (fun _ => ?_) fun hv => ?_))))
    · exact Pc.bind (Pc.nu Nu.yyerror0 fun _ s1 _ => Pc.pure (.inl rfl))
    have hv : Utf8.valid s.tokenbuf = true := by simpa using hv
    have hr : ∀ p : Prop, [Decidable p] → (if t = .tCONSTANT ∧ p then Tok.tIDENTIFIER else t) = .tFID ∨
        (if t = .tCONSTANT ∧ p then Tok.tIDENTIFIER else t) = .tIDENTIFIER ∨ (if t = .tCONSTANT ∧ p then Tok.tIDENTIFIER else t) = .tCONSTANT := by
      intro p _; split
      · exact .inr (.inl rfl)
      · exact ht
    refine Pc.bind (Pc.getS (Pc.ite (fun _ => ?_) fun _ => ?_))
    · exact Pc.bind (Pc.modS (Pc.pure (.inr (.inr (.inr ⟨hr _, _, rfl, hne, hv⟩)))))
    · exact Pc.pure (.inr (.inr (.inr ⟨hr _, _, rfl, hne, hv⟩)))
  refine Pc.bind (Pc.getS (Pc.ite (fun _ => ?_) fun _ => Pc.ite (fun _ => ?_) fun _ => ?_)) <;>
    exact Pc.bind (Pc.modS (rest hne))

theorem parseIdent_pc {x : Ext} {b : Bool} (h : NmC D k k T ch s) : Pc (Lexer.parseIdent x (some ch) b) (IdP D T k) s := by
  unfold Lexer.parseIdent
  refine Pc.bind (Pc.getS (Pc.bind (Pc.fuel fun n => Pc.bind (Pc.mono (identLoop_pc h) fun r s1 h1 => ?_))))
  cases r with
  | none => exact Pc.pure (.inl rfl)
  | some c =>
    dsimp only
    refine Pc.bind (Pc.mono (identSuffix_pc (h1 c rfl).1) fun t s2 h2 => ?_)
    obtain ⟨ht, h2⟩ := h2
    have main : ∀ {b0 : Bool} {l : LexState} {s : Lexer}, Nm D k k T s → Pc (if b0 = true then do
        setState (EXPR_ARG ||| EXPR_LABELED)
        let _ ← Lexer.nextc
        setYylvalName
        Pure.pure .tLABEL
      else do
        let st ← getState
        let kw ← if !st.isSome EXPR_DOT then do
            let tok ← Lexer.getS (·.tokenbuf)
            Lexer.liftB fun _ => reservedWord tok
          else Pure.pure none
        match kw with
        | some kw => identKeyword kw
        | none => identName x l t b) (IdP D T k) s := by
      intro b0 l s h
      refine Pc.ite (fun _ => ?_) fun _ => ?_
      · refine Pc.bind (Pc.nuN h Nu.setState Tn.setState fun _ s3 h3 => Pc.bind (Pc.nextcN h3 fun c s4 h4 => Pc.bind (Pc.modS (Pc.pure ?_))))
        obtain ⟨⟨p, b, h5, h6, h7, h8⟩, h9, h10, h11⟩ := h4
        refine .inr (.inl ⟨rfl, p.buffer.pcur, h5.lt, h5.val, ?_, h10, ?_⟩)
        · show some s4.tokenbuf = _
          rw [h8, h5.txt]
        · show s4.lvalStart.getD s4.buffer.ptok < s4.buffer.pcur
          rw [h9, Option.getD_none, h7, h6.ptokEq, h5.tok]
          exact Nat.lt_of_lt_of_le h5.lt h6.loc.1.pcur
      · refine Pc.bind (Pc.nuN h Nu.getState Tn.getState fun st s3 h3 => Pc.ite (fun _ => ?_) fun _ => Pc.bind (Pc.pure (identName_pc ht h3)))
        refine Pc.bind (Pc.getS (Pc.bind (Pc.liftB fun r hr => ?_)))
        cases r with
        | none => exact identName_pc ht h3
        | some kw =>
          obtain ⟨r, h4, h5⟩ := C18_lookup s3.tokenbuf
          rw [h4] at hr; cases hr
          obtain ⟨h6, h7⟩ := (h5 kw).1 rfl
          exact identKeyword_pc h6 h7 h3
    refine Pc.bind (Pc.nuN h2 Nu.getState Tn.getState fun st s3 h3 => Pc.ite (fun _ => ?_) fun _ => Pc.bind (Pc.pure (main h3)))
    exact Pc.bind (Pc.nuN h3 Nu.isLabelSuffix Tn.isLabelSuffix fun b0 s4 h4 => main h4)
end
end Verif.Lexer
