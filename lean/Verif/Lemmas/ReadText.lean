import Verif.Lemmas.LexNumText
import Verif.Lemmas.LexDispatch
/-! The text of a token: what lies between the start of the token and the cursor, or what was stored as its value. -/
namespace Verif.Lexer
open Spec

/-- ASCII only. -/
def AsciiB (v : Bytes) : Prop := ∀ c ∈ v, c.toNat < 128
/-- A value that was stored is not empty and ASCII. -/
def LvA (s : Lexer) : Prop := ∀ v, s.lval = some v → v ≠ [] ∧ AsciiB v
/-- The value of the token that ends here. -/
def Val (s : Lexer) : Bytes := s.lval.getD (slice s.buffer.d.bytes (tBegin s) (tEnd s))

theorem AsciiB.valid {v : Bytes} (h : AsciiB v) : Utf8.valid v = true := Utf8.valid_ascii v h
theorem AsciiB.nil : AsciiB [] := by simp [AsciiB]
theorem AsciiB.append {v w : Bytes} (h : AsciiB v) (h' : AsciiB w) : AsciiB (v ++ w) := by
  intro c hc
  rcases List.mem_append.1 hc with hc | hc
  · exact h c hc
  · exact h' c hc
theorem AsciiB.single {c : UInt8} (h : c.toNat < 128) : AsciiB [c] := by
  intro x hx; rw [List.mem_singleton.1 hx]; exact h

/-- The bytes from `k` up to `j` are ASCII. -/
def AscFrom (D : Bytes) (k j : Nat) : Prop := ∀ i, k ≤ i → i < j → ∃ c, D[i]? = some c ∧ c.toNat < 128

theorem AscFrom.slice {D : Bytes} {k j : Nat} (h : AscFrom D k j) : AsciiB (slice D k j) := by
  intro c hc
  unfold Spec.slice at hc
  obtain ⟨i, hi, rfl⟩ := List.mem_take_iff_getElem.1 hc
  rw [List.getElem_drop]
  simp only [List.length_drop] at hi
  obtain ⟨c, h1, h2⟩ := h (k + i) (by omega) (by omega)
  rw [List.getElem?_eq_getElem (by omega), Option.some.injEq] at h1
  rw [h1]; exact h2

/-- The end of a token that is all ASCII. -/
structure Fx (D : Bytes) (s : Lexer) : Prop where
  bytes : s.buffer.d.bytes = D
  ls : s.lvalStart = none
  le : s.lvalEnd = none
  lv : LvA s
  asc : AscFrom D s.buffer.ptok s.buffer.pcur

theorem Fx.val {D : Bytes} {s : Lexer} (h : Fx D s) : AsciiB (Val s) := by
  unfold Val
  cases hv : s.lval with
  | some v => exact (h.lv v hv).2
  | none =>
    simp only [Option.getD_none, tBegin, tEnd, h.ls, h.le, h.bytes]
    exact h.asc.slice

/-- Within a token that is all ASCII so far. -/
structure Tx (D : Bytes) (k : Nat) (s : Lexer) : Prop extends Fx D s where
  mid : Mid s.buffer
  tok : s.buffer.ptok = k
  past : k < s.buffer.pcur

/-- The same, and then `c` was read. -/
structure Rx (D : Bytes) (k : Nat) (c : MB) (s : Lexer) : Prop where
  rd : ∃ p b, Tx D k p ∧ Rd p c b ∧ BSame b.buffer s.buffer
  ls : s.lvalStart = none
  le : s.lvalEnd = none
  lv : LvA s
  tok : s.buffer.ptok = k

/-- Neither the buffer nor the value nor the bounds changed. -/
structure Nt (s s' : Lexer) : Prop where
  buf : s'.buffer = s.buffer
  lv : s'.lval = s.lval
  ls : s'.lvalStart = s.lvalStart
  le : s'.lvalEnd = s.lvalEnd

theorem Nt.refl (s : Lexer) : Nt s s := ⟨rfl, rfl, rfl, rfl⟩
theorem Nt.trans {a b c : Lexer} (h : Nt a b) (h' : Nt b c) : Nt a c :=
  ⟨h'.1.trans h.1, h'.2.trans h.2, h'.3.trans h.3, h'.4.trans h.4⟩

theorem LvA.congr {s s' : Lexer} (h : LvA s) (e : s'.lval = s.lval) : LvA s' := by
  intro v hv; rw [e] at hv; exact h v hv
theorem LvA.set {s : Lexer} {v : Bytes} (e : s.lval = some v) (h1 : v ≠ []) (h2 : AsciiB v) : LvA s := by
  intro w hw; rw [e] at hw; cases hw; exact ⟨h1, h2⟩

theorem Fx.nt {D : Bytes} {s s' : Lexer} (h : Fx D s) (hn : Nt s s') : Fx D s' :=
  ⟨by rw [hn.buf]; exact h.bytes, hn.ls.trans h.ls, hn.le.trans h.le, h.lv.congr hn.lv, by rw [hn.buf]; exact h.asc⟩
theorem Tx.nt {D : Bytes} {k : Nat} {s s' : Lexer} (h : Tx D k s) (hn : Nt s s') : Tx D k s' :=
  ⟨h.toFx.nt hn, by rw [hn.buf]; exact h.mid, by rw [hn.buf]; exact h.tok, by rw [hn.buf]; exact h.past⟩
theorem Rx.nt {D : Bytes} {k : Nat} {c : MB} {s s' : Lexer} (h : Rx D k c s) (hn : Nt s s') : Rx D k c s' := by
  obtain ⟨⟨p, b, h1, h2, h3⟩, h4, h5, h6, h7⟩ := h
  exact ⟨⟨p, b, h1, h2, by rw [hn.buf]; exact h3⟩, hn.ls.trans h4, hn.le.trans h5, h6.congr hn.lv, by rw [hn.buf]; exact h7⟩

theorem Tx.set {D : Bytes} {k : Nat} {s : Lexer} {v : Bytes} (h : Tx D k s) (h1 : v ≠ []) (h2 : AsciiB v) :
    Tx D k { s with lval := some v } :=
  ⟨⟨h.bytes, h.ls, h.le, .set rfl h1 h2, h.asc⟩, h.mid, h.tok, h.past⟩
theorem Rx.set {D : Bytes} {k : Nat} {c : MB} {s : Lexer} {v : Bytes} (h : Rx D k c s) (h1 : v ≠ []) (h2 : AsciiB v) :
    Rx D k c { s with lval := some v } := ⟨h.rd, h.ls, h.le, .set rfl h1 h2, h.tok⟩

/-- An ASCII character, or the end. -/
def MAsc (c : MB) : Prop := ∀ ch, c = some ch → ch.toNat < 128

theorem Rx.fx {D : Bytes} {k : Nat} {c : MB} {s : Lexer} (h : Rx D k c s) (hc : MAsc c) : Fx D s := by
  obtain ⟨⟨p, b, h1, h2, h3⟩, h4, h5, h6, h7⟩ := h
  have hd : s.buffer.d.bytes = D := by rw [← h1.bytes]; simp only [Buffer.d, h3.same.input, h2.loc.1.same.input]
  refine ⟨hd, h4, h5, h6, ?_⟩
  rw [h3.pcur, h7, ← h1.tok]
  intro i hi1 hi2
  by_cases hlt : i < p.buffer.pcur
  · exact h1.asc i hi1 hlt
  cases c with
  | none => have := (h2.isNone rfl).2; omega
  | some ch =>
    have hr := h2.isSome ch rfl
    have hb : b.buffer.d.bytes = D := by rw [← hd]; simp only [Buffer.d, h3.same.input]
    by_cases h10 : ch = 10
    · have hlf := hr.lf h10
      have hbk := hr.back
      unfold Buffer.pbPos at hbk
      have hpd : p.buffer.d.bytes = D := h1.bytes
      split at hbk
      · rename_i h7
        by_cases e : i = b.buffer.pcur - 1
        · refine ⟨10, ?_, by decide⟩
          have := hlf.2
          rw [hpd] at this
          rw [e]; exact this
        · refine ⟨13, ?_, by decide⟩
          have := h7.2.2
          rw [hb] at this
          rw [show i = b.buffer.pcur - 1 - 1 by omega]; exact this
      · refine ⟨10, ?_, by decide⟩
        have := hlf.2
        rw [hpd] at this
        rw [show i = b.buffer.pcur - 1 by omega]; exact this
    · obtain ⟨h7, h8⟩ := hr.byte h10
      rw [h1.bytes] at h8
      exact ⟨ch, by rw [show i = p.buffer.pcur by omega]; exact h8, hc ch rfl⟩

theorem Rx.go {D : Bytes} {k : Nat} {c : MB} {s : Lexer} (h : Rx D k c s) (hc : MAsc c) (h10 : c ≠ some 10) : Tx D k s := by
  obtain ⟨⟨p, b, h1, h2, h3⟩, -⟩ := id h
  refine ⟨h.fx hc, h3.mid (h2.mid h10), h.tok, ?_⟩
  rw [h3.pcur]
  exact Nat.lt_of_lt_of_le h1.past h2.loc.1.pcur

theorem nextc_eq {s s' : Lexer} {c : MB} (e : Lexer.nextc s = .ok (c, s')) : ∃ b, s.buffer.nextc = .ok (c, b) ∧ s' = { s with buffer := b } := by
  simp only [Lexer.nextc, Bind.bind, Except.bind, Pure.pure, Except.pure] at e
  cases hf : s.buffer.nextc with
  | error p => rw [hf] at e; simp at e
  | ok r => rw [hf] at e; cases e; exact ⟨_, rfl, rfl⟩
theorem pushback_eq {s s' : Lexer} {c : MB} {u : Unit} (e : Lexer.pushback c s = .ok (u, s')) :
    ∃ b, s.buffer.pushback c = .ok b ∧ s' = { s with buffer := b } := by
  simp only [Lexer.pushback, Bind.bind, Except.bind, Pure.pure, Except.pure] at e
  cases hf : s.buffer.pushback c with
  | error p => rw [hf] at e; simp at e
  | ok r => rw [hf] at e; cases e; exact ⟨_, rfl, rfl⟩
theorem pushbackByte_eq' {s s' : Lexer} {u : Unit} (e : Lexer.pushbackByte s = .ok (u, s')) :
    ∃ b, s.buffer.pushbackByte = .ok b ∧ s' = { s with buffer := b } := by
  simp only [Lexer.pushbackByte, Bind.bind, Except.bind, Pure.pure, Except.pure] at e
  cases hf : s.buffer.pushbackByte with
  | error p => rw [hf] at e; simp at e
  | ok r => rw [hf] at e; cases e; exact ⟨_, rfl, rfl⟩

section
variable {D : Bytes} {k : Nat} {s : Lexer}

theorem Pc.nextcT {Q : MB → Lexer → Prop} (h : Tx D k s) (hq : ∀ c s', Rx D k c s' → Q c s') : Pc Lexer.nextc Q s := by
  intro c s' e
  have h1 := Pc.of_wp (Wp.nextc (Q := fun c s' => Rd s c s') h.mid fun c s' h => h) c s' e
  obtain ⟨b, -, rfl⟩ := nextc_eq e
  exact hq _ _ ⟨⟨s, _, h, h1, .refl _⟩, h.ls, h.le, h.lv, by rw [h1.eqB]; exact h.tok⟩

theorem Pc.pushbackT {Q : Unit → Lexer → Prop} {c : MB} (h : Rx D k c s) (hq : ∀ s', Tx D k s' → Q () s') : Pc (Lexer.pushback c) Q s := by
  intro u s' e
  obtain ⟨⟨p, b, h1, h2, h3⟩, h4, h5, h6, h7⟩ := h
  obtain ⟨b', e1, rfl⟩ := pushback_eq e
  have e2 : Lexer.pushback c { b with buffer := s.buffer } = .ok ((), { b with buffer := b' }) := by
    simp only [Lexer.pushback, e1, Bind.bind, Except.bind, Pure.pure, Except.pure]
  have key := Pc.of_wp (Wp.pushback_gen (Q := fun _ s3 => Loc p s3 ∧ Mid s3.buffer ∧ s3.buffer.pcur = p.buffer.pcur ∧ s3.buffer.ptok = s.buffer.ptok)
    (s2 := { b with buffer := s.buffer }) h2 h3.same h3.pcur (by intro h; show s.buffer.ptok ≤ _; rw [h7, ← h1.tok]; exact h)
    (by intro q h _; show q ≤ s.buffer.ptok; rw [h7, ← h1.tok]; exact h)
    (by intro h; show s.buffer.eofp = true; rw [h3.eofp]; exact h) (.refl _) fun s3 k1 k2 k3 k4 _ _ => ⟨k1, k2, k3, k4⟩) _ _ e2
  obtain ⟨k1, k2, k3, k4⟩ := key
  dsimp only at k2 k3 k4
  refine hq _ ⟨⟨?_, h4, h5, h6, ?_⟩, k2, k4.trans h7, by show k < b'.pcur; rw [k3]; exact h1.past⟩
  · rw [← h1.bytes]; exact congrArg (fun i => i.decoded.bytes) k1.1.same.input
  · show AscFrom D b'.ptok b'.pcur
    rw [k3, k4, h7, ← h1.tok]; exact h1.asc

theorem pushbackByte_le {b b' : Buffer} (e : b.pushbackByte = .ok b') : b'.pcur ≤ b.pcur ∧ b'.ptok = b.ptok ∧ b'.input = b.input := by
  by_cases h0 : 0 < b.pcur
  · rw [pushbackByte_eq _ h0] at e
    cases e
    refine ⟨?_, rfl, rfl⟩
    show b.pbPos ≤ b.pcur
    unfold Buffer.pbPos
    split <;> omega
  · unfold Buffer.pushbackByte at e
    have : b.pcur = 0 := by omega
    simp only [csub, this, Bind.bind, Except.bind] at e
    simp at e

theorem Pc.pushbackByteT {Q : Unit → Lexer → Prop} (h : Tx D k s) (hq : ∀ s', Fx D s' → Q () s') : Pc Lexer.pushbackByte Q s := by
  intro u s' e
  obtain ⟨b', e1, rfl⟩ := pushbackByte_eq' e
  obtain ⟨h1, h2, h3⟩ := pushbackByte_le e1
  refine hq _ ⟨?_, h.ls, h.le, h.lv, ?_⟩
  · rw [← h.bytes]; simp only [Buffer.d, h3]
  · show AscFrom D b'.ptok b'.pcur
    rw [h2]
    exact fun i hi1 hi2 => h.asc i hi1 (by omega)
end

/-! ### Steps that change nothing here -/

/-- `x` changes neither the buffer nor the value nor the bounds. -/
def Nu {α : Type} (x : LexM α) : Prop := ∀ s a s', x s = .ok (a, s') → Nt s s'

section
variable {α β : Type}
theorem Nu.pure (a : α) : Nu (Pure.pure a : LexM α) := by intro s b s' h; cases h; exact .refl _
theorem Nu.bind {x : LexM β} {f : β → LexM α} (h : Nu x) (h' : ∀ b, Nu (f b)) : Nu (x >>= f) := by
  intro s a s' e
  change StateT.bind x f s = _ at e
  simp only [StateT.bind, Bind.bind, Except.bind] at e
  cases hx : x s with
  | error p => rw [hx] at e; simp at e
  | ok r =>
    rw [hx] at e
    obtain ⟨b, s1⟩ := r
    exact (h s b s1 hx).trans (h' b s1 a s' e)
theorem Nu.map {x : LexM β} {f : β → α} (h : Nu x) : Nu (f <$> x) := by
  intro s a s' e
  change StateT.map f x s = _ at e
  simp only [StateT.map, Bind.bind, Except.bind] at e
  cases hx : x s with
  | error p => rw [hx] at e; simp at e
  | ok r =>
    rw [hx] at e
    obtain ⟨b, s1⟩ := r
    cases e
    exact h s b s1 hx
theorem Nu.ite {c : Prop} [Decidable c] {x y : LexM α} (h1 : Nu x) (h2 : Nu y) : Nu (if c then x else y) := by
  split <;> assumption
theorem Nu.fail (p : Panic) : Nu (fail p : LexM α) := by intro s a s' e; simp [Lexer.fail] at e
theorem Nu.getS (f : Lexer → α) : Nu (getS f) := by intro s a s' e; cases e; exact .refl _
theorem Nu.getB (f : Buffer → α) : Nu (getB f) := by intro s a s' e; cases e; exact .refl _
theorem Nu.modS {f : Lexer → Lexer} (h : ∀ s, Nt s (f s)) : Nu (modS f) := by intro s a s' e; cases e; exact h s
theorem Nu.liftB (f : Buffer → Res α) : Nu (liftB f) := by
  intro s a s' e
  simp only [Lexer.liftB, Bind.bind, Except.bind, Pure.pure, Except.pure] at e
  cases hf : f s.buffer with
  | error p => rw [hf] at e; simp at e
  | ok r => rw [hf] at e; cases e; exact .refl _
end

/-- Known functions. -/
syntax "nu_known" : tactic
macro_rules | `(tactic| nu_known) => `(tactic| fail "nu")
/-- One step. -/
macro "nu1" : tactic => `(tactic| first
  | with_reducible exact Nu.pure _
  | with_reducible exact Nu.fail _
  | with_reducible refine Nu.bind ?_ (fun _ => ?_)
  | with_reducible refine Nu.map ?_
  | with_reducible refine Nu.ite ?_ ?_
  | with_reducible exact Nu.getS _
  | with_reducible exact Nu.getB _
  | with_reducible exact Nu.liftB _
  | ((with_reducible refine Nu.modS ?_); intro s; first
      | exact ⟨rfl, rfl, rfl, rfl⟩
      | (split <;> exact ⟨rfl, rfl, rfl, rfl⟩))
  | nu_known
  | split
  | dsimp only
  | fail "nu")

theorem Nu.emit {a b c} : Nu (emit a b c) := by unfold Lexer.emit; repeat' nu1
macro_rules | `(tactic| nu_known) => `(tactic| with_reducible exact Nu.emit)
theorem Nu.fuel : Nu (fuel) := by unfold Lexer.fuel; repeat' nu1
macro_rules | `(tactic| nu_known) => `(tactic| with_reducible exact Nu.fuel)
theorem Nu.charAt {a0} : Nu (charAt a0) := by unfold Lexer.charAt; repeat' nu1
macro_rules | `(tactic| nu_known) => `(tactic| with_reducible exact Nu.charAt)
theorem Nu.pcur : Nu (pcur) := by unfold Lexer.pcur; repeat' nu1
macro_rules | `(tactic| nu_known) => `(tactic| with_reducible exact Nu.pcur)
theorem Nu.pcurSub {a0} : Nu (pcurSub a0) := by unfold Lexer.pcurSub; repeat' nu1
macro_rules | `(tactic| nu_known) => `(tactic| with_reducible exact Nu.pcurSub)
theorem Nu.peek {a0} : Nu (peek a0) := by unfold Lexer.peek; repeat' nu1
macro_rules | `(tactic| nu_known) => `(tactic| with_reducible exact Nu.peek)
theorem Nu.getState : Nu (getState) := by unfold Lexer.getState; repeat' nu1
macro_rules | `(tactic| nu_known) => `(tactic| with_reducible exact Nu.getState)
theorem Nu.setState {a0} : Nu (setState a0) := by unfold Lexer.setState; repeat' nu1
macro_rules | `(tactic| nu_known) => `(tactic| with_reducible exact Nu.setState)
theorem Nu.tokadd {a0} : Nu (tokadd a0) := by unfold Lexer.tokadd; repeat' nu1
macro_rules | `(tactic| nu_known) => `(tactic| with_reducible exact Nu.tokadd)
theorem Nu.tokaddMB {a0} : Nu (tokaddMB a0) := by unfold Lexer.tokaddMB; repeat' nu1
macro_rules | `(tactic| nu_known) => `(tactic| with_reducible exact Nu.tokaddMB)
theorem Nu.warn {a0 a1} : Nu (warn a0 a1) := by unfold Lexer.warn; repeat' nu1
macro_rules | `(tactic| nu_known) => `(tactic| with_reducible exact Nu.warn)
theorem Nu.compileError {a0 a1} : Nu (compileError a0 a1) := by unfold Lexer.compileError; repeat' nu1
macro_rules | `(tactic| nu_known) => `(tactic| with_reducible exact Nu.compileError)
theorem Nu.currentLoc : Nu (currentLoc) := by unfold Lexer.currentLoc; repeat' nu1
macro_rules | `(tactic| nu_known) => `(tactic| with_reducible exact Nu.currentLoc)
theorem Nu.currentLocShort : Nu (currentLocShort) := by unfold Lexer.currentLocShort; repeat' nu1
macro_rules | `(tactic| nu_known) => `(tactic| with_reducible exact Nu.currentLocShort)
theorem Nu.yyerror0 {a0} : Nu (yyerror0 a0) := by unfold Lexer.yyerror0; repeat' nu1
macro_rules | `(tactic| nu_known) => `(tactic| with_reducible exact Nu.yyerror0)
theorem Nu.newStrterm {a0 a1 a2 a3} : Nu (newStrterm a0 a1 a2 a3) := by unfold Lexer.newStrterm; repeat' nu1
macro_rules | `(tactic| nu_known) => `(tactic| with_reducible exact Nu.newStrterm)
theorem Nu.warnBalanced {a0 a1 a2 a3 a4 a5} : Nu (warnBalanced a0 a1 a2 a3 a4 a5) := by unfold Lexer.warnBalanced; repeat' nu1
macro_rules | `(tactic| nu_known) => `(tactic| with_reducible exact Nu.warnBalanced)
theorem Nu.argAmbiguous {a0 a1} : Nu (argAmbiguous a0 a1) := by unfold Lexer.argAmbiguous; repeat' nu1
macro_rules | `(tactic| nu_known) => `(tactic| with_reducible exact Nu.argAmbiguous)
theorem Nu.toklen : Nu (toklen) := by unfold Lexer.toklen; repeat' nu1
macro_rules | `(tactic| nu_known) => `(tactic| with_reducible exact Nu.toklen)
theorem Nu.isLambdaBeginning : Nu (isLambdaBeginning) := by unfold Lexer.isLambdaBeginning; repeat' nu1
macro_rules | `(tactic| nu_known) => `(tactic| with_reducible exact Nu.isLambdaBeginning)
theorem Nu.isIdentchar : Nu (isIdentchar) := by unfold Lexer.isIdentchar; repeat' nu1
macro_rules | `(tactic| nu_known) => `(tactic| with_reducible exact Nu.isIdentchar)
theorem Nu.isAsciiPrev : Nu (isAsciiPrev) := by unfold Lexer.isAsciiPrev; repeat' nu1
macro_rules | `(tactic| nu_known) => `(tactic| with_reducible exact Nu.isAsciiPrev)
theorem Nu.multibyteCharLen {a0} : Nu (multibyteCharLen a0) := by unfold Lexer.multibyteCharLen; repeat' nu1
macro_rules | `(tactic| nu_known) => `(tactic| with_reducible exact Nu.multibyteCharLen)
theorem Nu.tokcopy {a0} : Nu (tokcopy a0) := by unfold Lexer.tokcopy; repeat' nu1
macro_rules | `(tactic| nu_known) => `(tactic| with_reducible exact Nu.tokcopy)
theorem Nu.isLabelSuffix {a0} : Nu (isLabelSuffix a0) := by unfold Lexer.isLabelSuffix; repeat' nu1
macro_rules | `(tactic| nu_known) => `(tactic| with_reducible exact Nu.isLabelSuffix)
theorem Nu.isLvarDefined {a0} : Nu (isLvarDefined a0) := by unfold Lexer.isLvarDefined; repeat' nu1
macro_rules | `(tactic| nu_known) => `(tactic| with_reducible exact Nu.isLvarDefined)
theorem Nu.normalNewline : Nu (normalNewline) := by unfold Lexer.normalNewline; repeat' nu1
macro_rules | `(tactic| nu_known) => `(tactic| with_reducible exact Nu.normalNewline)
theorem Nu.setStateAfterOp {a0} : Nu (setStateAfterOp a0) := by unfold Lexer.setStateAfterOp; repeat' nu1
macro_rules | `(tactic| nu_known) => `(tactic| with_reducible exact Nu.setStateAfterOp)
theorem Nu.spacearg {a0 a1} : Nu (spacearg a0 a1) := by unfold Lexer.spacearg; repeat' nu1
macro_rules | `(tactic| nu_known) => `(tactic| with_reducible exact Nu.spacearg)
theorem Nu.warnSpaceChar {a0 a1} : Nu (warnSpaceChar a0 a1) := by unfold Lexer.warnSpaceChar; repeat' nu1
macro_rules | `(tactic| nu_known) => `(tactic| with_reducible exact Nu.warnSpaceChar)
theorem Nu.setterSuffix : Nu (setterSuffix) := by unfold Lexer.setterSuffix; repeat' nu1
macro_rules | `(tactic| nu_known) => `(tactic| with_reducible exact Nu.setterSuffix)
theorem Nu.qmarkNameLoop : ∀ {n a1}, Nu (qmarkNameLoop n a1) := by
  intro n
  induction n with
  | zero => intro a1; unfold Lexer.qmarkNameLoop; exact Nu.fail _
  | succ n ih => intro a1; unfold Lexer.qmarkNameLoop; repeat' first | with_reducible exact ih | nu1
macro_rules | `(tactic| nu_known) => `(tactic| with_reducible exact Nu.qmarkNameLoop)
theorem Nu.done {a0} : Nu (done a0) := by unfold Lexer.done; repeat' nu1
macro_rules | `(tactic| nu_known) => `(tactic| with_reducible exact Nu.done)
theorem Nu.pushComment {a0} : Nu (pushComment a0) := by unfold Lexer.pushComment; repeat' nu1
macro_rules | `(tactic| nu_known) => `(tactic| with_reducible exact Nu.pushComment)
theorem Nu.lexBacktick {a0} : Nu (lexBacktick a0) := by unfold Lexer.lexBacktick; repeat' nu1
macro_rules | `(tactic| nu_known) => `(tactic| with_reducible exact Nu.lexBacktick)
theorem Nu.unaryHere {a0 a1 a2} : Nu (unaryHere a0 a1 a2) := by unfold Lexer.unaryHere; repeat' nu1
macro_rules | `(tactic| nu_known) => `(tactic| with_reducible exact Nu.unaryHere)
theorem Nu.lexDot3 {a0 a1} : Nu (lexDot3 a0 a1) := by unfold Lexer.lexDot3; repeat' nu1
macro_rules | `(tactic| nu_known) => `(tactic| with_reducible exact Nu.lexDot3)
theorem Nu.lexClose {a0 a1} : Nu (lexClose a0 a1) := by unfold Lexer.lexClose; repeat' nu1
macro_rules | `(tactic| nu_known) => `(tactic| with_reducible exact Nu.lexClose)
theorem Nu.lexRcurly : Nu (lexRcurly) := by unfold Lexer.lexRcurly; repeat' nu1
macro_rules | `(tactic| nu_known) => `(tactic| with_reducible exact Nu.lexRcurly)
theorem Nu.lexSemi : Nu (lexSemi) := by unfold Lexer.lexSemi; repeat' nu1
macro_rules | `(tactic| nu_known) => `(tactic| with_reducible exact Nu.lexSemi)
theorem Nu.lexComma : Nu (lexComma) := by unfold Lexer.lexComma; repeat' nu1
macro_rules | `(tactic| nu_known) => `(tactic| with_reducible exact Nu.lexComma)
theorem Nu.openNest : Nu (openNest) := by unfold Lexer.openNest; repeat' nu1
macro_rules | `(tactic| nu_known) => `(tactic| with_reducible exact Nu.openNest)
theorem Nu.lexLparen {a0} : Nu (lexLparen a0) := by unfold Lexer.lexLparen; repeat' nu1
macro_rules | `(tactic| nu_known) => `(tactic| with_reducible exact Nu.lexLparen)
theorem Nu.lexLcurly : Nu (lexLcurly) := by unfold Lexer.lexLcurly; repeat' nu1
macro_rules | `(tactic| nu_known) => `(tactic| with_reducible exact Nu.lexLcurly)

end Verif.Lexer
