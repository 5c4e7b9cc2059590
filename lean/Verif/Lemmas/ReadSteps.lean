import Verif.Lemmas.ReadOps
/-! Steps that leave the value and the token buffer alone. -/
namespace Verif.Lexer
open Spec

/-- `x` changes neither the value nor the token buffer. -/
def Tn {α : Type} (x : LexM α) : Prop := ∀ s a s', x s = .ok (a, s') → s'.lval = s.lval ∧ s'.tokenbuf = s.tokenbuf

section
variable {α β : Type}
theorem Tn.pure (a : α) : Tn (Pure.pure a : LexM α) := by intro s b s' h; cases h; exact ⟨rfl, rfl⟩
theorem Tn.bind {x : LexM β} {f : β → LexM α} (h : Tn x) (h' : ∀ b, Tn (f b)) : Tn (x >>= f) := by
  intro s a s' e
  change StateT.bind x f s = _ at e
  simp only [StateT.bind, Bind.bind, Except.bind] at e
  cases hx : x s with
  | error p => rw [hx] at e; simp at e
  | ok r =>
    rw [hx] at e
    obtain ⟨b, s1⟩ := r
    have h1 := h s b s1 hx
    have h2 := h' b s1 a s' e
    exact ⟨h2.1.trans h1.1, h2.2.trans h1.2⟩
theorem Tn.map {x : LexM β} {f : β → α} (h : Tn x) : Tn (f <$> x) := by
  intro s a s' e
  change StateT.map f x s = _ at e
  simp only [StateT.map, Bind.bind, Except.bind] at e
  cases hx : x s with
  | error p => rw [hx] at e; simp at e
  | ok r =>
    rw [hx] at e
    obtain ⟨b, s1⟩ := r
    cases e
    exact h s b s1 hx
theorem Tn.ite {c : Prop} [Decidable c] {x y : LexM α} (h1 : Tn x) (h2 : Tn y) : Tn (if c then x else y) := by
  split <;> assumption
theorem Tn.fail (p : Panic) : Tn (fail p : LexM α) := by intro s a s' e; simp [Lexer.fail] at e
theorem Tn.getS (f : Lexer → α) : Tn (getS f) := by intro s a s' e; cases e; exact ⟨rfl, rfl⟩
theorem Tn.getB (f : Buffer → α) : Tn (getB f) := by intro s a s' e; cases e; exact ⟨rfl, rfl⟩
theorem Tn.modS {f : Lexer → Lexer} (h : ∀ s, (f s).lval = s.lval ∧ (f s).tokenbuf = s.tokenbuf) : Tn (modS f) := by
  intro s a s' e; cases e; exact h s
theorem Tn.modB (f : Buffer → Buffer) : Tn (modB f) := by intro s a s' e; cases e; exact ⟨rfl, rfl⟩
theorem Tn.liftB (f : Buffer → Res α) : Tn (liftB f) := by
  intro s a s' e
  simp only [Lexer.liftB, Bind.bind, Except.bind, Pure.pure, Except.pure] at e
  cases hf : f s.buffer with
  | error p => rw [hf] at e; simp at e
  | ok r => rw [hf] at e; cases e; exact ⟨rfl, rfl⟩
theorem Tn.nextc : Tn nextc := by
  intro s a s' e; obtain ⟨b, -, rfl⟩ := nextc_eq e; exact ⟨rfl, rfl⟩
theorem Tn.pushback {c} : Tn (pushback c) := by
  intro s a s' e; obtain ⟨b, -, rfl⟩ := pushback_eq e; exact ⟨rfl, rfl⟩
theorem Tn.pushbackByte : Tn pushbackByte := by
  intro s a s' e; obtain ⟨b, -, rfl⟩ := pushbackByte_eq' e; exact ⟨rfl, rfl⟩
theorem Tn.liftBuf (f : Buffer → Res Buffer) : Tn (newlineLoop.liftBuf f) := by
  intro s a s' e
  simp only [newlineLoop.liftBuf, Bind.bind, Except.bind, Pure.pure, Except.pure] at e
  cases hf : f s.buffer with
  | error p => rw [hf] at e; simp at e
  | ok r => rw [hf] at e; cases e; exact ⟨rfl, rfl⟩
end

/-- Known functions. -/
syntax "tn_known" : tactic
macro_rules | `(tactic| tn_known) => `(tactic| fail "tn")
/-- One step. -/
macro "tn1" : tactic => `(tactic| first
  | with_reducible exact Tn.pure _
  | with_reducible exact Tn.fail _
  | with_reducible refine Tn.bind ?_ (fun _ => ?_)
  | with_reducible refine Tn.map ?_
  | with_reducible refine Tn.ite ?_ ?_
  | with_reducible exact Tn.getS _
  | with_reducible exact Tn.getB _
  | with_reducible exact Tn.modB _
  | with_reducible exact Tn.liftB _
  | with_reducible exact Tn.liftBuf _
  | with_reducible exact Tn.nextc
  | with_reducible exact Tn.pushback
  | with_reducible exact Tn.pushbackByte
  | ((with_reducible refine Tn.modS ?_); intro s; first
      | exact ⟨rfl, rfl⟩
      | (split <;> exact ⟨rfl, rfl⟩))
  | tn_known
  | split
  | dsimp only
  | fail "tn")
theorem Tn.emit {a0 a1 a2} : Tn (emit a0 a1 a2) := by unfold Lexer.emit; repeat' tn1
macro_rules | `(tactic| tn_known) => `(tactic| with_reducible exact Tn.emit)
theorem Tn.fuel : Tn (fuel) := by unfold Lexer.fuel; repeat' tn1
macro_rules | `(tactic| tn_known) => `(tactic| with_reducible exact Tn.fuel)
theorem Tn.charAt {a0} : Tn (charAt a0) := by unfold Lexer.charAt; repeat' tn1
macro_rules | `(tactic| tn_known) => `(tactic| with_reducible exact Tn.charAt)
theorem Tn.pcur : Tn (pcur) := by unfold Lexer.pcur; repeat' tn1
macro_rules | `(tactic| tn_known) => `(tactic| with_reducible exact Tn.pcur)
theorem Tn.pcurSub {a0} : Tn (pcurSub a0) := by unfold Lexer.pcurSub; repeat' tn1
macro_rules | `(tactic| tn_known) => `(tactic| with_reducible exact Tn.pcurSub)
theorem Tn.peek {a0} : Tn (peek a0) := by unfold Lexer.peek; repeat' tn1
macro_rules | `(tactic| tn_known) => `(tactic| with_reducible exact Tn.peek)
theorem Tn.getState : Tn (getState) := by unfold Lexer.getState; repeat' tn1
macro_rules | `(tactic| tn_known) => `(tactic| with_reducible exact Tn.getState)
theorem Tn.setState {a0} : Tn (setState a0) := by unfold Lexer.setState; repeat' tn1
macro_rules | `(tactic| tn_known) => `(tactic| with_reducible exact Tn.setState)
theorem Tn.setPtok {a0} : Tn (setPtok a0) := by unfold Lexer.setPtok; repeat' tn1
macro_rules | `(tactic| tn_known) => `(tactic| with_reducible exact Tn.setPtok)
theorem Tn.tokenFlush : Tn (tokenFlush) := by unfold Lexer.tokenFlush; repeat' tn1
macro_rules | `(tactic| tn_known) => `(tactic| with_reducible exact Tn.tokenFlush)
theorem Tn.gotoEol : Tn (gotoEol) := by unfold Lexer.gotoEol; repeat' tn1
macro_rules | `(tactic| tn_known) => `(tactic| with_reducible exact Tn.gotoEol)
theorem Tn.warn {a0 a1} : Tn (warn a0 a1) := by unfold Lexer.warn; repeat' tn1
macro_rules | `(tactic| tn_known) => `(tactic| with_reducible exact Tn.warn)
theorem Tn.compileError {a0 a1} : Tn (compileError a0 a1) := by unfold Lexer.compileError; repeat' tn1
macro_rules | `(tactic| tn_known) => `(tactic| with_reducible exact Tn.compileError)
theorem Tn.currentLoc : Tn (currentLoc) := by unfold Lexer.currentLoc; repeat' tn1
macro_rules | `(tactic| tn_known) => `(tactic| with_reducible exact Tn.currentLoc)
theorem Tn.currentLocShort : Tn (currentLocShort) := by unfold Lexer.currentLocShort; repeat' tn1
macro_rules | `(tactic| tn_known) => `(tactic| with_reducible exact Tn.currentLocShort)
theorem Tn.yyerror0 {a0} : Tn (yyerror0 a0) := by unfold Lexer.yyerror0; repeat' tn1
macro_rules | `(tactic| tn_known) => `(tactic| with_reducible exact Tn.yyerror0)
theorem Tn.newStrterm {a0 a1 a2 a3} : Tn (newStrterm a0 a1 a2 a3) := by unfold Lexer.newStrterm; repeat' tn1
macro_rules | `(tactic| tn_known) => `(tactic| with_reducible exact Tn.newStrterm)
theorem Tn.argAmbiguous {a0 a1} : Tn (argAmbiguous a0 a1) := by unfold Lexer.argAmbiguous; repeat' tn1
macro_rules | `(tactic| tn_known) => `(tactic| with_reducible exact Tn.argAmbiguous)
theorem Tn.toklen : Tn (toklen) := by unfold Lexer.toklen; repeat' tn1
macro_rules | `(tactic| tn_known) => `(tactic| with_reducible exact Tn.toklen)
theorem Tn.isIdentchar : Tn (isIdentchar) := by unfold Lexer.isIdentchar; repeat' tn1
macro_rules | `(tactic| tn_known) => `(tactic| with_reducible exact Tn.isIdentchar)
theorem Tn.isLambdaBeginning : Tn (isLambdaBeginning) := by unfold Lexer.isLambdaBeginning; repeat' tn1
macro_rules | `(tactic| tn_known) => `(tactic| with_reducible exact Tn.isLambdaBeginning)
theorem Tn.isAsciiPrev : Tn (isAsciiPrev) := by unfold Lexer.isAsciiPrev; repeat' tn1
macro_rules | `(tactic| tn_known) => `(tactic| with_reducible exact Tn.isAsciiPrev)
theorem Tn.multibyteCharLen {a0} : Tn (multibyteCharLen a0) := by unfold Lexer.multibyteCharLen; repeat' tn1
macro_rules | `(tactic| tn_known) => `(tactic| with_reducible exact Tn.multibyteCharLen)
theorem Tn.isLvarDefined {a0} : Tn (isLvarDefined a0) := by unfold Lexer.isLvarDefined; repeat' tn1
macro_rules | `(tactic| tn_known) => `(tactic| with_reducible exact Tn.isLvarDefined)
theorem Tn.isLabelSuffix {a0} : Tn (isLabelSuffix a0) := by unfold Lexer.isLabelSuffix; repeat' tn1
macro_rules | `(tactic| tn_known) => `(tactic| with_reducible exact Tn.isLabelSuffix)
theorem Tn.normalNewline : Tn (normalNewline) := by unfold Lexer.normalNewline; repeat' tn1
macro_rules | `(tactic| tn_known) => `(tactic| with_reducible exact Tn.normalNewline)
theorem Tn.setStateAfterOp {a0} : Tn (setStateAfterOp a0) := by unfold Lexer.setStateAfterOp; repeat' tn1
macro_rules | `(tactic| tn_known) => `(tactic| with_reducible exact Tn.setStateAfterOp)
theorem Tn.spacearg {a0 a1} : Tn (spacearg a0 a1) := by unfold Lexer.spacearg; repeat' tn1
macro_rules | `(tactic| tn_known) => `(tactic| with_reducible exact Tn.spacearg)
theorem Tn.warnSpaceChar {a0 a1} : Tn (warnSpaceChar a0 a1) := by unfold Lexer.warnSpaceChar; repeat' tn1
macro_rules | `(tactic| tn_known) => `(tactic| with_reducible exact Tn.warnSpaceChar)
theorem Tn.pushComment {a0} : Tn (pushComment a0) := by unfold Lexer.pushComment; repeat' tn1
macro_rules | `(tactic| tn_known) => `(tactic| with_reducible exact Tn.pushComment)
theorem Tn.done {a0} : Tn (done a0) := by unfold Lexer.done; repeat' tn1
macro_rules | `(tactic| tn_known) => `(tactic| with_reducible exact Tn.done)
theorem Tn.trailingUc {a0} : Tn (trailingUc a0) := by unfold Lexer.trailingUc; repeat' tn1
macro_rules | `(tactic| tn_known) => `(tactic| with_reducible exact Tn.trailingUc)
theorem Tn.invalidOctal : Tn (invalidOctal) := by unfold Lexer.invalidOctal; repeat' tn1
macro_rules | `(tactic| tn_known) => `(tactic| with_reducible exact Tn.invalidOctal)
theorem Tn.suffixLoop {p} : ∀ {n m r}, Tn (suffixLoop p n m r) := by
  intro n
  induction n with
  | zero => intro m r; unfold Lexer.suffixLoop; exact Tn.fail _
  | succ n ih => intro m r; unfold Lexer.suffixLoop; repeat' first | with_reducible exact ih | tn1
macro_rules | `(tactic| tn_known) => `(tactic| with_reducible exact Tn.suffixLoop)
theorem Tn.numberLiteralSuffix {a0} : Tn (numberLiteralSuffix a0) := by unfold Lexer.numberLiteralSuffix; repeat' tn1
macro_rules | `(tactic| tn_known) => `(tactic| with_reducible exact Tn.numberLiteralSuffix)
theorem Tn.newlineLoop : ∀ {n b}, Tn (newlineLoop n b) := by
  intro n
  induction n with
  | zero => intro b; unfold Lexer.newlineLoop; exact Tn.fail _
  | succ n ih => intro b; unfold Lexer.newlineLoop; repeat' first | with_reducible exact ih | tn1
macro_rules | `(tactic| tn_known) => `(tactic| with_reducible exact Tn.newlineLoop)
theorem Tn.lexNewline {a0 a1} : Tn (lexNewline a0 a1) := by unfold Lexer.lexNewline; repeat' tn1
macro_rules | `(tactic| tn_known) => `(tactic| with_reducible exact Tn.lexNewline)
theorem Tn.mcRecord {x a b c} : ∀ {l}, Tn (mcRecord x a b c l) := by
  intro l
  induction l with
  | nil => unfold Lexer.mcRecord; exact Tn.pure _
  | cons p l ih => unfold Lexer.mcRecord; repeat' first | with_reducible exact ih | tn1
macro_rules | `(tactic| tn_known) => `(tactic| with_reducible exact Tn.mcRecord)
theorem Tn.mcLoop {x i} : ∀ {n p l}, Tn (mcLoop x i n p l) := by
  intro n
  induction n with
  | zero => intro p l; unfold Lexer.mcLoop; exact Tn.fail _
  | succ n ih => intro p l; unfold Lexer.mcLoop; repeat' first | with_reducible exact ih | tn1
macro_rules | `(tactic| tn_known) => `(tactic| with_reducible exact Tn.mcLoop)
theorem Tn.magicComment {a0 a1 a2} : Tn (magicComment a0 a1 a2) := by unfold Lexer.magicComment; repeat' tn1
macro_rules | `(tactic| tn_known) => `(tactic| with_reducible exact Tn.magicComment)
theorem Tn.lexComment {a0 a1 a2} : Tn (lexComment a0 a1 a2) := by unfold Lexer.lexComment; repeat' tn1
macro_rules | `(tactic| tn_known) => `(tactic| with_reducible exact Tn.lexComment)
theorem Tn.embdocLoop {l} : ∀ {n}, Tn (embdocLoop l n) := by
  intro n
  induction n with
  | zero => unfold Lexer.embdocLoop; exact Tn.fail _
  | succ n ih => unfold Lexer.embdocLoop; repeat' first | with_reducible exact ih | tn1
macro_rules | `(tactic| tn_known) => `(tactic| with_reducible exact Tn.embdocLoop)
theorem Tn.lexCr : Tn (lexCr) := by unfold Lexer.lexCr; repeat' tn1
macro_rules | `(tactic| tn_known) => `(tactic| with_reducible exact Tn.lexCr)
theorem Tn.hereQuoteLoop {t} : ∀ {n}, Tn (hereQuoteLoop t n) := by
  intro n
  induction n with
  | zero => unfold Lexer.hereQuoteLoop; exact Tn.fail _
  | succ n ih => unfold Lexer.hereQuoteLoop; repeat' first | with_reducible exact ih | tn1
macro_rules | `(tactic| tn_known) => `(tactic| with_reducible exact Tn.hereQuoteLoop)
theorem Tn.hereIdLoop : ∀ {n}, Tn (hereIdLoop n) := by
  intro n
  induction n with
  | zero => unfold Lexer.hereIdLoop; exact Tn.fail _
  | succ n ih => unfold Lexer.hereIdLoop; repeat' first | with_reducible exact ih | tn1
macro_rules | `(tactic| tn_known) => `(tactic| with_reducible exact Tn.hereIdLoop)
end Verif.Lexer
