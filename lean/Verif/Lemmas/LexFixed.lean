import Verif.Model.Lexer.Main
/-! The lexer alone declares no variables and does not change the context. -/
namespace Verif.Lexer
section
variable {α β : Type}

/-- The declared variables and the context are the same. -/
structure Fixed (s s' : Lexer) : Prop where
  staticEnv : s'.staticEnv = s.staticEnv
  context : s'.context = s.context

theorem Fixed.refl (s : Lexer) : Fixed s s := ⟨rfl, rfl⟩
theorem Fixed.trans {a b c : Lexer} (h : Fixed a b) (h' : Fixed b c) : Fixed a c := ⟨h'.1.trans h.1, h'.2.trans h.2⟩

/-- `x` leaves them alone. -/
def Fix (x : LexM α) : Prop := ∀ s a s', x s = .ok (a, s') → Fixed s s'

theorem Fix.pure (a : α) : Fix (Pure.pure a : LexM α) := by
  intro s b s' h
  cases h; exact .refl _
theorem Fix.bind {x : LexM β} {f : β → LexM α} (h : Fix x) (h' : ∀ b, Fix (f b)) : Fix (x >>= f) := by
  intro s a s' e
  change StateT.bind x f s = _ at e
  simp only [StateT.bind, Bind.bind, Except.bind] at e
  cases hx : x s with
  | error p => rw [hx] at e; simp at e
  | ok r =>
    rw [hx] at e
    obtain ⟨b, s1⟩ := r
    exact (h s b s1 hx).trans (h' b s1 a s' e)
theorem Fix.map {x : LexM β} {f : β → α} (h : Fix x) : Fix (f <$> x) := by
  intro s a s' e
  change StateT.map f x s = _ at e
  simp only [StateT.map, Bind.bind, Except.bind] at e
  cases hx : x s with
  | error p => rw [hx] at e; simp at e
  | ok r =>
    rw [hx] at e
    obtain ⟨b, s1⟩ := r
    cases e
    exact h s b s1 hx
theorem Fix.ite {c : Prop} [Decidable c] {x y : LexM α} (h1 : Fix x) (h2 : Fix y) : Fix (if c then x else y) := by
  split <;> assumption
theorem Fix.fail (p : Panic) : Fix (fail p : LexM α) := by intro s a s' e; simp [Lexer.fail] at e
theorem Fix.getS (f : Lexer → α) : Fix (getS f) := by intro s a s' e; cases e; exact .refl _
theorem Fix.getB (f : Buffer → α) : Fix (getB f) := by intro s a s' e; cases e; exact .refl _
theorem Fix.modB (f : Buffer → Buffer) : Fix (modB f) := by
  intro s a s' e; cases e; exact ⟨rfl, rfl⟩
theorem Fix.modS {f : Lexer → Lexer} (h : ∀ s, Fixed s (f s)) : Fix (modS f) := by intro s a s' e; cases e; exact h s
theorem Fix.liftB (f : Buffer → Res α) : Fix (liftB f) := by
  intro s a s' e
  simp only [Lexer.liftB, Bind.bind, Except.bind, Pure.pure, Except.pure] at e
  cases hf : f s.buffer with
  | error p => rw [hf] at e; simp at e
  | ok r => rw [hf] at e; cases e; exact .refl _
end

theorem Fix.buf {α : Type} {f : Buffer → Res (α × Buffer)} {x : LexM α} (hx : ∀ s, x s = (do let r ← f s.buffer; return (r.1, { s with buffer := r.2 }))) :
    Fix x := by
  intro s a s' e
  rw [hx] at e
  simp only [Bind.bind, Except.bind, Pure.pure, Except.pure] at e
  cases hf : f s.buffer with
  | error p => rw [hf] at e; simp at e
  | ok r => rw [hf] at e; cases e; exact ⟨rfl, rfl⟩
theorem Fix.buf' {f : Buffer → Res Buffer} {x : LexM Unit} (hx : ∀ s, x s = (do let r ← f s.buffer; return ((), { s with buffer := r }))) :
    Fix x := by
  intro s a s' e
  rw [hx] at e
  simp only [Bind.bind, Except.bind, Pure.pure, Except.pure] at e
  cases hf : f s.buffer with
  | error p => rw [hf] at e; simp at e
  | ok r => rw [hf] at e; cases e; exact ⟨rfl, rfl⟩
theorem Fix.nextc : Fix nextc := Fix.buf (f := (·.nextc)) fun _ => rfl
theorem Fix.pushback (c) : Fix (pushback c) := Fix.buf' (f := (·.pushback c)) fun _ => rfl
theorem Fix.pushbackByte : Fix pushbackByte := Fix.buf' (f := (·.pushbackByte)) fun _ => rfl
theorem Fix.emit {a b c} : Fix (emit a b c) := by
  intro s r s' e; cases e; exact ⟨rfl, rfl⟩

/-- Known functions. -/
syntax "fix_known" : tactic
macro_rules | `(tactic| fix_known) => `(tactic| with_reducible exact Fix.emit)

/-- One step. -/
macro "fix1" : tactic => `(tactic| first
  | with_reducible exact Fix.pure _
  | with_reducible exact Fix.fail _
  | with_reducible refine Fix.bind ?_ (fun _ => ?_)
  | with_reducible refine Fix.map ?_
  | with_reducible refine Fix.ite ?_ ?_
  | with_reducible exact Fix.getS _
  | with_reducible exact Fix.getB _
  | with_reducible exact Fix.modB _
  | with_reducible exact Fix.liftB _
  | with_reducible exact Fix.nextc
  | with_reducible exact Fix.pushback _
  | with_reducible exact Fix.pushbackByte
  | ((with_reducible refine Fix.modS ?_); intro s; first
      | exact ⟨rfl, rfl⟩
      | (split <;> exact ⟨rfl, rfl⟩))
  | with_reducible assumption
  | fix_known
  | split
  | dsimp only
  | fail "fix")

theorem Fix.fuel : Fix (fuel) := by unfold Lexer.fuel; repeat' fix1
macro_rules | `(tactic| fix_known) => `(tactic| with_reducible exact Fix.fuel)
theorem Fix.charAt {a0} : Fix (charAt a0) := by unfold Lexer.charAt; repeat' fix1
macro_rules | `(tactic| fix_known) => `(tactic| with_reducible exact Fix.charAt)
theorem Fix.pcur : Fix (pcur) := by unfold Lexer.pcur; repeat' fix1
macro_rules | `(tactic| fix_known) => `(tactic| with_reducible exact Fix.pcur)
theorem Fix.pcurSub {a0} : Fix (pcurSub a0) := by unfold Lexer.pcurSub; repeat' fix1
macro_rules | `(tactic| fix_known) => `(tactic| with_reducible exact Fix.pcurSub)
theorem Fix.peek {a0} : Fix (peek a0) := by unfold Lexer.peek; repeat' fix1
macro_rules | `(tactic| fix_known) => `(tactic| with_reducible exact Fix.peek)
theorem Fix.tokenFlush : Fix (tokenFlush) := by unfold Lexer.tokenFlush; repeat' fix1
macro_rules | `(tactic| fix_known) => `(tactic| with_reducible exact Fix.tokenFlush)
theorem Fix.setPtok {a0} : Fix (setPtok a0) := by unfold Lexer.setPtok; repeat' fix1
macro_rules | `(tactic| fix_known) => `(tactic| with_reducible exact Fix.setPtok)
theorem Fix.gotoEol : Fix (gotoEol) := by unfold Lexer.gotoEol; repeat' fix1
macro_rules | `(tactic| fix_known) => `(tactic| with_reducible exact Fix.gotoEol)
theorem Fix.getState : Fix (getState) := by unfold Lexer.getState; repeat' fix1
macro_rules | `(tactic| fix_known) => `(tactic| with_reducible exact Fix.getState)
theorem Fix.setState {a0} : Fix (setState a0) := by unfold Lexer.setState; repeat' fix1
macro_rules | `(tactic| fix_known) => `(tactic| with_reducible exact Fix.setState)
theorem Fix.setLval {a0} : Fix (setLval a0) := by unfold Lexer.setLval; repeat' fix1
macro_rules | `(tactic| fix_known) => `(tactic| with_reducible exact Fix.setLval)
theorem Fix.setYylvalName : Fix (setYylvalName) := by unfold Lexer.setYylvalName; repeat' fix1
macro_rules | `(tactic| fix_known) => `(tactic| with_reducible exact Fix.setYylvalName)
theorem Fix.tokadd {a0} : Fix (tokadd a0) := by unfold Lexer.tokadd; repeat' fix1
macro_rules | `(tactic| fix_known) => `(tactic| with_reducible exact Fix.tokadd)
theorem Fix.tokaddMB {a0} : Fix (tokaddMB a0) := by unfold Lexer.tokaddMB; repeat' fix1
macro_rules | `(tactic| fix_known) => `(tactic| with_reducible exact Fix.tokaddMB)
theorem Fix.warn {a0 a1} : Fix (warn a0 a1) := by unfold Lexer.warn; repeat' fix1
macro_rules | `(tactic| fix_known) => `(tactic| with_reducible exact Fix.warn)
theorem Fix.compileError {a0 a1} : Fix (compileError a0 a1) := by unfold Lexer.compileError; repeat' fix1
macro_rules | `(tactic| fix_known) => `(tactic| with_reducible exact Fix.compileError)
theorem Fix.currentLoc : Fix (currentLoc) := by unfold Lexer.currentLoc; repeat' fix1
macro_rules | `(tactic| fix_known) => `(tactic| with_reducible exact Fix.currentLoc)
theorem Fix.currentLocShort : Fix (currentLocShort) := by unfold Lexer.currentLocShort; repeat' fix1
macro_rules | `(tactic| fix_known) => `(tactic| with_reducible exact Fix.currentLocShort)
theorem Fix.yyerror0 {a0} : Fix (yyerror0 a0) := by unfold Lexer.yyerror0; repeat' fix1
macro_rules | `(tactic| fix_known) => `(tactic| with_reducible exact Fix.yyerror0)
theorem Fix.newStrterm {a0 a1 a2 a3} : Fix (newStrterm a0 a1 a2 a3) := by unfold Lexer.newStrterm; repeat' fix1
macro_rules | `(tactic| fix_known) => `(tactic| with_reducible exact Fix.newStrterm)
theorem Fix.warnBalanced {a0 a1 a2 a3 a4 a5} : Fix (warnBalanced a0 a1 a2 a3 a4 a5) := by unfold Lexer.warnBalanced; repeat' fix1
macro_rules | `(tactic| fix_known) => `(tactic| with_reducible exact Fix.warnBalanced)
theorem Fix.argAmbiguous {a0 a1} : Fix (argAmbiguous a0 a1) := by unfold Lexer.argAmbiguous; repeat' fix1
macro_rules | `(tactic| fix_known) => `(tactic| with_reducible exact Fix.argAmbiguous)
theorem Fix.toklen : Fix (toklen) := by unfold Lexer.toklen; repeat' fix1
macro_rules | `(tactic| fix_known) => `(tactic| with_reducible exact Fix.toklen)
theorem Fix.isLambdaBeginning : Fix (isLambdaBeginning) := by unfold Lexer.isLambdaBeginning; repeat' fix1
macro_rules | `(tactic| fix_known) => `(tactic| with_reducible exact Fix.isLambdaBeginning)
theorem Fix.newtok : Fix (newtok) := by unfold Lexer.newtok; repeat' fix1
macro_rules | `(tactic| fix_known) => `(tactic| with_reducible exact Fix.newtok)
theorem Fix.takeTok : Fix takeTok := by
  intro s r s' e; cases e; exact ⟨rfl, rfl⟩
macro_rules | `(tactic| fix_known) => `(tactic| with_reducible exact Fix.takeTok)
theorem Fix.isIdentchar : Fix (isIdentchar) := by unfold Lexer.isIdentchar; repeat' fix1
macro_rules | `(tactic| fix_known) => `(tactic| with_reducible exact Fix.isIdentchar)
theorem Fix.isAsciiPrev : Fix (isAsciiPrev) := by unfold Lexer.isAsciiPrev; repeat' fix1
macro_rules | `(tactic| fix_known) => `(tactic| with_reducible exact Fix.isAsciiPrev)
theorem Fix.multibyteCharLen {a0} : Fix (multibyteCharLen a0) := by unfold Lexer.multibyteCharLen; repeat' fix1
macro_rules | `(tactic| fix_known) => `(tactic| with_reducible exact Fix.multibyteCharLen)
theorem Fix.tokcopy {a0} : Fix (tokcopy a0) := by unfold Lexer.tokcopy; repeat' fix1
macro_rules | `(tactic| fix_known) => `(tactic| with_reducible exact Fix.tokcopy)
theorem Fix.tokaddMbchar {a0} : Fix (tokaddMbchar a0) := by unfold Lexer.tokaddMbchar; repeat' fix1
macro_rules | `(tactic| fix_known) => `(tactic| with_reducible exact Fix.tokaddMbchar)
theorem Fix.identLoop : ∀ {n a1}, Fix (identLoop n a1) := by
  intro n
  induction n with
  | zero => intro a1; unfold Lexer.identLoop; exact Fix.fail _
  | succ n ih => intro a1; unfold Lexer.identLoop; repeat' first | with_reducible exact ih | fix1
macro_rules | `(tactic| fix_known) => `(tactic| with_reducible exact Fix.identLoop)
theorem Fix.tokaddIdent {a0} : Fix (tokaddIdent a0) := by unfold Lexer.tokaddIdent; repeat' fix1
macro_rules | `(tactic| fix_known) => `(tactic| with_reducible exact Fix.tokaddIdent)
theorem Fix.isLabelSuffix {a0} : Fix (isLabelSuffix a0) := by unfold Lexer.isLabelSuffix; repeat' fix1
macro_rules | `(tactic| fix_known) => `(tactic| with_reducible exact Fix.isLabelSuffix)
theorem Fix.isLvarDefined {a0} : Fix (isLvarDefined a0) := by unfold Lexer.isLvarDefined; repeat' fix1
macro_rules | `(tactic| fix_known) => `(tactic| with_reducible exact Fix.isLvarDefined)
theorem Fix.normalNewline : Fix (normalNewline) := by unfold Lexer.normalNewline; repeat' fix1
macro_rules | `(tactic| fix_known) => `(tactic| with_reducible exact Fix.normalNewline)
theorem Fix.setStateAfterOp {a0} : Fix (setStateAfterOp a0) := by unfold Lexer.setStateAfterOp; repeat' fix1
macro_rules | `(tactic| fix_known) => `(tactic| with_reducible exact Fix.setStateAfterOp)
theorem Fix.spacearg {a0 a1} : Fix (spacearg a0 a1) := by unfold Lexer.spacearg; repeat' fix1
macro_rules | `(tactic| fix_known) => `(tactic| with_reducible exact Fix.spacearg)
theorem Fix.warnSpaceChar {a0 a1} : Fix (warnSpaceChar a0 a1) := by unfold Lexer.warnSpaceChar; repeat' fix1
macro_rules | `(tactic| fix_known) => `(tactic| with_reducible exact Fix.warnSpaceChar)
theorem Fix.setNumberLiteral {a0 a1 a2} : Fix (setNumberLiteral a0 a1 a2) := by unfold Lexer.setNumberLiteral; repeat' fix1
macro_rules | `(tactic| fix_known) => `(tactic| with_reducible exact Fix.setNumberLiteral)
theorem Fix.setIntegerLiteral {a0 a1} : Fix (setIntegerLiteral a0 a1) := by unfold Lexer.setIntegerLiteral; repeat' fix1
macro_rules | `(tactic| fix_known) => `(tactic| with_reducible exact Fix.setIntegerLiteral)
theorem Fix.invalidOctal : Fix (invalidOctal) := by unfold Lexer.invalidOctal; repeat' fix1
macro_rules | `(tactic| fix_known) => `(tactic| with_reducible exact Fix.invalidOctal)
theorem Fix.trailingUc {a0} : Fix (trailingUc a0) := by unfold Lexer.trailingUc; repeat' fix1
macro_rules | `(tactic| fix_known) => `(tactic| with_reducible exact Fix.trailingUc)
theorem Fix.noDigits : Fix (noDigits) := by unfold Lexer.noDigits; repeat' fix1
macro_rules | `(tactic| fix_known) => `(tactic| with_reducible exact Fix.noDigits)
theorem Fix.suffixLoop {a0} : ∀ {n a2 a3}, Fix (suffixLoop a0 n a2 a3) := by
  intro n
  induction n with
  | zero => intro a2 a3; unfold Lexer.suffixLoop; exact Fix.fail _
  | succ n ih => intro a2 a3; unfold Lexer.suffixLoop; repeat' first | with_reducible exact ih | fix1
macro_rules | `(tactic| fix_known) => `(tactic| with_reducible exact Fix.suffixLoop)
theorem Fix.numberLiteralSuffix {a0} : Fix (numberLiteralSuffix a0) := by unfold Lexer.numberLiteralSuffix; repeat' fix1
macro_rules | `(tactic| fix_known) => `(tactic| with_reducible exact Fix.numberLiteralSuffix)
theorem Fix.parseNumericFooter {a0 a1} : Fix (parseNumericFooter a0 a1) := by unfold Lexer.parseNumericFooter; repeat' fix1
macro_rules | `(tactic| fix_known) => `(tactic| with_reducible exact Fix.parseNumericFooter)
theorem Fix.decodeNum {a0 a1 a2 a3} : Fix (decodeNum a0 a1 a2 a3) := by unfold Lexer.decodeNum; repeat' fix1
macro_rules | `(tactic| fix_known) => `(tactic| with_reducible exact Fix.decodeNum)
theorem Fix.digitLoop {a0} : ∀ {n a2 a3}, Fix (digitLoop a0 n a2 a3) := by
  intro n
  induction n with
  | zero => intro a2 a3; unfold Lexer.digitLoop; exact Fix.fail _
  | succ n ih => intro a2 a3; unfold Lexer.digitLoop; repeat' first | with_reducible exact ih | fix1
macro_rules | `(tactic| fix_known) => `(tactic| with_reducible exact Fix.digitLoop)
theorem Fix.prefixed {a0 a1 a2} : Fix (prefixed a0 a1 a2) := by unfold Lexer.prefixed; repeat' fix1
macro_rules | `(tactic| fix_known) => `(tactic| with_reducible exact Fix.prefixed)
theorem Fix.octalLoop : ∀ {n a1 a2}, Fix (octalLoop n a1 a2) := by
  intro n
  induction n with
  | zero => intro a1 a2; unfold Lexer.octalLoop; exact Fix.fail _
  | succ n ih => intro a1 a2; unfold Lexer.octalLoop; repeat' first | with_reducible exact ih | fix1
macro_rules | `(tactic| fix_known) => `(tactic| with_reducible exact Fix.octalLoop)
theorem Fix.parseOctal {a0 a1 a2} : Fix (parseOctal a0 a1 a2) := by unfold Lexer.parseOctal; repeat' fix1
macro_rules | `(tactic| fix_known) => `(tactic| with_reducible exact Fix.parseOctal)
theorem Fix.numLoop : ∀ {n a1 a2 a3 a4 a5}, Fix (numLoop n a1 a2 a3 a4 a5) := by
  intro n
  induction n with
  | zero => intro a1 a2 a3 a4 a5; unfold Lexer.numLoop; exact Fix.fail _
  | succ n ih => intro a1 a2 a3 a4 a5; unfold Lexer.numLoop; repeat' first | with_reducible exact ih | fix1
macro_rules | `(tactic| fix_known) => `(tactic| with_reducible exact Fix.numLoop)
theorem Fix.afterZero {a0 a1} : Fix (afterZero a0 a1) := by unfold Lexer.afterZero; repeat' fix1
macro_rules | `(tactic| fix_known) => `(tactic| with_reducible exact Fix.afterZero)
theorem Fix.zeroOctal {a0 a1 a2} : Fix (zeroOctal a0 a1 a2) := by unfold Lexer.zeroOctal; repeat' fix1
macro_rules | `(tactic| fix_known) => `(tactic| with_reducible exact Fix.zeroOctal)
theorem Fix.zeroLiteral : Fix (zeroLiteral) := by unfold Lexer.zeroLiteral; repeat' fix1
macro_rules | `(tactic| fix_known) => `(tactic| with_reducible exact Fix.zeroLiteral)
theorem Fix.parseNumeric {a0} : Fix (parseNumeric a0) := by unfold Lexer.parseNumeric; repeat' fix1
macro_rules | `(tactic| fix_known) => `(tactic| with_reducible exact Fix.parseNumeric)
theorem Fix.tokaddmbc {a0} : Fix (tokaddmbc a0) := by unfold Lexer.tokaddmbc; repeat' fix1
macro_rules | `(tactic| fix_known) => `(tactic| with_reducible exact Fix.tokaddmbc)
theorem Fix.utf8Unterminated : Fix (utf8Unterminated) := by unfold Lexer.utf8Unterminated; repeat' fix1
macro_rules | `(tactic| fix_known) => `(tactic| with_reducible exact Fix.utf8Unterminated)
theorem Fix.tokaddCodepoint {a0 a1} : Fix (tokaddCodepoint a0 a1) := by unfold Lexer.tokaddCodepoint; repeat' fix1
macro_rules | `(tactic| fix_known) => `(tactic| with_reducible exact Fix.tokaddCodepoint)
theorem Fix.utf8Skip1 : ∀ {n}, Fix (utf8Skip1 n) := by
  intro n
  induction n with
  | zero => unfold Lexer.utf8Skip1; exact Fix.fail _
  | succ n ih => unfold Lexer.utf8Skip1; repeat' first | with_reducible exact ih | fix1
macro_rules | `(tactic| fix_known) => `(tactic| with_reducible exact Fix.utf8Skip1)
theorem Fix.utf8Skip2 : ∀ {n a1}, Fix (utf8Skip2 n a1) := by
  intro n
  induction n with
  | zero => intro a1; unfold Lexer.utf8Skip2; exact Fix.fail _
  | succ n ih => intro a1; unfold Lexer.utf8Skip2; repeat' first | with_reducible exact ih | fix1
macro_rules | `(tactic| fix_known) => `(tactic| with_reducible exact Fix.utf8Skip2)
theorem Fix.utf8Loop {a0 a1} : ∀ {n a3 a4 a5 a6}, Fix (utf8Loop a0 a1 n a3 a4 a5 a6) := by
  intro n
  induction n with
  | zero => intro a3 a4 a5 a6; unfold Lexer.utf8Loop; exact Fix.fail _
  | succ n ih => intro a3 a4 a5 a6; unfold Lexer.utf8Loop; repeat' first | with_reducible exact ih | fix1
macro_rules | `(tactic| fix_known) => `(tactic| with_reducible exact Fix.utf8Loop)
theorem Fix.tokaddUtf8 {a0 a1} : Fix (tokaddUtf8 a0 a1) := by unfold Lexer.tokaddUtf8; repeat' fix1
macro_rules | `(tactic| fix_known) => `(tactic| with_reducible exact Fix.tokaddUtf8)
theorem Fix.tokHex : Fix (tokHex) := by unfold Lexer.tokHex; repeat' fix1
macro_rules | `(tactic| fix_known) => `(tactic| with_reducible exact Fix.tokHex)
theorem Fix.tokaddEscape : Fix (tokaddEscape) := by unfold Lexer.tokaddEscape; repeat' fix1
macro_rules | `(tactic| fix_known) => `(tactic| with_reducible exact Fix.tokaddEscape)
theorem Fix.readEscapeEof : Fix (readEscapeEof) := by unfold Lexer.readEscapeEof; repeat' fix1
macro_rules | `(tactic| fix_known) => `(tactic| with_reducible exact Fix.readEscapeEof)
theorem Fix.peekU : Fix (peekU) := by unfold Lexer.peekU; repeat' fix1
macro_rules | `(tactic| fix_known) => `(tactic| with_reducible exact Fix.peekU)
theorem Fix.readEscape : ∀ {n a1 a2}, Fix (readEscape n a1 a2) := by
  intro n
  induction n with
  | zero => intro a1 a2; unfold Lexer.readEscape; exact Fix.fail _
  | succ n ih => intro a1 a2; unfold Lexer.readEscape; repeat' first | with_reducible exact ih | fix1
macro_rules | `(tactic| fix_known) => `(tactic| with_reducible exact Fix.readEscape)
theorem Fix.tsEscapeOther {a0 a1 a2 a3 a4} : Fix (tsEscapeOther a0 a1 a2 a3 a4) := by unfold Lexer.tsEscapeOther; repeat' fix1
macro_rules | `(tactic| fix_known) => `(tactic| with_reducible exact Fix.tsEscapeOther)
theorem Fix.tsBackslash {a0 a1 a2 a3} : Fix (tsBackslash a0 a1 a2 a3) := by unfold Lexer.tsBackslash; repeat' fix1
macro_rules | `(tactic| fix_known) => `(tactic| with_reducible exact Fix.tsBackslash)
theorem Fix.tsStep {a0 a1 a2 a3} : Fix (tsStep a0 a1 a2 a3) := by unfold Lexer.tsStep; repeat' fix1
macro_rules | `(tactic| fix_known) => `(tactic| with_reducible exact Fix.tsStep)
theorem Fix.tsLoop {a0 a1 a2} : ∀ {n a4}, Fix (tsLoop a0 a1 a2 n a4) := by
  intro n
  induction n with
  | zero => intro a4; unfold Lexer.tsLoop; exact Fix.fail _
  | succ n ih => intro a4; unfold Lexer.tsLoop; repeat' first | with_reducible exact ih | fix1
macro_rules | `(tactic| fix_known) => `(tactic| with_reducible exact Fix.tsLoop)
theorem Fix.tokaddString {a0 a1 a2 a3} : Fix (tokaddString a0 a1 a2 a3) := by unfold Lexer.tokaddString; repeat' fix1
macro_rules | `(tactic| fix_known) => `(tactic| with_reducible exact Fix.tokaddString)
theorem Fix.peekVariableName : Fix (peekVariableName) := by unfold Lexer.peekVariableName; repeat' fix1
macro_rules | `(tactic| fix_known) => `(tactic| with_reducible exact Fix.peekVariableName)
theorem Fix.regxLoop : ∀ {n a1}, Fix (regxLoop n a1) := by
  intro n
  induction n with
  | zero => intro a1; unfold Lexer.regxLoop; exact Fix.fail _
  | succ n ih => intro a1; unfold Lexer.regxLoop; repeat' first | with_reducible exact ih | fix1
macro_rules | `(tactic| fix_known) => `(tactic| with_reducible exact Fix.regxLoop)
theorem Fix.regxOptions : Fix (regxOptions) := by unfold Lexer.regxOptions; repeat' fix1
macro_rules | `(tactic| fix_known) => `(tactic| with_reducible exact Fix.regxOptions)
theorem Fix.stringTerm {a0 a1} : Fix (stringTerm a0 a1) := by unfold Lexer.stringTerm; repeat' fix1
macro_rules | `(tactic| fix_known) => `(tactic| with_reducible exact Fix.stringTerm)
theorem Fix.skipSpaces : ∀ {n}, Fix (skipSpaces n) := by
  intro n
  induction n with
  | zero => unfold Lexer.skipSpaces; exact Fix.fail _
  | succ n ih => unfold Lexer.skipSpaces; repeat' first | with_reducible exact ih | fix1
macro_rules | `(tactic| fix_known) => `(tactic| with_reducible exact Fix.skipSpaces)
theorem Fix.restoreStrterm {a0} : Fix (restoreStrterm a0) := by unfold Lexer.restoreStrterm; repeat' fix1
macro_rules | `(tactic| fix_known) => `(tactic| with_reducible exact Fix.restoreStrterm)
theorem Fix.stringContent {a0 a1 a2 a3} : Fix (stringContent a0 a1 a2 a3) := by unfold Lexer.stringContent; repeat' fix1
macro_rules | `(tactic| fix_known) => `(tactic| with_reducible exact Fix.stringContent)
theorem Fix.parseString {a0} : Fix (parseString a0) := by unfold Lexer.parseString; repeat' fix1
macro_rules | `(tactic| fix_known) => `(tactic| with_reducible exact Fix.parseString)
theorem Fix.hereQuoteLoop {a0} : ∀ {n}, Fix (hereQuoteLoop a0 n) := by
  intro n
  induction n with
  | zero => unfold Lexer.hereQuoteLoop; exact Fix.fail _
  | succ n ih => unfold Lexer.hereQuoteLoop; repeat' first | with_reducible exact ih | fix1
macro_rules | `(tactic| fix_known) => `(tactic| with_reducible exact Fix.hereQuoteLoop)
theorem Fix.hereIdLoop : ∀ {n}, Fix (hereIdLoop n) := by
  intro n
  induction n with
  | zero => unfold Lexer.hereIdLoop; exact Fix.fail _
  | succ n ih => unfold Lexer.hereIdLoop; repeat' first | with_reducible exact ih | fix1
macro_rules | `(tactic| fix_known) => `(tactic| with_reducible exact Fix.hereIdLoop)
theorem Fix.heredocStart {a0 a1 a2 a3 a4} : Fix (heredocStart a0 a1 a2 a3 a4) := by unfold Lexer.heredocStart; repeat' fix1
macro_rules | `(tactic| fix_known) => `(tactic| with_reducible exact Fix.heredocStart)
theorem Fix.heredocIdentifier : Fix (heredocIdentifier) := by unfold Lexer.heredocIdentifier; repeat' fix1
macro_rules | `(tactic| fix_known) => `(tactic| with_reducible exact Fix.heredocIdentifier)
theorem Fix.computeHeredocEnd : Fix (computeHeredocEnd) := by unfold Lexer.computeHeredocEnd; repeat' fix1
macro_rules | `(tactic| fix_known) => `(tactic| with_reducible exact Fix.computeHeredocEnd)
theorem Fix.heredocRestore {a0} : Fix (heredocRestore a0) := by unfold Lexer.heredocRestore; repeat' fix1
macro_rules | `(tactic| fix_known) => `(tactic| with_reducible exact Fix.heredocRestore)
theorem Fix.hereDocumentError {a0 a1 a2} : Fix (hereDocumentError a0 a1 a2) := by unfold Lexer.hereDocumentError; repeat' fix1
macro_rules | `(tactic| fix_known) => `(tactic| with_reducible exact Fix.hereDocumentError)
theorem Fix.hereDocumentRestore {a0} : Fix (hereDocumentRestore a0) := by unfold Lexer.hereDocumentRestore; repeat' fix1
macro_rules | `(tactic| fix_known) => `(tactic| with_reducible exact Fix.hereDocumentRestore)
theorem Fix.heredocFlushStr {a0} : Fix (heredocFlushStr a0) := by unfold Lexer.heredocFlushStr; repeat' fix1
macro_rules | `(tactic| fix_known) => `(tactic| with_reducible exact Fix.heredocFlushStr)
theorem Fix.heredocFlush : Fix (heredocFlush) := by unfold Lexer.heredocFlush; repeat' fix1
macro_rules | `(tactic| fix_known) => `(tactic| with_reducible exact Fix.heredocFlush)
theorem Fix.atHeredocEnd {a0 a1 a2} : Fix (atHeredocEnd a0 a1 a2) := by unfold Lexer.atHeredocEnd; repeat' fix1
macro_rules | `(tactic| fix_known) => `(tactic| with_reducible exact Fix.atHeredocEnd)
theorem Fix.hereRawLoop {a0 a1 a2 a3} : ∀ {n a5}, Fix (hereRawLoop a0 a1 a2 a3 n a5) := by
  intro n
  induction n with
  | zero => intro a5; unfold Lexer.hereRawLoop; exact Fix.fail _
  | succ n ih => intro a5; unfold Lexer.hereRawLoop; repeat' first | with_reducible exact ih | fix1
macro_rules | `(tactic| fix_known) => `(tactic| with_reducible exact Fix.hereRawLoop)
theorem Fix.hereExpandLoop {a0 a1 a2 a3} : ∀ {n a5}, Fix (hereExpandLoop a0 a1 a2 a3 n a5) := by
  intro n
  induction n with
  | zero => intro a5; unfold Lexer.hereExpandLoop; exact Fix.fail _
  | succ n ih => intro a5; unfold Lexer.hereExpandLoop; repeat' first | with_reducible exact ih | fix1
macro_rules | `(tactic| fix_known) => `(tactic| with_reducible exact Fix.hereExpandLoop)
theorem Fix.hereFinish {a0 a1 a2} : Fix (hereFinish a0 a1 a2) := by unfold Lexer.hereFinish; repeat' fix1
macro_rules | `(tactic| fix_known) => `(tactic| with_reducible exact Fix.hereFinish)
theorem Fix.hereBody {a0 a1 a2 a3 a4} : Fix (hereBody a0 a1 a2 a3 a4) := by unfold Lexer.hereBody; repeat' fix1
macro_rules | `(tactic| fix_known) => `(tactic| with_reducible exact Fix.hereBody)
theorem Fix.hereDocument {a0} : Fix (hereDocument a0) := by unfold Lexer.hereDocument; repeat' fix1
macro_rules | `(tactic| fix_known) => `(tactic| with_reducible exact Fix.hereDocument)
theorem Fix.setterSuffix : Fix (setterSuffix) := by unfold Lexer.setterSuffix; repeat' fix1
macro_rules | `(tactic| fix_known) => `(tactic| with_reducible exact Fix.setterSuffix)
theorem Fix.identSuffix {a0} : Fix (identSuffix a0) := by unfold Lexer.identSuffix; repeat' fix1
macro_rules | `(tactic| fix_known) => `(tactic| with_reducible exact Fix.identSuffix)
theorem Fix.identKeyword {a0} : Fix (identKeyword a0) := by unfold Lexer.identKeyword; repeat' fix1
macro_rules | `(tactic| fix_known) => `(tactic| with_reducible exact Fix.identKeyword)
theorem Fix.identName {a0 a1 a2 a3} : Fix (identName a0 a1 a2 a3) := by unfold Lexer.identName; repeat' fix1
macro_rules | `(tactic| fix_known) => `(tactic| with_reducible exact Fix.identName)
theorem Fix.parseIdent {a0 a1 a2} : Fix (parseIdent a0 a1 a2) := by unfold Lexer.parseIdent; repeat' fix1
macro_rules | `(tactic| fix_known) => `(tactic| with_reducible exact Fix.parseIdent)
theorem Fix.nthLoop : ∀ {n a1}, Fix (nthLoop n a1) := by
  intro n
  induction n with
  | zero => intro a1; unfold Lexer.nthLoop; exact Fix.fail _
  | succ n ih => intro a1; unfold Lexer.nthLoop; repeat' first | with_reducible exact ih | fix1
macro_rules | `(tactic| fix_known) => `(tactic| with_reducible exact Fix.nthLoop)
theorem Fix.gvarName {a0} : Fix (gvarName a0) := by unfold Lexer.gvarName; repeat' fix1
macro_rules | `(tactic| fix_known) => `(tactic| with_reducible exact Fix.gvarName)
theorem Fix.parseGvar {a0} : Fix (parseGvar a0) := by unfold Lexer.parseGvar; repeat' fix1
macro_rules | `(tactic| fix_known) => `(tactic| with_reducible exact Fix.parseGvar)
theorem Fix.parseAtmark {a0} : Fix (parseAtmark a0) := by unfold Lexer.parseAtmark; repeat' fix1
macro_rules | `(tactic| fix_known) => `(tactic| with_reducible exact Fix.parseAtmark)
theorem Fix.qmarkTernary {a0} : Fix (qmarkTernary a0) := by unfold Lexer.qmarkTernary; repeat' fix1
macro_rules | `(tactic| fix_known) => `(tactic| with_reducible exact Fix.qmarkTernary)
theorem Fix.qmarkNameLoop : ∀ {n a1}, Fix (qmarkNameLoop n a1) := by
  intro n
  induction n with
  | zero => intro a1; unfold Lexer.qmarkNameLoop; exact Fix.fail _
  | succ n ih => intro a1; unfold Lexer.qmarkNameLoop; repeat' first | with_reducible exact ih | fix1
macro_rules | `(tactic| fix_known) => `(tactic| with_reducible exact Fix.qmarkNameLoop)
theorem Fix.qmarkChar : Fix (qmarkChar) := by unfold Lexer.qmarkChar; repeat' fix1
macro_rules | `(tactic| fix_known) => `(tactic| with_reducible exact Fix.qmarkChar)
theorem Fix.qmarkName {a0 a1} : Fix (qmarkName a0 a1) := by unfold Lexer.qmarkName; repeat' fix1
macro_rules | `(tactic| fix_known) => `(tactic| with_reducible exact Fix.qmarkName)
theorem Fix.qmarkEscape : Fix (qmarkEscape) := by unfold Lexer.qmarkEscape; repeat' fix1
macro_rules | `(tactic| fix_known) => `(tactic| with_reducible exact Fix.qmarkEscape)
theorem Fix.parseQmark {a0} : Fix (parseQmark a0) := by unfold Lexer.parseQmark; repeat' fix1
macro_rules | `(tactic| fix_known) => `(tactic| with_reducible exact Fix.parseQmark)
theorem Fix.percentUnknown {a0} : Fix (percentUnknown a0) := by unfold Lexer.percentUnknown; repeat' fix1
macro_rules | `(tactic| fix_known) => `(tactic| with_reducible exact Fix.percentUnknown)
theorem Fix.percentUnterminated : Fix (percentUnterminated) := by unfold Lexer.percentUnterminated; repeat' fix1
macro_rules | `(tactic| fix_known) => `(tactic| with_reducible exact Fix.percentUnterminated)
theorem Fix.percentOpen {a0 a1 a2} : Fix (percentOpen a0 a1 a2) := by unfold Lexer.percentOpen; repeat' fix1
macro_rules | `(tactic| fix_known) => `(tactic| with_reducible exact Fix.percentOpen)
theorem Fix.percentQuotation {a0 a1} : Fix (percentQuotation a0 a1) := by unfold Lexer.percentQuotation; repeat' fix1
macro_rules | `(tactic| fix_known) => `(tactic| with_reducible exact Fix.percentQuotation)
theorem Fix.parsePercent {a0 a1} : Fix (parsePercent a0 a1) := by unfold Lexer.parsePercent; repeat' fix1
macro_rules | `(tactic| fix_known) => `(tactic| with_reducible exact Fix.parsePercent)
theorem Fix.mcRecord {a b c d} : ∀ {l}, Fix (mcRecord a b c d l) := by
  intro l
  induction l with
  | nil => exact Fix.pure _
  | cons h t ih => obtain ⟨h1, h2⟩ := h; unfold Lexer.mcRecord; repeat' first | with_reducible exact ih | fix1
macro_rules | `(tactic| fix_known) => `(tactic| with_reducible exact Fix.mcRecord)
theorem Fix.mcLoop {a0 a1} : ∀ {n a3 a4}, Fix (mcLoop a0 a1 n a3 a4) := by
  intro n
  induction n with
  | zero => intro a3 a4; unfold Lexer.mcLoop; exact Fix.fail _
  | succ n ih => intro a3 a4; unfold Lexer.mcLoop; repeat' first | with_reducible exact ih | fix1
macro_rules | `(tactic| fix_known) => `(tactic| with_reducible exact Fix.mcLoop)
theorem Fix.magicComment {a0 a1 a2} : Fix (magicComment a0 a1 a2) := by unfold Lexer.magicComment; repeat' fix1
macro_rules | `(tactic| fix_known) => `(tactic| with_reducible exact Fix.magicComment)
theorem Fix.done {a0} : Fix (done a0) := by unfold Lexer.done; repeat' fix1
macro_rules | `(tactic| fix_known) => `(tactic| with_reducible exact Fix.done)
theorem Fix.opAsgn {a0} : Fix (opAsgn a0) := by unfold Lexer.opAsgn; repeat' fix1
macro_rules | `(tactic| fix_known) => `(tactic| with_reducible exact Fix.opAsgn)
theorem Fix.liftBuf {f} : Fix (newlineLoop.liftBuf f) := Fix.buf' (f := f) fun _ => rfl
macro_rules | `(tactic| fix_known) => `(tactic| with_reducible exact Fix.liftBuf)
theorem Fix.newlineLoop : ∀ {n a1}, Fix (newlineLoop n a1) := by
  intro n
  induction n with
  | zero => intro a1; unfold Lexer.newlineLoop; exact Fix.fail _
  | succ n ih => intro a1; unfold Lexer.newlineLoop; repeat' first | with_reducible exact ih | fix1
macro_rules | `(tactic| fix_known) => `(tactic| with_reducible exact Fix.newlineLoop)
theorem Fix.lexNewline {a0 a1} : Fix (lexNewline a0 a1) := by unfold Lexer.lexNewline; repeat' fix1
macro_rules | `(tactic| fix_known) => `(tactic| with_reducible exact Fix.lexNewline)
theorem Fix.pushComment {a0} : Fix (pushComment a0) := by unfold Lexer.pushComment; repeat' fix1
macro_rules | `(tactic| fix_known) => `(tactic| with_reducible exact Fix.pushComment)
theorem Fix.lexComment {a0 a1 a2} : Fix (lexComment a0 a1 a2) := by unfold Lexer.lexComment; repeat' fix1
macro_rules | `(tactic| fix_known) => `(tactic| with_reducible exact Fix.lexComment)
theorem Fix.lexStar {a0 a1} : Fix (lexStar a0 a1) := by unfold Lexer.lexStar; repeat' fix1
macro_rules | `(tactic| fix_known) => `(tactic| with_reducible exact Fix.lexStar)
theorem Fix.lexBang : Fix (lexBang) := by unfold Lexer.lexBang; repeat' fix1
macro_rules | `(tactic| fix_known) => `(tactic| with_reducible exact Fix.lexBang)
theorem Fix.embdocLoop {a0} : ∀ {n}, Fix (embdocLoop a0 n) := by
  intro n
  induction n with
  | zero => unfold Lexer.embdocLoop; exact Fix.fail _
  | succ n ih => unfold Lexer.embdocLoop; repeat' first | with_reducible exact ih | fix1
macro_rules | `(tactic| fix_known) => `(tactic| with_reducible exact Fix.embdocLoop)
theorem Fix.lexEqOp : Fix (lexEqOp) := by unfold Lexer.lexEqOp; repeat' fix1
macro_rules | `(tactic| fix_known) => `(tactic| with_reducible exact Fix.lexEqOp)
theorem Fix.lexEq {a0} : Fix (lexEq a0) := by unfold Lexer.lexEq; repeat' fix1
macro_rules | `(tactic| fix_known) => `(tactic| with_reducible exact Fix.lexEq)
theorem Fix.lexLtOp {a0 a1 a2} : Fix (lexLtOp a0 a1 a2) := by unfold Lexer.lexLtOp; repeat' fix1
macro_rules | `(tactic| fix_known) => `(tactic| with_reducible exact Fix.lexLtOp)
theorem Fix.lexLt {a0 a1} : Fix (lexLt a0 a1) := by unfold Lexer.lexLt; repeat' fix1
macro_rules | `(tactic| fix_known) => `(tactic| with_reducible exact Fix.lexLt)
theorem Fix.lexGt : Fix (lexGt) := by unfold Lexer.lexGt; repeat' fix1
macro_rules | `(tactic| fix_known) => `(tactic| with_reducible exact Fix.lexGt)
theorem Fix.lexQuote {a0 a1 a2} : Fix (lexQuote a0 a1 a2) := by unfold Lexer.lexQuote; repeat' fix1
macro_rules | `(tactic| fix_known) => `(tactic| with_reducible exact Fix.lexQuote)
theorem Fix.lexBacktick {a0} : Fix (lexBacktick a0) := by unfold Lexer.lexBacktick; repeat' fix1
macro_rules | `(tactic| fix_known) => `(tactic| with_reducible exact Fix.lexBacktick)
theorem Fix.lexAmp {a0 a1} : Fix (lexAmp a0 a1) := by unfold Lexer.lexAmp; repeat' fix1
macro_rules | `(tactic| fix_known) => `(tactic| with_reducible exact Fix.lexAmp)
theorem Fix.lexPipe {a0} : Fix (lexPipe a0) := by unfold Lexer.lexPipe; repeat' fix1
macro_rules | `(tactic| fix_known) => `(tactic| with_reducible exact Fix.lexPipe)
theorem Fix.unaryHere {a0 a1 a2} : Fix (unaryHere a0 a1 a2) := by unfold Lexer.unaryHere; repeat' fix1
macro_rules | `(tactic| fix_known) => `(tactic| with_reducible exact Fix.unaryHere)
theorem Fix.lexPlus {a0 a1} : Fix (lexPlus a0 a1) := by unfold Lexer.lexPlus; repeat' fix1
macro_rules | `(tactic| fix_known) => `(tactic| with_reducible exact Fix.lexPlus)
theorem Fix.lexMinus {a0 a1} : Fix (lexMinus a0 a1) := by unfold Lexer.lexMinus; repeat' fix1
macro_rules | `(tactic| fix_known) => `(tactic| with_reducible exact Fix.lexMinus)
theorem Fix.lexDot3 {a0 a1} : Fix (lexDot3 a0 a1) := by unfold Lexer.lexDot3; repeat' fix1
macro_rules | `(tactic| fix_known) => `(tactic| with_reducible exact Fix.lexDot3)
theorem Fix.lexDotDigit {a0} : Fix (lexDotDigit a0) := by unfold Lexer.lexDotDigit; repeat' fix1
macro_rules | `(tactic| fix_known) => `(tactic| with_reducible exact Fix.lexDotDigit)
theorem Fix.lexDot {a0 a1} : Fix (lexDot a0 a1) := by unfold Lexer.lexDot; repeat' fix1
macro_rules | `(tactic| fix_known) => `(tactic| with_reducible exact Fix.lexDot)
theorem Fix.lexClose {a0 a1} : Fix (lexClose a0 a1) := by unfold Lexer.lexClose; repeat' fix1
macro_rules | `(tactic| fix_known) => `(tactic| with_reducible exact Fix.lexClose)
theorem Fix.lexRcurly : Fix (lexRcurly) := by unfold Lexer.lexRcurly; repeat' fix1
macro_rules | `(tactic| fix_known) => `(tactic| with_reducible exact Fix.lexRcurly)
theorem Fix.lexColon {a0 a1} : Fix (lexColon a0 a1) := by unfold Lexer.lexColon; repeat' fix1
macro_rules | `(tactic| fix_known) => `(tactic| with_reducible exact Fix.lexColon)
theorem Fix.lexSlash {a0 a1} : Fix (lexSlash a0 a1) := by unfold Lexer.lexSlash; repeat' fix1
macro_rules | `(tactic| fix_known) => `(tactic| with_reducible exact Fix.lexSlash)
theorem Fix.lexCaret : Fix (lexCaret) := by unfold Lexer.lexCaret; repeat' fix1
macro_rules | `(tactic| fix_known) => `(tactic| with_reducible exact Fix.lexCaret)
theorem Fix.lexSemi : Fix (lexSemi) := by unfold Lexer.lexSemi; repeat' fix1
macro_rules | `(tactic| fix_known) => `(tactic| with_reducible exact Fix.lexSemi)
theorem Fix.lexComma : Fix (lexComma) := by unfold Lexer.lexComma; repeat' fix1
macro_rules | `(tactic| fix_known) => `(tactic| with_reducible exact Fix.lexComma)
theorem Fix.lexTilde : Fix (lexTilde) := by unfold Lexer.lexTilde; repeat' fix1
macro_rules | `(tactic| fix_known) => `(tactic| with_reducible exact Fix.lexTilde)
theorem Fix.openNest : Fix (openNest) := by unfold Lexer.openNest; repeat' fix1
macro_rules | `(tactic| fix_known) => `(tactic| with_reducible exact Fix.openNest)
theorem Fix.lexLparen {a0} : Fix (lexLparen a0) := by unfold Lexer.lexLparen; repeat' fix1
macro_rules | `(tactic| fix_known) => `(tactic| with_reducible exact Fix.lexLparen)
theorem Fix.lexLbrack {a0} : Fix (lexLbrack a0) := by unfold Lexer.lexLbrack; repeat' fix1
macro_rules | `(tactic| fix_known) => `(tactic| with_reducible exact Fix.lexLbrack)
theorem Fix.lexLcurly : Fix (lexLcurly) := by unfold Lexer.lexLcurly; repeat' fix1
macro_rules | `(tactic| fix_known) => `(tactic| with_reducible exact Fix.lexLcurly)
theorem Fix.lexBackslash : Fix (lexBackslash) := by unfold Lexer.lexBackslash; repeat' fix1
macro_rules | `(tactic| fix_known) => `(tactic| with_reducible exact Fix.lexBackslash)
theorem Fix.lexUnderscore : Fix (lexUnderscore) := by unfold Lexer.lexUnderscore; repeat' fix1
macro_rules | `(tactic| fix_known) => `(tactic| with_reducible exact Fix.lexUnderscore)
theorem Fix.lexOther {a0 a1} : Fix (lexOther a0 a1) := by unfold Lexer.lexOther; repeat' fix1
macro_rules | `(tactic| fix_known) => `(tactic| with_reducible exact Fix.lexOther)
theorem Fix.lexCr : Fix (lexCr) := by unfold Lexer.lexCr; repeat' fix1
macro_rules | `(tactic| fix_known) => `(tactic| with_reducible exact Fix.lexCr)
theorem Fix.dispatch {a0 a1 a2 a3 a4 a5} : Fix (dispatch a0 a1 a2 a3 a4 a5) := by unfold Lexer.dispatch; repeat' fix1
macro_rules | `(tactic| fix_known) => `(tactic| with_reducible exact Fix.dispatch)
theorem Fix.yylexLoop {a0 a1 a2} : ∀ {n a4}, Fix (yylexLoop a0 a1 a2 n a4) := by
  intro n
  induction n with
  | zero => intro a4; unfold Lexer.yylexLoop; exact Fix.fail _
  | succ n ih => intro a4; unfold Lexer.yylexLoop; repeat' first | with_reducible exact ih | fix1
macro_rules | `(tactic| fix_known) => `(tactic| with_reducible exact Fix.yylexLoop)
theorem Fix.parserYylex {a0} : Fix (parserYylex a0) := by unfold Lexer.parserYylex; repeat' fix1
macro_rules | `(tactic| fix_known) => `(tactic| with_reducible exact Fix.parserYylex)
theorem Fix.yylex {a0} : Fix (yylex a0) := by unfold Lexer.yylex; repeat' fix1
macro_rules | `(tactic| fix_known) => `(tactic| with_reducible exact Fix.yylex)
theorem Fix.tokenizeUntilEof {a0} : ∀ {n}, Fix (tokenizeUntilEof a0 n) := by
  intro n
  induction n with
  | zero => unfold Lexer.tokenizeUntilEof; exact Fix.fail _
  | succ n ih => unfold Lexer.tokenizeUntilEof; repeat' first | with_reducible exact ih | fix1
macro_rules | `(tactic| fix_known) => `(tactic| with_reducible exact Fix.tokenizeUntilEof)

end Verif.Lexer
