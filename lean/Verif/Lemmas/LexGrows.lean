import Verif.Model.Lexer.Main
/-! What the lexer has recorded is never changed or dropped: diagnostics and comments are only appended. -/
namespace Verif.Lexer
section
variable {α β : Type}

/-- Everything recorded in `s` is still recorded in `s'`, in the same order. -/
structure Extends (s s' : Lexer) : Prop where
  diagnostics : s.diagnostics <+: s'.diagnostics
  comments : s.comments <+: s'.comments
  magicComments : s.magicComments <+: s'.magicComments

theorem Extends.refl (s : Lexer) : Extends s s := ⟨List.prefix_refl _, List.prefix_refl _, List.prefix_refl _⟩
theorem Extends.trans {a b c : Lexer} (h : Extends a b) (h' : Extends b c) : Extends a c :=
  ⟨h.1.trans h'.1, h.2.trans h'.2, h.3.trans h'.3⟩

/-- `x` only appends to what is recorded. -/
def Grows (x : LexM α) : Prop := ∀ s a s', x s = .ok (a, s') → Extends s s'

theorem Grows.pure (a : α) : Grows (Pure.pure a : LexM α) := by
  intro s b s' h
  cases h; exact .refl _
theorem Grows.bind {x : LexM β} {f : β → LexM α} (h : Grows x) (h' : ∀ b, Grows (f b)) : Grows (x >>= f) := by
  intro s a s' e
  change StateT.bind x f s = _ at e
  simp only [StateT.bind, Bind.bind, Except.bind] at e
  cases hx : x s with
  | error p => rw [hx] at e; simp at e
  | ok r =>
    rw [hx] at e
    obtain ⟨b, s1⟩ := r
    exact (h s b s1 hx).trans (h' b s1 a s' e)
theorem Grows.map {x : LexM β} {f : β → α} (h : Grows x) : Grows (f <$> x) := by
  intro s a s' e
  change StateT.map f x s = _ at e
  simp only [StateT.map, Bind.bind, Except.bind] at e
  cases hx : x s with
  | error p => rw [hx] at e; simp at e
  | ok r =>
    rw [hx] at e
    obtain ⟨b, s1⟩ := r
    cases e
    exact h s b s1 hx
theorem Grows.ite {c : Prop} [Decidable c] {x y : LexM α} (h1 : Grows x) (h2 : Grows y) : Grows (if c then x else y) := by
  split <;> assumption
theorem Grows.fail (p : Panic) : Grows (fail p : LexM α) := by intro s a s' e; simp [Lexer.fail] at e
theorem Grows.getS (f : Lexer → α) : Grows (getS f) := by intro s a s' e; cases e; exact .refl _
theorem Grows.getB (f : Buffer → α) : Grows (getB f) := by intro s a s' e; cases e; exact .refl _
theorem Grows.modB (f : Buffer → Buffer) : Grows (modB f) := by
  intro s a s' e; cases e; exact ⟨List.prefix_refl _, List.prefix_refl _, List.prefix_refl _⟩
theorem Grows.modS {f : Lexer → Lexer} (h : ∀ s, Extends s (f s)) : Grows (modS f) := by intro s a s' e; cases e; exact h s
theorem Grows.liftB (f : Buffer → Res α) : Grows (liftB f) := by
  intro s a s' e
  simp only [Lexer.liftB, Bind.bind, Except.bind, Pure.pure, Except.pure] at e
  cases hf : f s.buffer with
  | error p => rw [hf] at e; simp at e
  | ok r => rw [hf] at e; cases e; exact .refl _
end

theorem Grows.buf {α : Type} {f : Buffer → Res (α × Buffer)} {x : LexM α} (hx : ∀ s, x s = (do let r ← f s.buffer; return (r.1, { s with buffer := r.2 }))) :
    Grows x := by
  intro s a s' e
  rw [hx] at e
  simp only [Bind.bind, Except.bind, Pure.pure, Except.pure] at e
  cases hf : f s.buffer with
  | error p => rw [hf] at e; simp at e
  | ok r => rw [hf] at e; cases e; exact ⟨List.prefix_refl _, List.prefix_refl _, List.prefix_refl _⟩
theorem Grows.buf' {f : Buffer → Res Buffer} {x : LexM Unit} (hx : ∀ s, x s = (do let r ← f s.buffer; return ((), { s with buffer := r }))) :
    Grows x := by
  intro s a s' e
  rw [hx] at e
  simp only [Bind.bind, Except.bind, Pure.pure, Except.pure] at e
  cases hf : f s.buffer with
  | error p => rw [hf] at e; simp at e
  | ok r => rw [hf] at e; cases e; exact ⟨List.prefix_refl _, List.prefix_refl _, List.prefix_refl _⟩
theorem Grows.nextc : Grows nextc := Grows.buf (f := (·.nextc)) fun _ => rfl
theorem Grows.pushback (c) : Grows (pushback c) := Grows.buf' (f := (·.pushback c)) fun _ => rfl
theorem Grows.pushbackByte : Grows pushbackByte := Grows.buf' (f := (·.pushbackByte)) fun _ => rfl
theorem Grows.emit {a b c} : Grows (emit a b c) := by
  intro s r s' e; cases e; exact ⟨List.prefix_append _ _, List.prefix_refl _, List.prefix_refl _⟩

/-- Known functions. -/
syntax "grows_known" : tactic
macro_rules | `(tactic| grows_known) => `(tactic| with_reducible exact Grows.emit)

/-- One step. -/
macro "grows1" : tactic => `(tactic| first
  | with_reducible exact Grows.pure _
  | with_reducible exact Grows.fail _
  | with_reducible refine Grows.bind ?_ (fun _ => ?_)
  | with_reducible refine Grows.map ?_
  | with_reducible refine Grows.ite ?_ ?_
  | with_reducible exact Grows.getS _
  | with_reducible exact Grows.getB _
  | with_reducible exact Grows.modB _
  | with_reducible exact Grows.liftB _
  | with_reducible exact Grows.nextc
  | with_reducible exact Grows.pushback _
  | with_reducible exact Grows.pushbackByte
  | ((with_reducible refine Grows.modS ?_); intro s; first
      | exact ⟨List.prefix_refl _, List.prefix_refl _, List.prefix_refl _⟩
      | exact ⟨List.prefix_refl _, List.prefix_append _ _, List.prefix_refl _⟩
      | exact ⟨List.prefix_refl _, List.prefix_refl _, List.prefix_append _ _⟩
      | (split <;> exact ⟨List.prefix_refl _, List.prefix_refl _, List.prefix_refl _⟩))
  | with_reducible assumption
  | grows_known
  | split
  | dsimp only
  | fail "grows")

theorem Grows.fuel : Grows (fuel) := by unfold Lexer.fuel; repeat' grows1
macro_rules | `(tactic| grows_known) => `(tactic| with_reducible exact Grows.fuel)
theorem Grows.charAt {a0} : Grows (charAt a0) := by unfold Lexer.charAt; repeat' grows1
macro_rules | `(tactic| grows_known) => `(tactic| with_reducible exact Grows.charAt)
theorem Grows.pcur : Grows (pcur) := by unfold Lexer.pcur; repeat' grows1
macro_rules | `(tactic| grows_known) => `(tactic| with_reducible exact Grows.pcur)
theorem Grows.pcurSub {a0} : Grows (pcurSub a0) := by unfold Lexer.pcurSub; repeat' grows1
macro_rules | `(tactic| grows_known) => `(tactic| with_reducible exact Grows.pcurSub)
theorem Grows.peek {a0} : Grows (peek a0) := by unfold Lexer.peek; repeat' grows1
macro_rules | `(tactic| grows_known) => `(tactic| with_reducible exact Grows.peek)
theorem Grows.tokenFlush : Grows (tokenFlush) := by unfold Lexer.tokenFlush; repeat' grows1
macro_rules | `(tactic| grows_known) => `(tactic| with_reducible exact Grows.tokenFlush)
theorem Grows.setPtok {a0} : Grows (setPtok a0) := by unfold Lexer.setPtok; repeat' grows1
macro_rules | `(tactic| grows_known) => `(tactic| with_reducible exact Grows.setPtok)
theorem Grows.gotoEol : Grows (gotoEol) := by unfold Lexer.gotoEol; repeat' grows1
macro_rules | `(tactic| grows_known) => `(tactic| with_reducible exact Grows.gotoEol)
theorem Grows.getState : Grows (getState) := by unfold Lexer.getState; repeat' grows1
macro_rules | `(tactic| grows_known) => `(tactic| with_reducible exact Grows.getState)
theorem Grows.setState {a0} : Grows (setState a0) := by unfold Lexer.setState; repeat' grows1
macro_rules | `(tactic| grows_known) => `(tactic| with_reducible exact Grows.setState)
theorem Grows.setLval {a0} : Grows (setLval a0) := by unfold Lexer.setLval; repeat' grows1
macro_rules | `(tactic| grows_known) => `(tactic| with_reducible exact Grows.setLval)
theorem Grows.setYylvalName : Grows (setYylvalName) := by unfold Lexer.setYylvalName; repeat' grows1
macro_rules | `(tactic| grows_known) => `(tactic| with_reducible exact Grows.setYylvalName)
theorem Grows.tokadd {a0} : Grows (tokadd a0) := by unfold Lexer.tokadd; repeat' grows1
macro_rules | `(tactic| grows_known) => `(tactic| with_reducible exact Grows.tokadd)
theorem Grows.tokaddMB {a0} : Grows (tokaddMB a0) := by unfold Lexer.tokaddMB; repeat' grows1
macro_rules | `(tactic| grows_known) => `(tactic| with_reducible exact Grows.tokaddMB)
theorem Grows.warn {a0 a1} : Grows (warn a0 a1) := by unfold Lexer.warn; repeat' grows1
macro_rules | `(tactic| grows_known) => `(tactic| with_reducible exact Grows.warn)
theorem Grows.compileError {a0 a1} : Grows (compileError a0 a1) := by unfold Lexer.compileError; repeat' grows1
macro_rules | `(tactic| grows_known) => `(tactic| with_reducible exact Grows.compileError)
theorem Grows.currentLoc : Grows (currentLoc) := by unfold Lexer.currentLoc; repeat' grows1
macro_rules | `(tactic| grows_known) => `(tactic| with_reducible exact Grows.currentLoc)
theorem Grows.currentLocShort : Grows (currentLocShort) := by unfold Lexer.currentLocShort; repeat' grows1
macro_rules | `(tactic| grows_known) => `(tactic| with_reducible exact Grows.currentLocShort)
theorem Grows.yyerror0 {a0} : Grows (yyerror0 a0) := by unfold Lexer.yyerror0; repeat' grows1
macro_rules | `(tactic| grows_known) => `(tactic| with_reducible exact Grows.yyerror0)
theorem Grows.newStrterm {a0 a1 a2 a3} : Grows (newStrterm a0 a1 a2 a3) := by unfold Lexer.newStrterm; repeat' grows1
macro_rules | `(tactic| grows_known) => `(tactic| with_reducible exact Grows.newStrterm)
theorem Grows.warnBalanced {a0 a1 a2 a3 a4 a5} : Grows (warnBalanced a0 a1 a2 a3 a4 a5) := by unfold Lexer.warnBalanced; repeat' grows1
macro_rules | `(tactic| grows_known) => `(tactic| with_reducible exact Grows.warnBalanced)
theorem Grows.argAmbiguous {a0 a1} : Grows (argAmbiguous a0 a1) := by unfold Lexer.argAmbiguous; repeat' grows1
macro_rules | `(tactic| grows_known) => `(tactic| with_reducible exact Grows.argAmbiguous)
theorem Grows.toklen : Grows (toklen) := by unfold Lexer.toklen; repeat' grows1
macro_rules | `(tactic| grows_known) => `(tactic| with_reducible exact Grows.toklen)
theorem Grows.isLambdaBeginning : Grows (isLambdaBeginning) := by unfold Lexer.isLambdaBeginning; repeat' grows1
macro_rules | `(tactic| grows_known) => `(tactic| with_reducible exact Grows.isLambdaBeginning)
theorem Grows.newtok : Grows (newtok) := by unfold Lexer.newtok; repeat' grows1
macro_rules | `(tactic| grows_known) => `(tactic| with_reducible exact Grows.newtok)
theorem Grows.takeTok : Grows takeTok := by
  intro s r s' e; cases e; exact ⟨List.prefix_refl _, List.prefix_refl _, List.prefix_refl _⟩
macro_rules | `(tactic| grows_known) => `(tactic| with_reducible exact Grows.takeTok)
theorem Grows.isIdentchar : Grows (isIdentchar) := by unfold Lexer.isIdentchar; repeat' grows1
macro_rules | `(tactic| grows_known) => `(tactic| with_reducible exact Grows.isIdentchar)
theorem Grows.isAsciiPrev : Grows (isAsciiPrev) := by unfold Lexer.isAsciiPrev; repeat' grows1
macro_rules | `(tactic| grows_known) => `(tactic| with_reducible exact Grows.isAsciiPrev)
theorem Grows.multibyteCharLen {a0} : Grows (multibyteCharLen a0) := by unfold Lexer.multibyteCharLen; repeat' grows1
macro_rules | `(tactic| grows_known) => `(tactic| with_reducible exact Grows.multibyteCharLen)
theorem Grows.tokcopy {a0} : Grows (tokcopy a0) := by unfold Lexer.tokcopy; repeat' grows1
macro_rules | `(tactic| grows_known) => `(tactic| with_reducible exact Grows.tokcopy)
theorem Grows.tokaddMbchar {a0} : Grows (tokaddMbchar a0) := by unfold Lexer.tokaddMbchar; repeat' grows1
macro_rules | `(tactic| grows_known) => `(tactic| with_reducible exact Grows.tokaddMbchar)
theorem Grows.identLoop : ∀ {n a1}, Grows (identLoop n a1) := by
  intro n
  induction n with
  | zero => intro a1; unfold Lexer.identLoop; exact Grows.fail _
  | succ n ih => intro a1; unfold Lexer.identLoop; repeat' first | with_reducible exact ih | grows1
macro_rules | `(tactic| grows_known) => `(tactic| with_reducible exact Grows.identLoop)
theorem Grows.tokaddIdent {a0} : Grows (tokaddIdent a0) := by unfold Lexer.tokaddIdent; repeat' grows1
macro_rules | `(tactic| grows_known) => `(tactic| with_reducible exact Grows.tokaddIdent)
theorem Grows.isLabelSuffix {a0} : Grows (isLabelSuffix a0) := by unfold Lexer.isLabelSuffix; repeat' grows1
macro_rules | `(tactic| grows_known) => `(tactic| with_reducible exact Grows.isLabelSuffix)
theorem Grows.isLvarDefined {a0} : Grows (isLvarDefined a0) := by unfold Lexer.isLvarDefined; repeat' grows1
macro_rules | `(tactic| grows_known) => `(tactic| with_reducible exact Grows.isLvarDefined)
theorem Grows.normalNewline : Grows (normalNewline) := by unfold Lexer.normalNewline; repeat' grows1
macro_rules | `(tactic| grows_known) => `(tactic| with_reducible exact Grows.normalNewline)
theorem Grows.setStateAfterOp {a0} : Grows (setStateAfterOp a0) := by unfold Lexer.setStateAfterOp; repeat' grows1
macro_rules | `(tactic| grows_known) => `(tactic| with_reducible exact Grows.setStateAfterOp)
theorem Grows.spacearg {a0 a1} : Grows (spacearg a0 a1) := by unfold Lexer.spacearg; repeat' grows1
macro_rules | `(tactic| grows_known) => `(tactic| with_reducible exact Grows.spacearg)
theorem Grows.warnSpaceChar {a0 a1} : Grows (warnSpaceChar a0 a1) := by unfold Lexer.warnSpaceChar; repeat' grows1
macro_rules | `(tactic| grows_known) => `(tactic| with_reducible exact Grows.warnSpaceChar)
theorem Grows.setNumberLiteral {a0 a1 a2} : Grows (setNumberLiteral a0 a1 a2) := by unfold Lexer.setNumberLiteral; repeat' grows1
macro_rules | `(tactic| grows_known) => `(tactic| with_reducible exact Grows.setNumberLiteral)
theorem Grows.setIntegerLiteral {a0 a1} : Grows (setIntegerLiteral a0 a1) := by unfold Lexer.setIntegerLiteral; repeat' grows1
macro_rules | `(tactic| grows_known) => `(tactic| with_reducible exact Grows.setIntegerLiteral)
theorem Grows.invalidOctal : Grows (invalidOctal) := by unfold Lexer.invalidOctal; repeat' grows1
macro_rules | `(tactic| grows_known) => `(tactic| with_reducible exact Grows.invalidOctal)
theorem Grows.trailingUc {a0} : Grows (trailingUc a0) := by unfold Lexer.trailingUc; repeat' grows1
macro_rules | `(tactic| grows_known) => `(tactic| with_reducible exact Grows.trailingUc)
theorem Grows.noDigits : Grows (noDigits) := by unfold Lexer.noDigits; repeat' grows1
macro_rules | `(tactic| grows_known) => `(tactic| with_reducible exact Grows.noDigits)
theorem Grows.suffixLoop {a0} : ∀ {n a2 a3}, Grows (suffixLoop a0 n a2 a3) := by
  intro n
  induction n with
  | zero => intro a2 a3; unfold Lexer.suffixLoop; exact Grows.fail _
  | succ n ih => intro a2 a3; unfold Lexer.suffixLoop; repeat' first | with_reducible exact ih | grows1
macro_rules | `(tactic| grows_known) => `(tactic| with_reducible exact Grows.suffixLoop)
theorem Grows.numberLiteralSuffix {a0} : Grows (numberLiteralSuffix a0) := by unfold Lexer.numberLiteralSuffix; repeat' grows1
macro_rules | `(tactic| grows_known) => `(tactic| with_reducible exact Grows.numberLiteralSuffix)
theorem Grows.parseNumericFooter {a0 a1} : Grows (parseNumericFooter a0 a1) := by unfold Lexer.parseNumericFooter; repeat' grows1
macro_rules | `(tactic| grows_known) => `(tactic| with_reducible exact Grows.parseNumericFooter)
theorem Grows.decodeNum {a0 a1 a2 a3} : Grows (decodeNum a0 a1 a2 a3) := by unfold Lexer.decodeNum; repeat' grows1
macro_rules | `(tactic| grows_known) => `(tactic| with_reducible exact Grows.decodeNum)
theorem Grows.digitLoop {a0} : ∀ {n a2 a3}, Grows (digitLoop a0 n a2 a3) := by
  intro n
  induction n with
  | zero => intro a2 a3; unfold Lexer.digitLoop; exact Grows.fail _
  | succ n ih => intro a2 a3; unfold Lexer.digitLoop; repeat' first | with_reducible exact ih | grows1
macro_rules | `(tactic| grows_known) => `(tactic| with_reducible exact Grows.digitLoop)
theorem Grows.prefixed {a0 a1 a2} : Grows (prefixed a0 a1 a2) := by unfold Lexer.prefixed; repeat' grows1
macro_rules | `(tactic| grows_known) => `(tactic| with_reducible exact Grows.prefixed)
theorem Grows.octalLoop : ∀ {n a1 a2}, Grows (octalLoop n a1 a2) := by
  intro n
  induction n with
  | zero => intro a1 a2; unfold Lexer.octalLoop; exact Grows.fail _
  | succ n ih => intro a1 a2; unfold Lexer.octalLoop; repeat' first | with_reducible exact ih | grows1
macro_rules | `(tactic| grows_known) => `(tactic| with_reducible exact Grows.octalLoop)
theorem Grows.parseOctal {a0 a1 a2} : Grows (parseOctal a0 a1 a2) := by unfold Lexer.parseOctal; repeat' grows1
macro_rules | `(tactic| grows_known) => `(tactic| with_reducible exact Grows.parseOctal)
theorem Grows.numLoop : ∀ {n a1 a2 a3 a4 a5}, Grows (numLoop n a1 a2 a3 a4 a5) := by
  intro n
  induction n with
  | zero => intro a1 a2 a3 a4 a5; unfold Lexer.numLoop; exact Grows.fail _
  | succ n ih => intro a1 a2 a3 a4 a5; unfold Lexer.numLoop; repeat' first | with_reducible exact ih | grows1
macro_rules | `(tactic| grows_known) => `(tactic| with_reducible exact Grows.numLoop)
theorem Grows.afterZero {a0 a1} : Grows (afterZero a0 a1) := by unfold Lexer.afterZero; repeat' grows1
macro_rules | `(tactic| grows_known) => `(tactic| with_reducible exact Grows.afterZero)
theorem Grows.zeroOctal {a0 a1 a2} : Grows (zeroOctal a0 a1 a2) := by unfold Lexer.zeroOctal; repeat' grows1
macro_rules | `(tactic| grows_known) => `(tactic| with_reducible exact Grows.zeroOctal)
theorem Grows.zeroLiteral : Grows (zeroLiteral) := by unfold Lexer.zeroLiteral; repeat' grows1
macro_rules | `(tactic| grows_known) => `(tactic| with_reducible exact Grows.zeroLiteral)
theorem Grows.parseNumeric {a0} : Grows (parseNumeric a0) := by unfold Lexer.parseNumeric; repeat' grows1
macro_rules | `(tactic| grows_known) => `(tactic| with_reducible exact Grows.parseNumeric)
theorem Grows.tokaddmbc {a0} : Grows (tokaddmbc a0) := by unfold Lexer.tokaddmbc; repeat' grows1
macro_rules | `(tactic| grows_known) => `(tactic| with_reducible exact Grows.tokaddmbc)
theorem Grows.utf8Unterminated : Grows (utf8Unterminated) := by unfold Lexer.utf8Unterminated; repeat' grows1
macro_rules | `(tactic| grows_known) => `(tactic| with_reducible exact Grows.utf8Unterminated)
theorem Grows.tokaddCodepoint {a0 a1} : Grows (tokaddCodepoint a0 a1) := by unfold Lexer.tokaddCodepoint; repeat' grows1
macro_rules | `(tactic| grows_known) => `(tactic| with_reducible exact Grows.tokaddCodepoint)
theorem Grows.utf8Skip1 : ∀ {n}, Grows (utf8Skip1 n) := by
  intro n
  induction n with
  | zero => unfold Lexer.utf8Skip1; exact Grows.fail _
  | succ n ih => unfold Lexer.utf8Skip1; repeat' first | with_reducible exact ih | grows1
macro_rules | `(tactic| grows_known) => `(tactic| with_reducible exact Grows.utf8Skip1)
theorem Grows.utf8Skip2 : ∀ {n a1}, Grows (utf8Skip2 n a1) := by
  intro n
  induction n with
  | zero => intro a1; unfold Lexer.utf8Skip2; exact Grows.fail _
  | succ n ih => intro a1; unfold Lexer.utf8Skip2; repeat' first | with_reducible exact ih | grows1
macro_rules | `(tactic| grows_known) => `(tactic| with_reducible exact Grows.utf8Skip2)
theorem Grows.utf8Loop {a0 a1} : ∀ {n a3 a4 a5 a6}, Grows (utf8Loop a0 a1 n a3 a4 a5 a6) := by
  intro n
  induction n with
  | zero => intro a3 a4 a5 a6; unfold Lexer.utf8Loop; exact Grows.fail _
  | succ n ih => intro a3 a4 a5 a6; unfold Lexer.utf8Loop; repeat' first | with_reducible exact ih | grows1
macro_rules | `(tactic| grows_known) => `(tactic| with_reducible exact Grows.utf8Loop)
theorem Grows.tokaddUtf8 {a0 a1} : Grows (tokaddUtf8 a0 a1) := by unfold Lexer.tokaddUtf8; repeat' grows1
macro_rules | `(tactic| grows_known) => `(tactic| with_reducible exact Grows.tokaddUtf8)
theorem Grows.tokHex : Grows (tokHex) := by unfold Lexer.tokHex; repeat' grows1
macro_rules | `(tactic| grows_known) => `(tactic| with_reducible exact Grows.tokHex)
theorem Grows.tokaddEscape : Grows (tokaddEscape) := by unfold Lexer.tokaddEscape; repeat' grows1
macro_rules | `(tactic| grows_known) => `(tactic| with_reducible exact Grows.tokaddEscape)
theorem Grows.readEscapeEof : Grows (readEscapeEof) := by unfold Lexer.readEscapeEof; repeat' grows1
macro_rules | `(tactic| grows_known) => `(tactic| with_reducible exact Grows.readEscapeEof)
theorem Grows.peekU : Grows (peekU) := by unfold Lexer.peekU; repeat' grows1
macro_rules | `(tactic| grows_known) => `(tactic| with_reducible exact Grows.peekU)
theorem Grows.readEscape : ∀ {n a1 a2}, Grows (readEscape n a1 a2) := by
  intro n
  induction n with
  | zero => intro a1 a2; unfold Lexer.readEscape; exact Grows.fail _
  | succ n ih => intro a1 a2; unfold Lexer.readEscape; repeat' first | with_reducible exact ih | grows1
macro_rules | `(tactic| grows_known) => `(tactic| with_reducible exact Grows.readEscape)
theorem Grows.tsEscapeOther {a0 a1 a2 a3 a4} : Grows (tsEscapeOther a0 a1 a2 a3 a4) := by unfold Lexer.tsEscapeOther; repeat' grows1
macro_rules | `(tactic| grows_known) => `(tactic| with_reducible exact Grows.tsEscapeOther)
theorem Grows.tsBackslash {a0 a1 a2 a3} : Grows (tsBackslash a0 a1 a2 a3) := by unfold Lexer.tsBackslash; repeat' grows1
macro_rules | `(tactic| grows_known) => `(tactic| with_reducible exact Grows.tsBackslash)
theorem Grows.tsStep {a0 a1 a2 a3} : Grows (tsStep a0 a1 a2 a3) := by unfold Lexer.tsStep; repeat' grows1
macro_rules | `(tactic| grows_known) => `(tactic| with_reducible exact Grows.tsStep)
theorem Grows.tsLoop {a0 a1 a2} : ∀ {n a4}, Grows (tsLoop a0 a1 a2 n a4) := by
  intro n
  induction n with
  | zero => intro a4; unfold Lexer.tsLoop; exact Grows.fail _
  | succ n ih => intro a4; unfold Lexer.tsLoop; repeat' first | with_reducible exact ih | grows1
macro_rules | `(tactic| grows_known) => `(tactic| with_reducible exact Grows.tsLoop)
theorem Grows.tokaddString {a0 a1 a2 a3} : Grows (tokaddString a0 a1 a2 a3) := by unfold Lexer.tokaddString; repeat' grows1
macro_rules | `(tactic| grows_known) => `(tactic| with_reducible exact Grows.tokaddString)
theorem Grows.peekVariableName : Grows (peekVariableName) := by unfold Lexer.peekVariableName; repeat' grows1
macro_rules | `(tactic| grows_known) => `(tactic| with_reducible exact Grows.peekVariableName)
theorem Grows.regxLoop : ∀ {n a1}, Grows (regxLoop n a1) := by
  intro n
  induction n with
  | zero => intro a1; unfold Lexer.regxLoop; exact Grows.fail _
  | succ n ih => intro a1; unfold Lexer.regxLoop; repeat' first | with_reducible exact ih | grows1
macro_rules | `(tactic| grows_known) => `(tactic| with_reducible exact Grows.regxLoop)
theorem Grows.regxOptions : Grows (regxOptions) := by unfold Lexer.regxOptions; repeat' grows1
macro_rules | `(tactic| grows_known) => `(tactic| with_reducible exact Grows.regxOptions)
theorem Grows.stringTerm {a0 a1} : Grows (stringTerm a0 a1) := by unfold Lexer.stringTerm; repeat' grows1
macro_rules | `(tactic| grows_known) => `(tactic| with_reducible exact Grows.stringTerm)
theorem Grows.skipSpaces : ∀ {n}, Grows (skipSpaces n) := by
  intro n
  induction n with
  | zero => unfold Lexer.skipSpaces; exact Grows.fail _
  | succ n ih => unfold Lexer.skipSpaces; repeat' first | with_reducible exact ih | grows1
macro_rules | `(tactic| grows_known) => `(tactic| with_reducible exact Grows.skipSpaces)
theorem Grows.restoreStrterm {a0} : Grows (restoreStrterm a0) := by unfold Lexer.restoreStrterm; repeat' grows1
macro_rules | `(tactic| grows_known) => `(tactic| with_reducible exact Grows.restoreStrterm)
theorem Grows.stringContent {a0 a1 a2 a3} : Grows (stringContent a0 a1 a2 a3) := by unfold Lexer.stringContent; repeat' grows1
macro_rules | `(tactic| grows_known) => `(tactic| with_reducible exact Grows.stringContent)
theorem Grows.parseString {a0} : Grows (parseString a0) := by unfold Lexer.parseString; repeat' grows1
macro_rules | `(tactic| grows_known) => `(tactic| with_reducible exact Grows.parseString)
theorem Grows.hereQuoteLoop {a0} : ∀ {n}, Grows (hereQuoteLoop a0 n) := by
  intro n
  induction n with
  | zero => unfold Lexer.hereQuoteLoop; exact Grows.fail _
  | succ n ih => unfold Lexer.hereQuoteLoop; repeat' first | with_reducible exact ih | grows1
macro_rules | `(tactic| grows_known) => `(tactic| with_reducible exact Grows.hereQuoteLoop)
theorem Grows.hereIdLoop : ∀ {n}, Grows (hereIdLoop n) := by
  intro n
  induction n with
  | zero => unfold Lexer.hereIdLoop; exact Grows.fail _
  | succ n ih => unfold Lexer.hereIdLoop; repeat' first | with_reducible exact ih | grows1
macro_rules | `(tactic| grows_known) => `(tactic| with_reducible exact Grows.hereIdLoop)
theorem Grows.heredocStart {a0 a1 a2 a3 a4} : Grows (heredocStart a0 a1 a2 a3 a4) := by unfold Lexer.heredocStart; repeat' grows1
macro_rules | `(tactic| grows_known) => `(tactic| with_reducible exact Grows.heredocStart)
theorem Grows.heredocIdentifier : Grows (heredocIdentifier) := by unfold Lexer.heredocIdentifier; repeat' grows1
macro_rules | `(tactic| grows_known) => `(tactic| with_reducible exact Grows.heredocIdentifier)
theorem Grows.computeHeredocEnd : Grows (computeHeredocEnd) := by unfold Lexer.computeHeredocEnd; repeat' grows1
macro_rules | `(tactic| grows_known) => `(tactic| with_reducible exact Grows.computeHeredocEnd)
theorem Grows.heredocRestore {a0} : Grows (heredocRestore a0) := by unfold Lexer.heredocRestore; repeat' grows1
macro_rules | `(tactic| grows_known) => `(tactic| with_reducible exact Grows.heredocRestore)
theorem Grows.hereDocumentError {a0 a1 a2} : Grows (hereDocumentError a0 a1 a2) := by unfold Lexer.hereDocumentError; repeat' grows1
macro_rules | `(tactic| grows_known) => `(tactic| with_reducible exact Grows.hereDocumentError)
theorem Grows.hereDocumentRestore {a0} : Grows (hereDocumentRestore a0) := by unfold Lexer.hereDocumentRestore; repeat' grows1
macro_rules | `(tactic| grows_known) => `(tactic| with_reducible exact Grows.hereDocumentRestore)
theorem Grows.heredocFlushStr {a0} : Grows (heredocFlushStr a0) := by unfold Lexer.heredocFlushStr; repeat' grows1
macro_rules | `(tactic| grows_known) => `(tactic| with_reducible exact Grows.heredocFlushStr)
theorem Grows.heredocFlush : Grows (heredocFlush) := by unfold Lexer.heredocFlush; repeat' grows1
macro_rules | `(tactic| grows_known) => `(tactic| with_reducible exact Grows.heredocFlush)
theorem Grows.atHeredocEnd {a0 a1 a2} : Grows (atHeredocEnd a0 a1 a2) := by unfold Lexer.atHeredocEnd; repeat' grows1
macro_rules | `(tactic| grows_known) => `(tactic| with_reducible exact Grows.atHeredocEnd)
theorem Grows.hereRawLoop {a0 a1 a2 a3} : ∀ {n a5}, Grows (hereRawLoop a0 a1 a2 a3 n a5) := by
  intro n
  induction n with
  | zero => intro a5; unfold Lexer.hereRawLoop; exact Grows.fail _
  | succ n ih => intro a5; unfold Lexer.hereRawLoop; repeat' first | with_reducible exact ih | grows1
macro_rules | `(tactic| grows_known) => `(tactic| with_reducible exact Grows.hereRawLoop)
theorem Grows.hereExpandLoop {a0 a1 a2 a3} : ∀ {n a5}, Grows (hereExpandLoop a0 a1 a2 a3 n a5) := by
  intro n
  induction n with
  | zero => intro a5; unfold Lexer.hereExpandLoop; exact Grows.fail _
  | succ n ih => intro a5; unfold Lexer.hereExpandLoop; repeat' first | with_reducible exact ih | grows1
macro_rules | `(tactic| grows_known) => `(tactic| with_reducible exact Grows.hereExpandLoop)
theorem Grows.hereFinish {a0 a1 a2} : Grows (hereFinish a0 a1 a2) := by unfold Lexer.hereFinish; repeat' grows1
macro_rules | `(tactic| grows_known) => `(tactic| with_reducible exact Grows.hereFinish)
theorem Grows.hereBody {a0 a1 a2 a3 a4} : Grows (hereBody a0 a1 a2 a3 a4) := by unfold Lexer.hereBody; repeat' grows1
macro_rules | `(tactic| grows_known) => `(tactic| with_reducible exact Grows.hereBody)
theorem Grows.hereDocument {a0} : Grows (hereDocument a0) := by unfold Lexer.hereDocument; repeat' grows1
macro_rules | `(tactic| grows_known) => `(tactic| with_reducible exact Grows.hereDocument)
theorem Grows.setterSuffix : Grows (setterSuffix) := by unfold Lexer.setterSuffix; repeat' grows1
macro_rules | `(tactic| grows_known) => `(tactic| with_reducible exact Grows.setterSuffix)
theorem Grows.identSuffix {a0} : Grows (identSuffix a0) := by unfold Lexer.identSuffix; repeat' grows1
macro_rules | `(tactic| grows_known) => `(tactic| with_reducible exact Grows.identSuffix)
theorem Grows.identKeyword {a0} : Grows (identKeyword a0) := by unfold Lexer.identKeyword; repeat' grows1
macro_rules | `(tactic| grows_known) => `(tactic| with_reducible exact Grows.identKeyword)
theorem Grows.identName {a0 a1 a2 a3} : Grows (identName a0 a1 a2 a3) := by unfold Lexer.identName; repeat' grows1
macro_rules | `(tactic| grows_known) => `(tactic| with_reducible exact Grows.identName)
theorem Grows.parseIdent {a0 a1 a2} : Grows (parseIdent a0 a1 a2) := by unfold Lexer.parseIdent; repeat' grows1
macro_rules | `(tactic| grows_known) => `(tactic| with_reducible exact Grows.parseIdent)
theorem Grows.nthLoop : ∀ {n a1}, Grows (nthLoop n a1) := by
  intro n
  induction n with
  | zero => intro a1; unfold Lexer.nthLoop; exact Grows.fail _
  | succ n ih => intro a1; unfold Lexer.nthLoop; repeat' first | with_reducible exact ih | grows1
macro_rules | `(tactic| grows_known) => `(tactic| with_reducible exact Grows.nthLoop)
theorem Grows.gvarName {a0} : Grows (gvarName a0) := by unfold Lexer.gvarName; repeat' grows1
macro_rules | `(tactic| grows_known) => `(tactic| with_reducible exact Grows.gvarName)
theorem Grows.parseGvar {a0} : Grows (parseGvar a0) := by unfold Lexer.parseGvar; repeat' grows1
macro_rules | `(tactic| grows_known) => `(tactic| with_reducible exact Grows.parseGvar)
theorem Grows.parseAtmark {a0} : Grows (parseAtmark a0) := by unfold Lexer.parseAtmark; repeat' grows1
macro_rules | `(tactic| grows_known) => `(tactic| with_reducible exact Grows.parseAtmark)
theorem Grows.qmarkTernary {a0} : Grows (qmarkTernary a0) := by unfold Lexer.qmarkTernary; repeat' grows1
macro_rules | `(tactic| grows_known) => `(tactic| with_reducible exact Grows.qmarkTernary)
theorem Grows.qmarkNameLoop : ∀ {n a1}, Grows (qmarkNameLoop n a1) := by
  intro n
  induction n with
  | zero => intro a1; unfold Lexer.qmarkNameLoop; exact Grows.fail _
  | succ n ih => intro a1; unfold Lexer.qmarkNameLoop; repeat' first | with_reducible exact ih | grows1
macro_rules | `(tactic| grows_known) => `(tactic| with_reducible exact Grows.qmarkNameLoop)
theorem Grows.qmarkChar : Grows (qmarkChar) := by unfold Lexer.qmarkChar; repeat' grows1
macro_rules | `(tactic| grows_known) => `(tactic| with_reducible exact Grows.qmarkChar)
theorem Grows.qmarkName {a0 a1} : Grows (qmarkName a0 a1) := by unfold Lexer.qmarkName; repeat' grows1
macro_rules | `(tactic| grows_known) => `(tactic| with_reducible exact Grows.qmarkName)
theorem Grows.qmarkEscape : Grows (qmarkEscape) := by unfold Lexer.qmarkEscape; repeat' grows1
macro_rules | `(tactic| grows_known) => `(tactic| with_reducible exact Grows.qmarkEscape)
theorem Grows.parseQmark {a0} : Grows (parseQmark a0) := by unfold Lexer.parseQmark; repeat' grows1
macro_rules | `(tactic| grows_known) => `(tactic| with_reducible exact Grows.parseQmark)
theorem Grows.percentUnknown {a0} : Grows (percentUnknown a0) := by unfold Lexer.percentUnknown; repeat' grows1
macro_rules | `(tactic| grows_known) => `(tactic| with_reducible exact Grows.percentUnknown)
theorem Grows.percentUnterminated : Grows (percentUnterminated) := by unfold Lexer.percentUnterminated; repeat' grows1
macro_rules | `(tactic| grows_known) => `(tactic| with_reducible exact Grows.percentUnterminated)
theorem Grows.percentOpen {a0 a1 a2} : Grows (percentOpen a0 a1 a2) := by unfold Lexer.percentOpen; repeat' grows1
macro_rules | `(tactic| grows_known) => `(tactic| with_reducible exact Grows.percentOpen)
theorem Grows.percentQuotation {a0 a1} : Grows (percentQuotation a0 a1) := by unfold Lexer.percentQuotation; repeat' grows1
macro_rules | `(tactic| grows_known) => `(tactic| with_reducible exact Grows.percentQuotation)
theorem Grows.parsePercent {a0 a1} : Grows (parsePercent a0 a1) := by unfold Lexer.parsePercent; repeat' grows1
macro_rules | `(tactic| grows_known) => `(tactic| with_reducible exact Grows.parsePercent)
theorem Grows.mcRecord {a b c d} : ∀ {l}, Grows (mcRecord a b c d l) := by
  intro l
  induction l with
  | nil => exact Grows.pure _
  | cons h t ih => obtain ⟨h1, h2⟩ := h; unfold Lexer.mcRecord; repeat' first | with_reducible exact ih | grows1
macro_rules | `(tactic| grows_known) => `(tactic| with_reducible exact Grows.mcRecord)
theorem Grows.mcLoop {a0 a1} : ∀ {n a3 a4}, Grows (mcLoop a0 a1 n a3 a4) := by
  intro n
  induction n with
  | zero => intro a3 a4; unfold Lexer.mcLoop; exact Grows.fail _
  | succ n ih => intro a3 a4; unfold Lexer.mcLoop; repeat' first | with_reducible exact ih | grows1
macro_rules | `(tactic| grows_known) => `(tactic| with_reducible exact Grows.mcLoop)
theorem Grows.magicComment {a0 a1 a2} : Grows (magicComment a0 a1 a2) := by unfold Lexer.magicComment; repeat' grows1
macro_rules | `(tactic| grows_known) => `(tactic| with_reducible exact Grows.magicComment)
theorem Grows.done {a0} : Grows (done a0) := by unfold Lexer.done; repeat' grows1
macro_rules | `(tactic| grows_known) => `(tactic| with_reducible exact Grows.done)
theorem Grows.opAsgn {a0} : Grows (opAsgn a0) := by unfold Lexer.opAsgn; repeat' grows1
macro_rules | `(tactic| grows_known) => `(tactic| with_reducible exact Grows.opAsgn)
theorem Grows.liftBuf {f} : Grows (newlineLoop.liftBuf f) := Grows.buf' (f := f) fun _ => rfl
macro_rules | `(tactic| grows_known) => `(tactic| with_reducible exact Grows.liftBuf)
theorem Grows.newlineLoop : ∀ {n a1}, Grows (newlineLoop n a1) := by
  intro n
  induction n with
  | zero => intro a1; unfold Lexer.newlineLoop; exact Grows.fail _
  | succ n ih => intro a1; unfold Lexer.newlineLoop; repeat' first | with_reducible exact ih | grows1
macro_rules | `(tactic| grows_known) => `(tactic| with_reducible exact Grows.newlineLoop)
theorem Grows.lexNewline {a0 a1} : Grows (lexNewline a0 a1) := by unfold Lexer.lexNewline; repeat' grows1
macro_rules | `(tactic| grows_known) => `(tactic| with_reducible exact Grows.lexNewline)
theorem Grows.pushComment {a0} : Grows (pushComment a0) := by unfold Lexer.pushComment; repeat' grows1
macro_rules | `(tactic| grows_known) => `(tactic| with_reducible exact Grows.pushComment)
theorem Grows.lexComment {a0 a1 a2} : Grows (lexComment a0 a1 a2) := by unfold Lexer.lexComment; repeat' grows1
macro_rules | `(tactic| grows_known) => `(tactic| with_reducible exact Grows.lexComment)
theorem Grows.lexStar {a0 a1} : Grows (lexStar a0 a1) := by unfold Lexer.lexStar; repeat' grows1
macro_rules | `(tactic| grows_known) => `(tactic| with_reducible exact Grows.lexStar)
theorem Grows.lexBang : Grows (lexBang) := by unfold Lexer.lexBang; repeat' grows1
macro_rules | `(tactic| grows_known) => `(tactic| with_reducible exact Grows.lexBang)
theorem Grows.embdocLoop {a0} : ∀ {n}, Grows (embdocLoop a0 n) := by
  intro n
  induction n with
  | zero => unfold Lexer.embdocLoop; exact Grows.fail _
  | succ n ih => unfold Lexer.embdocLoop; repeat' first | with_reducible exact ih | grows1
macro_rules | `(tactic| grows_known) => `(tactic| with_reducible exact Grows.embdocLoop)
theorem Grows.lexEqOp : Grows (lexEqOp) := by unfold Lexer.lexEqOp; repeat' grows1
macro_rules | `(tactic| grows_known) => `(tactic| with_reducible exact Grows.lexEqOp)
theorem Grows.lexEq {a0} : Grows (lexEq a0) := by unfold Lexer.lexEq; repeat' grows1
macro_rules | `(tactic| grows_known) => `(tactic| with_reducible exact Grows.lexEq)
theorem Grows.lexLtOp {a0 a1 a2} : Grows (lexLtOp a0 a1 a2) := by unfold Lexer.lexLtOp; repeat' grows1
macro_rules | `(tactic| grows_known) => `(tactic| with_reducible exact Grows.lexLtOp)
theorem Grows.lexLt {a0 a1} : Grows (lexLt a0 a1) := by unfold Lexer.lexLt; repeat' grows1
macro_rules | `(tactic| grows_known) => `(tactic| with_reducible exact Grows.lexLt)
theorem Grows.lexGt : Grows (lexGt) := by unfold Lexer.lexGt; repeat' grows1
macro_rules | `(tactic| grows_known) => `(tactic| with_reducible exact Grows.lexGt)
theorem Grows.lexQuote {a0 a1 a2} : Grows (lexQuote a0 a1 a2) := by unfold Lexer.lexQuote; repeat' grows1
macro_rules | `(tactic| grows_known) => `(tactic| with_reducible exact Grows.lexQuote)
theorem Grows.lexBacktick {a0} : Grows (lexBacktick a0) := by unfold Lexer.lexBacktick; repeat' grows1
macro_rules | `(tactic| grows_known) => `(tactic| with_reducible exact Grows.lexBacktick)
theorem Grows.lexAmp {a0 a1} : Grows (lexAmp a0 a1) := by unfold Lexer.lexAmp; repeat' grows1
macro_rules | `(tactic| grows_known) => `(tactic| with_reducible exact Grows.lexAmp)
theorem Grows.lexPipe {a0} : Grows (lexPipe a0) := by unfold Lexer.lexPipe; repeat' grows1
macro_rules | `(tactic| grows_known) => `(tactic| with_reducible exact Grows.lexPipe)
theorem Grows.unaryHere {a0 a1 a2} : Grows (unaryHere a0 a1 a2) := by unfold Lexer.unaryHere; repeat' grows1
macro_rules | `(tactic| grows_known) => `(tactic| with_reducible exact Grows.unaryHere)
theorem Grows.lexPlus {a0 a1} : Grows (lexPlus a0 a1) := by unfold Lexer.lexPlus; repeat' grows1
macro_rules | `(tactic| grows_known) => `(tactic| with_reducible exact Grows.lexPlus)
theorem Grows.lexMinus {a0 a1} : Grows (lexMinus a0 a1) := by unfold Lexer.lexMinus; repeat' grows1
macro_rules | `(tactic| grows_known) => `(tactic| with_reducible exact Grows.lexMinus)
theorem Grows.lexDot3 {a0 a1} : Grows (lexDot3 a0 a1) := by unfold Lexer.lexDot3; repeat' grows1
macro_rules | `(tactic| grows_known) => `(tactic| with_reducible exact Grows.lexDot3)
theorem Grows.lexDotDigit {a0} : Grows (lexDotDigit a0) := by unfold Lexer.lexDotDigit; repeat' grows1
macro_rules | `(tactic| grows_known) => `(tactic| with_reducible exact Grows.lexDotDigit)
theorem Grows.lexDot {a0 a1} : Grows (lexDot a0 a1) := by unfold Lexer.lexDot; repeat' grows1
macro_rules | `(tactic| grows_known) => `(tactic| with_reducible exact Grows.lexDot)
theorem Grows.lexClose {a0 a1} : Grows (lexClose a0 a1) := by unfold Lexer.lexClose; repeat' grows1
macro_rules | `(tactic| grows_known) => `(tactic| with_reducible exact Grows.lexClose)
theorem Grows.lexRcurly : Grows (lexRcurly) := by unfold Lexer.lexRcurly; repeat' grows1
macro_rules | `(tactic| grows_known) => `(tactic| with_reducible exact Grows.lexRcurly)
theorem Grows.lexColon {a0 a1} : Grows (lexColon a0 a1) := by unfold Lexer.lexColon; repeat' grows1
macro_rules | `(tactic| grows_known) => `(tactic| with_reducible exact Grows.lexColon)
theorem Grows.lexSlash {a0 a1} : Grows (lexSlash a0 a1) := by unfold Lexer.lexSlash; repeat' grows1
macro_rules | `(tactic| grows_known) => `(tactic| with_reducible exact Grows.lexSlash)
theorem Grows.lexCaret : Grows (lexCaret) := by unfold Lexer.lexCaret; repeat' grows1
macro_rules | `(tactic| grows_known) => `(tactic| with_reducible exact Grows.lexCaret)
theorem Grows.lexSemi : Grows (lexSemi) := by unfold Lexer.lexSemi; repeat' grows1
macro_rules | `(tactic| grows_known) => `(tactic| with_reducible exact Grows.lexSemi)
theorem Grows.lexComma : Grows (lexComma) := by unfold Lexer.lexComma; repeat' grows1
macro_rules | `(tactic| grows_known) => `(tactic| with_reducible exact Grows.lexComma)
theorem Grows.lexTilde : Grows (lexTilde) := by unfold Lexer.lexTilde; repeat' grows1
macro_rules | `(tactic| grows_known) => `(tactic| with_reducible exact Grows.lexTilde)
theorem Grows.openNest : Grows (openNest) := by unfold Lexer.openNest; repeat' grows1
macro_rules | `(tactic| grows_known) => `(tactic| with_reducible exact Grows.openNest)
theorem Grows.lexLparen {a0} : Grows (lexLparen a0) := by unfold Lexer.lexLparen; repeat' grows1
macro_rules | `(tactic| grows_known) => `(tactic| with_reducible exact Grows.lexLparen)
theorem Grows.lexLbrack {a0} : Grows (lexLbrack a0) := by unfold Lexer.lexLbrack; repeat' grows1
macro_rules | `(tactic| grows_known) => `(tactic| with_reducible exact Grows.lexLbrack)
theorem Grows.lexLcurly : Grows (lexLcurly) := by unfold Lexer.lexLcurly; repeat' grows1
macro_rules | `(tactic| grows_known) => `(tactic| with_reducible exact Grows.lexLcurly)
theorem Grows.lexBackslash : Grows (lexBackslash) := by unfold Lexer.lexBackslash; repeat' grows1
macro_rules | `(tactic| grows_known) => `(tactic| with_reducible exact Grows.lexBackslash)
theorem Grows.lexUnderscore : Grows (lexUnderscore) := by unfold Lexer.lexUnderscore; repeat' grows1
macro_rules | `(tactic| grows_known) => `(tactic| with_reducible exact Grows.lexUnderscore)
theorem Grows.lexOther {a0 a1} : Grows (lexOther a0 a1) := by unfold Lexer.lexOther; repeat' grows1
macro_rules | `(tactic| grows_known) => `(tactic| with_reducible exact Grows.lexOther)
theorem Grows.lexCr : Grows (lexCr) := by unfold Lexer.lexCr; repeat' grows1
macro_rules | `(tactic| grows_known) => `(tactic| with_reducible exact Grows.lexCr)
theorem Grows.dispatch {a0 a1 a2 a3 a4 a5} : Grows (dispatch a0 a1 a2 a3 a4 a5) := by unfold Lexer.dispatch; repeat' grows1
macro_rules | `(tactic| grows_known) => `(tactic| with_reducible exact Grows.dispatch)
theorem Grows.yylexLoop {a0 a1 a2} : ∀ {n a4}, Grows (yylexLoop a0 a1 a2 n a4) := by
  intro n
  induction n with
  | zero => intro a4; unfold Lexer.yylexLoop; exact Grows.fail _
  | succ n ih => intro a4; unfold Lexer.yylexLoop; repeat' first | with_reducible exact ih | grows1
macro_rules | `(tactic| grows_known) => `(tactic| with_reducible exact Grows.yylexLoop)
theorem Grows.parserYylex {a0} : Grows (parserYylex a0) := by unfold Lexer.parserYylex; repeat' grows1
macro_rules | `(tactic| grows_known) => `(tactic| with_reducible exact Grows.parserYylex)
theorem Grows.yylex {a0} : Grows (yylex a0) := by unfold Lexer.yylex; repeat' grows1
macro_rules | `(tactic| grows_known) => `(tactic| with_reducible exact Grows.yylex)
theorem Grows.tokenizeUntilEof {a0} : ∀ {n}, Grows (tokenizeUntilEof a0 n) := by
  intro n
  induction n with
  | zero => unfold Lexer.tokenizeUntilEof; exact Grows.fail _
  | succ n ih => unfold Lexer.tokenizeUntilEof; repeat' first | with_reducible exact ih | grows1
macro_rules | `(tactic| grows_known) => `(tactic| with_reducible exact Grows.tokenizeUntilEof)

end Verif.Lexer
