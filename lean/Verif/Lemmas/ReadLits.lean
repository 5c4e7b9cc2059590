import Verif.Lemmas.LexLiteral
import Verif.Lemmas.LexRet
/-! No literal is both a regular expression and a list of words. -/
namespace Verif.Lexer
section
variable {α β : Type}

/-- Not both a regular expression and a list of words. -/
def FOk (f : Nat) : Prop := hasF f STR_FUNC_REGEXP = false ∨ hasF f STR_FUNC_QWORDS = false
/-- The same for a literal. -/
def TermOk : StrTerm → Prop
  | .string l => FOk l.func
  | .heredoc h => FOk h.func
/-- The same for the literal that is being read. -/
def LitOk (s : Lexer) : Prop := ∀ t, s.strterm = some t → TermOk t

theorem hasF_regexp (f : Nat) : hasF f STR_FUNC_REGEXP = f.testBit 2 := hasF_two_pow f 2
theorem hasF_qwords (f : Nat) : hasF f STR_FUNC_QWORDS = f.testBit 3 := hasF_two_pow f 3
theorem FOk.or {f g : Nat} (h : FOk f) (h2 : hasF g STR_FUNC_REGEXP = false) (h3 : hasF g STR_FUNC_QWORDS = false) : FOk (f ||| g) := by
  unfold FOk at *
  simp only [hasF_regexp, hasF_qwords, Nat.testBit_or] at *
  simp only [h2, h3, Bool.or_false]; exact h
theorem FOk.term {f : Nat} (h : FOk f) : FOk (f ||| STR_FUNC_TERM) := h.or (by decide) (by decide)
theorem FOk.xorList {f : Nat} (h : FOk f) : FOk (f ^^^ STR_FUNC_LIST) := by
  have e1 : Nat.testBit STR_FUNC_LIST 2 = false := by decide
  have e2 : Nat.testBit STR_FUNC_LIST 3 = false := by decide
  unfold FOk at *
  simp only [hasF_regexp, hasF_qwords, Nat.testBit_xor, e1, e2, Bool.xor_false] at *
  exact h

/-- `x` leaves such a literal. -/
def Lits (x : LexM α) : Prop := ∀ s a s', x s = .ok (a, s') → LitOk s → LitOk s'

theorem Lits.pure (a : α) : Lits (Pure.pure a : LexM α) := by
  intro s b s' h
  cases h; exact id
theorem Lits.bind {x : LexM β} {f : β → LexM α} (h : Lits x) (h' : ∀ b, Lits (f b)) : Lits (x >>= f) := by
  intro s a s' e
  change StateT.bind x f s = _ at e
  simp only [StateT.bind, Bind.bind, Except.bind] at e
  cases hx : x s with
  | error p => rw [hx] at e; simp at e
  | ok r =>
    rw [hx] at e
    obtain ⟨b, s1⟩ := r
    exact fun hs => h' b s1 a s' e (h s b s1 hx hs)
theorem Lits.bindR {P : β → Prop} {x : LexM β} {f : β → LexM α} (h : Lits x) (hr : Ret P x) (h' : ∀ b, P b → Lits (f b)) : Lits (x >>= f) := by
  intro s a s' e
  change StateT.bind x f s = _ at e
  simp only [StateT.bind, Bind.bind, Except.bind] at e
  cases hx : x s with
  | error p => rw [hx] at e; simp at e
  | ok r =>
    rw [hx] at e
    obtain ⟨b, s1⟩ := r
    exact fun hs => h' b (hr s b s1 hx) s1 a s' e (h s b s1 hx hs)
theorem Lits.bindPure {b : β} {f : β → LexM α} (h' : Lits (f b)) : Lits (Pure.pure b >>= f) := h'
theorem Lits.map {x : LexM β} {f : β → α} (h : Lits x) : Lits (f <$> x) := by
  intro s a s' e
  change StateT.map f x s = _ at e
  simp only [StateT.map, Bind.bind, Except.bind] at e
  cases hx : x s with
  | error p => rw [hx] at e; simp at e
  | ok r =>
    rw [hx] at e
    obtain ⟨b, s1⟩ := r
    cases e
    exact h s b s1 hx
theorem Lits.ite {c : Prop} [Decidable c] {x y : LexM α} (h1 : Lits x) (h2 : Lits y) : Lits (if c then x else y) := by
  split <;> assumption
theorem Lits.fail (p : Panic) : Lits (fail p : LexM α) := by intro s a s' e; simp [Lexer.fail] at e
theorem Lits.getS (f : Lexer → α) : Lits (getS f) := by intro s a s' e; cases e; exact id
theorem Lits.getB (f : Buffer → α) : Lits (getB f) := by intro s a s' e; cases e; exact id
theorem Lits.modB (f : Buffer → Buffer) : Lits (modB f) := by
  intro s a s' e; cases e; exact id
theorem Lits.modS {f : Lexer → Lexer} (h : ∀ s, LitOk s → LitOk (f s)) : Lits (modS f) := by intro s a s' e; cases e; exact h s
theorem Lits.liftB (f : Buffer → Res α) : Lits (liftB f) := by
  intro s a s' e
  simp only [Lexer.liftB, Bind.bind, Except.bind, Pure.pure, Except.pure] at e
  cases hf : f s.buffer with
  | error p => rw [hf] at e; simp at e
  | ok r => rw [hf] at e; cases e; exact id
end

theorem LitOk.none {s : Lexer} (h : s.strterm = none) : LitOk s := by intro t e; rw [h] at e; cases e
theorem LitOk.some {s : Lexer} {t : StrTerm} (h : s.strterm = some t) (ht : TermOk t) : LitOk s := by
  intro t' e; rw [h] at e; cases e; exact ht

theorem Lits.buf {α : Type} {f : Buffer → Res (α × Buffer)} {x : LexM α} (hx : ∀ s, x s = (do let r ← f s.buffer; return (r.1, { s with buffer := r.2 }))) :
    Lits x := by
  intro s a s' e
  rw [hx] at e
  simp only [Bind.bind, Except.bind, Pure.pure, Except.pure] at e
  cases hf : f s.buffer with
  | error p => rw [hf] at e; simp at e
  | ok r => rw [hf] at e; cases e; exact id
theorem Lits.buf' {f : Buffer → Res Buffer} {x : LexM Unit} (hx : ∀ s, x s = (do let r ← f s.buffer; return ((), { s with buffer := r }))) :
    Lits x := by
  intro s a s' e
  rw [hx] at e
  simp only [Bind.bind, Except.bind, Pure.pure, Except.pure] at e
  cases hf : f s.buffer with
  | error p => rw [hf] at e; simp at e
  | ok r => rw [hf] at e; cases e; exact id
theorem Lits.nextc : Lits nextc := Lits.buf (f := (·.nextc)) fun _ => rfl
theorem Lits.pushback (c) : Lits (pushback c) := Lits.buf' (f := (·.pushback c)) fun _ => rfl
theorem Lits.pushbackByte : Lits pushbackByte := Lits.buf' (f := (·.pushbackByte)) fun _ => rfl
theorem Lits.emit {a b c} : Lits (emit a b c) := by
  intro s r s' e; cases e; exact id

/-- Known functions. -/
syntax "lits_known" : tactic
macro_rules | `(tactic| lits_known) => `(tactic| with_reducible exact Lits.emit)

/-- The kinds of literals there are. -/
macro "fok_tac" : tactic => `(tactic| first
  | assumption
  | (unfold FOk; decide)
  | exact FOk.term (by assumption)
  | exact FOk.xorList (by assumption)
  | exact FOk.term (FOk.xorList (by assumption)))

/-- One step. -/
macro "lits1" : tactic => `(tactic| first
  | with_reducible exact Lits.pure _
  | with_reducible exact Lits.fail _
  | with_reducible refine Lits.bind ?_ (fun _ => ?_)
  | with_reducible refine Lits.map ?_
  | with_reducible refine Lits.ite ?_ ?_
  | with_reducible exact Lits.getS _
  | with_reducible exact Lits.getB _
  | with_reducible exact Lits.modB _
  | with_reducible exact Lits.liftB _
  | with_reducible exact Lits.nextc
  | with_reducible exact Lits.pushback _
  | with_reducible exact Lits.pushbackByte
  | ((with_reducible refine Lits.modS ?_); intro s; first
      | exact id
      | exact fun _ => LitOk.none rfl
      | exact fun _ => LitOk.some rfl (by assumption)
      | (split <;> exact id))
  | with_reducible assumption
  | lits_known
  | split
  | dsimp only
  | fail "lits")

theorem Lits.fuel : Lits (fuel) := by unfold Lexer.fuel; repeat' lits1
macro_rules | `(tactic| lits_known) => `(tactic| with_reducible exact Lits.fuel)
theorem Lits.charAt {a0} : Lits (charAt a0) := by unfold Lexer.charAt; repeat' lits1
macro_rules | `(tactic| lits_known) => `(tactic| with_reducible exact Lits.charAt)
theorem Lits.pcur : Lits (pcur) := by unfold Lexer.pcur; repeat' lits1
macro_rules | `(tactic| lits_known) => `(tactic| with_reducible exact Lits.pcur)
theorem Lits.pcurSub {a0} : Lits (pcurSub a0) := by unfold Lexer.pcurSub; repeat' lits1
macro_rules | `(tactic| lits_known) => `(tactic| with_reducible exact Lits.pcurSub)
theorem Lits.peek {a0} : Lits (peek a0) := by unfold Lexer.peek; repeat' lits1
macro_rules | `(tactic| lits_known) => `(tactic| with_reducible exact Lits.peek)
theorem Lits.tokenFlush : Lits (tokenFlush) := by unfold Lexer.tokenFlush; repeat' lits1
macro_rules | `(tactic| lits_known) => `(tactic| with_reducible exact Lits.tokenFlush)
theorem Lits.setPtok {a0} : Lits (setPtok a0) := by unfold Lexer.setPtok; repeat' lits1
macro_rules | `(tactic| lits_known) => `(tactic| with_reducible exact Lits.setPtok)
theorem Lits.gotoEol : Lits (gotoEol) := by unfold Lexer.gotoEol; repeat' lits1
macro_rules | `(tactic| lits_known) => `(tactic| with_reducible exact Lits.gotoEol)
theorem Lits.getState : Lits (getState) := by unfold Lexer.getState; repeat' lits1
macro_rules | `(tactic| lits_known) => `(tactic| with_reducible exact Lits.getState)
theorem Lits.setState {a0} : Lits (setState a0) := by unfold Lexer.setState; repeat' lits1
macro_rules | `(tactic| lits_known) => `(tactic| with_reducible exact Lits.setState)
theorem Lits.setLval {a0} : Lits (setLval a0) := by unfold Lexer.setLval; repeat' lits1
macro_rules | `(tactic| lits_known) => `(tactic| with_reducible exact Lits.setLval)
theorem Lits.setYylvalName : Lits (setYylvalName) := by unfold Lexer.setYylvalName; repeat' lits1
macro_rules | `(tactic| lits_known) => `(tactic| with_reducible exact Lits.setYylvalName)
theorem Lits.tokadd {a0} : Lits (tokadd a0) := by unfold Lexer.tokadd; repeat' lits1
macro_rules | `(tactic| lits_known) => `(tactic| with_reducible exact Lits.tokadd)
theorem Lits.tokaddMB {a0} : Lits (tokaddMB a0) := by unfold Lexer.tokaddMB; repeat' lits1
macro_rules | `(tactic| lits_known) => `(tactic| with_reducible exact Lits.tokaddMB)
theorem Lits.warn {a0 a1} : Lits (warn a0 a1) := by unfold Lexer.warn; repeat' lits1
macro_rules | `(tactic| lits_known) => `(tactic| with_reducible exact Lits.warn)
theorem Lits.compileError {a0 a1} : Lits (compileError a0 a1) := by unfold Lexer.compileError; repeat' lits1
macro_rules | `(tactic| lits_known) => `(tactic| with_reducible exact Lits.compileError)
theorem Lits.currentLoc : Lits (currentLoc) := by unfold Lexer.currentLoc; repeat' lits1
macro_rules | `(tactic| lits_known) => `(tactic| with_reducible exact Lits.currentLoc)
theorem Lits.currentLocShort : Lits (currentLocShort) := by unfold Lexer.currentLocShort; repeat' lits1
macro_rules | `(tactic| lits_known) => `(tactic| with_reducible exact Lits.currentLocShort)
theorem Lits.yyerror0 {a0} : Lits (yyerror0 a0) := by unfold Lexer.yyerror0; repeat' lits1
macro_rules | `(tactic| lits_known) => `(tactic| with_reducible exact Lits.yyerror0)
theorem Lits.newStrterm {a0 a1 a2 a3} (h : FOk a0) : Lits (newStrterm a0 a1 a2 a3) := by
  unfold Lexer.newStrterm; exact Lits.modS fun s _ => LitOk.some rfl h
macro_rules | `(tactic| lits_known) => `(tactic| (with_reducible refine Lits.newStrterm ?_; fok_tac))
theorem Lits.warnBalanced {a0 a1 a2 a3 a4 a5} : Lits (warnBalanced a0 a1 a2 a3 a4 a5) := by unfold Lexer.warnBalanced; repeat' lits1
macro_rules | `(tactic| lits_known) => `(tactic| with_reducible exact Lits.warnBalanced)
theorem Lits.argAmbiguous {a0 a1} : Lits (argAmbiguous a0 a1) := by unfold Lexer.argAmbiguous; repeat' lits1
macro_rules | `(tactic| lits_known) => `(tactic| with_reducible exact Lits.argAmbiguous)
theorem Lits.toklen : Lits (toklen) := by unfold Lexer.toklen; repeat' lits1
macro_rules | `(tactic| lits_known) => `(tactic| with_reducible exact Lits.toklen)
theorem Lits.isLambdaBeginning : Lits (isLambdaBeginning) := by unfold Lexer.isLambdaBeginning; repeat' lits1
macro_rules | `(tactic| lits_known) => `(tactic| with_reducible exact Lits.isLambdaBeginning)
theorem Lits.newtok : Lits (newtok) := by unfold Lexer.newtok; repeat' lits1
macro_rules | `(tactic| lits_known) => `(tactic| with_reducible exact Lits.newtok)
theorem Lits.takeTok : Lits takeTok := by
  intro s r s' e; cases e; exact id
macro_rules | `(tactic| lits_known) => `(tactic| with_reducible exact Lits.takeTok)
theorem Lits.isIdentchar : Lits (isIdentchar) := by unfold Lexer.isIdentchar; repeat' lits1
macro_rules | `(tactic| lits_known) => `(tactic| with_reducible exact Lits.isIdentchar)
theorem Lits.isAsciiPrev : Lits (isAsciiPrev) := by unfold Lexer.isAsciiPrev; repeat' lits1
macro_rules | `(tactic| lits_known) => `(tactic| with_reducible exact Lits.isAsciiPrev)
theorem Lits.multibyteCharLen {a0} : Lits (multibyteCharLen a0) := by unfold Lexer.multibyteCharLen; repeat' lits1
macro_rules | `(tactic| lits_known) => `(tactic| with_reducible exact Lits.multibyteCharLen)
theorem Lits.tokcopy {a0} : Lits (tokcopy a0) := by unfold Lexer.tokcopy; repeat' lits1
macro_rules | `(tactic| lits_known) => `(tactic| with_reducible exact Lits.tokcopy)
theorem Lits.tokaddMbchar {a0} : Lits (tokaddMbchar a0) := by unfold Lexer.tokaddMbchar; repeat' lits1
macro_rules | `(tactic| lits_known) => `(tactic| with_reducible exact Lits.tokaddMbchar)
theorem Lits.identLoop : ∀ {n a1}, Lits (identLoop n a1) := by
  intro n
  induction n with
  | zero => intro a1; unfold Lexer.identLoop; exact Lits.fail _
  | succ n ih => intro a1; unfold Lexer.identLoop; repeat' first | with_reducible exact ih | lits1
macro_rules | `(tactic| lits_known) => `(tactic| with_reducible exact Lits.identLoop)
theorem Lits.tokaddIdent {a0} : Lits (tokaddIdent a0) := by unfold Lexer.tokaddIdent; repeat' lits1
macro_rules | `(tactic| lits_known) => `(tactic| with_reducible exact Lits.tokaddIdent)
theorem Lits.isLabelSuffix {a0} : Lits (isLabelSuffix a0) := by unfold Lexer.isLabelSuffix; repeat' lits1
macro_rules | `(tactic| lits_known) => `(tactic| with_reducible exact Lits.isLabelSuffix)
theorem Lits.isLvarDefined {a0} : Lits (isLvarDefined a0) := by unfold Lexer.isLvarDefined; repeat' lits1
macro_rules | `(tactic| lits_known) => `(tactic| with_reducible exact Lits.isLvarDefined)
theorem Lits.normalNewline : Lits (normalNewline) := by unfold Lexer.normalNewline; repeat' lits1
macro_rules | `(tactic| lits_known) => `(tactic| with_reducible exact Lits.normalNewline)
theorem Lits.setStateAfterOp {a0} : Lits (setStateAfterOp a0) := by unfold Lexer.setStateAfterOp; repeat' lits1
macro_rules | `(tactic| lits_known) => `(tactic| with_reducible exact Lits.setStateAfterOp)
theorem Lits.spacearg {a0 a1} : Lits (spacearg a0 a1) := by unfold Lexer.spacearg; repeat' lits1
macro_rules | `(tactic| lits_known) => `(tactic| with_reducible exact Lits.spacearg)
theorem Lits.warnSpaceChar {a0 a1} : Lits (warnSpaceChar a0 a1) := by unfold Lexer.warnSpaceChar; repeat' lits1
macro_rules | `(tactic| lits_known) => `(tactic| with_reducible exact Lits.warnSpaceChar)
theorem Lits.setNumberLiteral {a0 a1 a2} : Lits (setNumberLiteral a0 a1 a2) := by unfold Lexer.setNumberLiteral; repeat' lits1
macro_rules | `(tactic| lits_known) => `(tactic| with_reducible exact Lits.setNumberLiteral)
theorem Lits.setIntegerLiteral {a0 a1} : Lits (setIntegerLiteral a0 a1) := by unfold Lexer.setIntegerLiteral; repeat' lits1
macro_rules | `(tactic| lits_known) => `(tactic| with_reducible exact Lits.setIntegerLiteral)
theorem Lits.invalidOctal : Lits (invalidOctal) := by unfold Lexer.invalidOctal; repeat' lits1
macro_rules | `(tactic| lits_known) => `(tactic| with_reducible exact Lits.invalidOctal)
theorem Lits.trailingUc {a0} : Lits (trailingUc a0) := by unfold Lexer.trailingUc; repeat' lits1
macro_rules | `(tactic| lits_known) => `(tactic| with_reducible exact Lits.trailingUc)
theorem Lits.noDigits : Lits (noDigits) := by unfold Lexer.noDigits; repeat' lits1
macro_rules | `(tactic| lits_known) => `(tactic| with_reducible exact Lits.noDigits)
theorem Lits.suffixLoop {a0} : ∀ {n a2 a3}, Lits (suffixLoop a0 n a2 a3) := by
  intro n
  induction n with
  | zero => intro a2 a3; unfold Lexer.suffixLoop; exact Lits.fail _
  | succ n ih => intro a2 a3; unfold Lexer.suffixLoop; repeat' first | with_reducible exact ih | lits1
macro_rules | `(tactic| lits_known) => `(tactic| with_reducible exact Lits.suffixLoop)
theorem Lits.numberLiteralSuffix {a0} : Lits (numberLiteralSuffix a0) := by unfold Lexer.numberLiteralSuffix; repeat' lits1
macro_rules | `(tactic| lits_known) => `(tactic| with_reducible exact Lits.numberLiteralSuffix)
theorem Lits.parseNumericFooter {a0 a1} : Lits (parseNumericFooter a0 a1) := by unfold Lexer.parseNumericFooter; repeat' lits1
macro_rules | `(tactic| lits_known) => `(tactic| with_reducible exact Lits.parseNumericFooter)
theorem Lits.decodeNum {a0 a1 a2 a3} : Lits (decodeNum a0 a1 a2 a3) := by unfold Lexer.decodeNum; repeat' lits1
macro_rules | `(tactic| lits_known) => `(tactic| with_reducible exact Lits.decodeNum)
theorem Lits.digitLoop {a0} : ∀ {n a2 a3}, Lits (digitLoop a0 n a2 a3) := by
  intro n
  induction n with
  | zero => intro a2 a3; unfold Lexer.digitLoop; exact Lits.fail _
  | succ n ih => intro a2 a3; unfold Lexer.digitLoop; repeat' first | with_reducible exact ih | lits1
macro_rules | `(tactic| lits_known) => `(tactic| with_reducible exact Lits.digitLoop)
theorem Lits.prefixed {a0 a1 a2} : Lits (prefixed a0 a1 a2) := by unfold Lexer.prefixed; repeat' lits1
macro_rules | `(tactic| lits_known) => `(tactic| with_reducible exact Lits.prefixed)
theorem Lits.octalLoop : ∀ {n a1 a2}, Lits (octalLoop n a1 a2) := by
  intro n
  induction n with
  | zero => intro a1 a2; unfold Lexer.octalLoop; exact Lits.fail _
  | succ n ih => intro a1 a2; unfold Lexer.octalLoop; repeat' first | with_reducible exact ih | lits1
macro_rules | `(tactic| lits_known) => `(tactic| with_reducible exact Lits.octalLoop)
theorem Lits.parseOctal {a0 a1 a2} : Lits (parseOctal a0 a1 a2) := by unfold Lexer.parseOctal; repeat' lits1
macro_rules | `(tactic| lits_known) => `(tactic| with_reducible exact Lits.parseOctal)
theorem Lits.numLoop : ∀ {n a1 a2 a3 a4 a5}, Lits (numLoop n a1 a2 a3 a4 a5) := by
  intro n
  induction n with
  | zero => intro a1 a2 a3 a4 a5; unfold Lexer.numLoop; exact Lits.fail _
  | succ n ih => intro a1 a2 a3 a4 a5; unfold Lexer.numLoop; repeat' first | with_reducible exact ih | lits1
macro_rules | `(tactic| lits_known) => `(tactic| with_reducible exact Lits.numLoop)
theorem Lits.afterZero {a0 a1} : Lits (afterZero a0 a1) := by unfold Lexer.afterZero; repeat' lits1
macro_rules | `(tactic| lits_known) => `(tactic| with_reducible exact Lits.afterZero)
theorem Lits.zeroOctal {a0 a1 a2} : Lits (zeroOctal a0 a1 a2) := by unfold Lexer.zeroOctal; repeat' lits1
macro_rules | `(tactic| lits_known) => `(tactic| with_reducible exact Lits.zeroOctal)
theorem Lits.zeroLiteral : Lits (zeroLiteral) := by unfold Lexer.zeroLiteral; repeat' lits1
macro_rules | `(tactic| lits_known) => `(tactic| with_reducible exact Lits.zeroLiteral)
theorem Lits.parseNumeric {a0} : Lits (parseNumeric a0) := by unfold Lexer.parseNumeric; repeat' lits1
macro_rules | `(tactic| lits_known) => `(tactic| with_reducible exact Lits.parseNumeric)
theorem Lits.tokaddmbc {a0} : Lits (tokaddmbc a0) := by unfold Lexer.tokaddmbc; repeat' lits1
macro_rules | `(tactic| lits_known) => `(tactic| with_reducible exact Lits.tokaddmbc)
theorem Lits.utf8Unterminated : Lits (utf8Unterminated) := by unfold Lexer.utf8Unterminated; repeat' lits1
macro_rules | `(tactic| lits_known) => `(tactic| with_reducible exact Lits.utf8Unterminated)
theorem Lits.tokaddCodepoint {a0 a1} : Lits (tokaddCodepoint a0 a1) := by unfold Lexer.tokaddCodepoint; repeat' lits1
macro_rules | `(tactic| lits_known) => `(tactic| with_reducible exact Lits.tokaddCodepoint)
theorem Lits.utf8Skip1 : ∀ {n}, Lits (utf8Skip1 n) := by
  intro n
  induction n with
  | zero => unfold Lexer.utf8Skip1; exact Lits.fail _
  | succ n ih => unfold Lexer.utf8Skip1; repeat' first | with_reducible exact ih | lits1
macro_rules | `(tactic| lits_known) => `(tactic| with_reducible exact Lits.utf8Skip1)
theorem Lits.utf8Skip2 : ∀ {n a1}, Lits (utf8Skip2 n a1) := by
  intro n
  induction n with
  | zero => intro a1; unfold Lexer.utf8Skip2; exact Lits.fail _
  | succ n ih => intro a1; unfold Lexer.utf8Skip2; repeat' first | with_reducible exact ih | lits1
macro_rules | `(tactic| lits_known) => `(tactic| with_reducible exact Lits.utf8Skip2)
theorem Lits.utf8Loop {a0 a1} : ∀ {n a3 a4 a5 a6}, Lits (utf8Loop a0 a1 n a3 a4 a5 a6) := by
  intro n
  induction n with
  | zero => intro a3 a4 a5 a6; unfold Lexer.utf8Loop; exact Lits.fail _
  | succ n ih => intro a3 a4 a5 a6; unfold Lexer.utf8Loop; repeat' first | with_reducible exact ih | lits1
macro_rules | `(tactic| lits_known) => `(tactic| with_reducible exact Lits.utf8Loop)
theorem Lits.tokaddUtf8 {a0 a1} : Lits (tokaddUtf8 a0 a1) := by unfold Lexer.tokaddUtf8; repeat' lits1
macro_rules | `(tactic| lits_known) => `(tactic| with_reducible exact Lits.tokaddUtf8)
theorem Lits.tokHex : Lits (tokHex) := by unfold Lexer.tokHex; repeat' lits1
macro_rules | `(tactic| lits_known) => `(tactic| with_reducible exact Lits.tokHex)
theorem Lits.tokaddEscape : Lits (tokaddEscape) := by unfold Lexer.tokaddEscape; repeat' lits1
macro_rules | `(tactic| lits_known) => `(tactic| with_reducible exact Lits.tokaddEscape)
theorem Lits.readEscapeEof : Lits (readEscapeEof) := by unfold Lexer.readEscapeEof; repeat' lits1
macro_rules | `(tactic| lits_known) => `(tactic| with_reducible exact Lits.readEscapeEof)
theorem Lits.peekU : Lits (peekU) := by unfold Lexer.peekU; repeat' lits1
macro_rules | `(tactic| lits_known) => `(tactic| with_reducible exact Lits.peekU)
theorem Lits.readEscape : ∀ {n a1 a2}, Lits (readEscape n a1 a2) := by
  intro n
  induction n with
  | zero => intro a1 a2; unfold Lexer.readEscape; exact Lits.fail _
  | succ n ih => intro a1 a2; unfold Lexer.readEscape; repeat' first | with_reducible exact ih | lits1
macro_rules | `(tactic| lits_known) => `(tactic| with_reducible exact Lits.readEscape)
theorem Lits.tsEscapeOther {a0 a1 a2 a3 a4} : Lits (tsEscapeOther a0 a1 a2 a3 a4) := by unfold Lexer.tsEscapeOther; repeat' lits1
macro_rules | `(tactic| lits_known) => `(tactic| with_reducible exact Lits.tsEscapeOther)
theorem Lits.tsBackslash {a0 a1 a2 a3} : Lits (tsBackslash a0 a1 a2 a3) := by unfold Lexer.tsBackslash; repeat' lits1
macro_rules | `(tactic| lits_known) => `(tactic| with_reducible exact Lits.tsBackslash)
theorem Lits.tsStep {a0 a1 a2 a3} : Lits (tsStep a0 a1 a2 a3) := by unfold Lexer.tsStep; repeat' lits1
macro_rules | `(tactic| lits_known) => `(tactic| with_reducible exact Lits.tsStep)
theorem Lits.tsLoop {a0 a1 a2} : ∀ {n a4}, Lits (tsLoop a0 a1 a2 n a4) := by
  intro n
  induction n with
  | zero => intro a4; unfold Lexer.tsLoop; exact Lits.fail _
  | succ n ih => intro a4; unfold Lexer.tsLoop; repeat' first | with_reducible exact ih | lits1
macro_rules | `(tactic| lits_known) => `(tactic| with_reducible exact Lits.tsLoop)
theorem Lits.tokaddString {a0 a1 a2 a3} : Lits (tokaddString a0 a1 a2 a3) := by unfold Lexer.tokaddString; repeat' lits1
macro_rules | `(tactic| lits_known) => `(tactic| with_reducible exact Lits.tokaddString)
theorem Lits.peekVariableName : Lits (peekVariableName) := by unfold Lexer.peekVariableName; repeat' lits1
macro_rules | `(tactic| lits_known) => `(tactic| with_reducible exact Lits.peekVariableName)
theorem Lits.regxLoop : ∀ {n a1}, Lits (regxLoop n a1) := by
  intro n
  induction n with
  | zero => intro a1; unfold Lexer.regxLoop; exact Lits.fail _
  | succ n ih => intro a1; unfold Lexer.regxLoop; repeat' first | with_reducible exact ih | lits1
macro_rules | `(tactic| lits_known) => `(tactic| with_reducible exact Lits.regxLoop)
theorem Lits.regxOptions : Lits (regxOptions) := by unfold Lexer.regxOptions; repeat' lits1
macro_rules | `(tactic| lits_known) => `(tactic| with_reducible exact Lits.regxOptions)
theorem Lits.stringTerm {a0 a1} : Lits (stringTerm a0 a1) := by unfold Lexer.stringTerm; repeat' lits1
macro_rules | `(tactic| lits_known) => `(tactic| with_reducible exact Lits.stringTerm)
theorem Lits.skipSpaces : ∀ {n}, Lits (skipSpaces n) := by
  intro n
  induction n with
  | zero => unfold Lexer.skipSpaces; exact Lits.fail _
  | succ n ih => unfold Lexer.skipSpaces; repeat' first | with_reducible exact ih | lits1
macro_rules | `(tactic| lits_known) => `(tactic| with_reducible exact Lits.skipSpaces)
theorem Lits.restoreStrterm {a0 : StringLiteral} (h : FOk a0.func) : Lits (restoreStrterm a0) := by
  unfold Lexer.restoreStrterm; exact Lits.modS fun s _ => LitOk.some rfl h
macro_rules | `(tactic| lits_known) => `(tactic| (with_reducible refine Lits.restoreStrterm ?_; fok_tac))
theorem Lits.stringContent {a0 : StringLiteral} {a1 a2 a3} (h : FOk a0.func) : Lits (stringContent a0 a1 a2 a3) := by unfold Lexer.stringContent; repeat' lits1
macro_rules | `(tactic| lits_known) => `(tactic| (with_reducible refine Lits.stringContent ?_; fok_tac))
theorem Lits.parseString {a0 : StringLiteral} (h : FOk a0.func) : Lits (parseString a0) := by unfold Lexer.parseString; repeat' lits1
macro_rules | `(tactic| lits_known) => `(tactic| (with_reducible refine Lits.parseString ?_; fok_tac))
theorem Lits.hereQuoteLoop {a0} : ∀ {n}, Lits (hereQuoteLoop a0 n) := by
  intro n
  induction n with
  | zero => unfold Lexer.hereQuoteLoop; exact Lits.fail _
  | succ n ih => unfold Lexer.hereQuoteLoop; repeat' first | with_reducible exact ih | lits1
macro_rules | `(tactic| lits_known) => `(tactic| with_reducible exact Lits.hereQuoteLoop)
theorem Lits.hereIdLoop : ∀ {n}, Lits (hereIdLoop n) := by
  intro n
  induction n with
  | zero => unfold Lexer.hereIdLoop; exact Lits.fail _
  | succ n ih => unfold Lexer.hereIdLoop; repeat' first | with_reducible exact ih | lits1
macro_rules | `(tactic| lits_known) => `(tactic| with_reducible exact Lits.hereIdLoop)
theorem Lits.heredocStart {a0 a1 a2 a3 a4} (h : FOk a3) : Lits (heredocStart a0 a1 a2 a3 a4) := by
  have hh : ∀ a b c d e, TermOk (.heredoc ⟨a, b, c, d, e, a3⟩) := fun _ _ _ _ _ => h
  unfold Lexer.heredocStart; repeat' first | ((with_reducible refine Lits.modS ?_); exact fun s _ => LitOk.some rfl (hh _ _ _ _ _)) | lits1
macro_rules | `(tactic| lits_known) => `(tactic| (with_reducible refine Lits.heredocStart ?_; fok_tac))
theorem Lits.heredocIdentifier : Lits heredocIdentifier := by
  have f1 : ∀ (c : MB) (func : Nat), (func = 0 ∨ func = STR_FUNC_INDENT) →
      FOk (if isC c '\'' then func ||| str_squote else if isC c '"' then func ||| str_dquote else func ||| str_xquote) := by
    intro c func hf
    rcases hf with rfl | rfl <;> (split; · unfold FOk; decide) <;> split <;> (unfold FOk; decide)
  unfold Lexer.heredocIdentifier
  repeat' first
    | with_reducible refine Lits.bindPure ?_
    | (with_reducible refine Lits.heredocStart ?_; first | exact f1 _ _ (.inl rfl) | exact f1 _ _ (.inr rfl) | (unfold FOk; decide))
    | lits1
macro_rules | `(tactic| lits_known) => `(tactic| with_reducible exact Lits.heredocIdentifier)
theorem Lits.computeHeredocEnd : Lits (computeHeredocEnd) := by unfold Lexer.computeHeredocEnd; repeat' lits1
macro_rules | `(tactic| lits_known) => `(tactic| with_reducible exact Lits.computeHeredocEnd)
theorem Lits.heredocRestore {a0} : Lits (heredocRestore a0) := by unfold Lexer.heredocRestore; repeat' lits1
macro_rules | `(tactic| lits_known) => `(tactic| with_reducible exact Lits.heredocRestore)
theorem Lits.hereDocumentError {a0 a1 a2} : Lits (hereDocumentError a0 a1 a2) := by unfold Lexer.hereDocumentError; repeat' lits1
macro_rules | `(tactic| lits_known) => `(tactic| with_reducible exact Lits.hereDocumentError)
theorem Lits.hereDocumentRestore {a0} : Lits (hereDocumentRestore a0) := by unfold Lexer.hereDocumentRestore; repeat' lits1
macro_rules | `(tactic| lits_known) => `(tactic| with_reducible exact Lits.hereDocumentRestore)
theorem Lits.heredocFlushStr {a0} : Lits (heredocFlushStr a0) := by unfold Lexer.heredocFlushStr; repeat' lits1
macro_rules | `(tactic| lits_known) => `(tactic| with_reducible exact Lits.heredocFlushStr)
theorem Lits.heredocFlush : Lits (heredocFlush) := by unfold Lexer.heredocFlush; repeat' lits1
macro_rules | `(tactic| lits_known) => `(tactic| with_reducible exact Lits.heredocFlush)
theorem Lits.atHeredocEnd {a0 a1 a2} : Lits (atHeredocEnd a0 a1 a2) := by unfold Lexer.atHeredocEnd; repeat' lits1
macro_rules | `(tactic| lits_known) => `(tactic| with_reducible exact Lits.atHeredocEnd)
theorem Lits.hereRawLoop {a0 a1 a2 a3} : ∀ {n a5}, Lits (hereRawLoop a0 a1 a2 a3 n a5) := by
  intro n
  induction n with
  | zero => intro a5; unfold Lexer.hereRawLoop; exact Lits.fail _
  | succ n ih => intro a5; unfold Lexer.hereRawLoop; repeat' first | with_reducible exact ih | lits1
macro_rules | `(tactic| lits_known) => `(tactic| with_reducible exact Lits.hereRawLoop)
theorem Lits.hereExpandLoop {a0 a1 a2 a3} : ∀ {n a5}, Lits (hereExpandLoop a0 a1 a2 a3 n a5) := by
  intro n
  induction n with
  | zero => intro a5; unfold Lexer.hereExpandLoop; exact Lits.fail _
  | succ n ih => intro a5; unfold Lexer.hereExpandLoop; repeat' first | with_reducible exact ih | lits1
macro_rules | `(tactic| lits_known) => `(tactic| with_reducible exact Lits.hereExpandLoop)
theorem Lits.hereFinish {a0 : HeredocLiteral} {a1 a2} (h : FOk a0.func) : Lits (hereFinish a0 a1 a2) := by unfold Lexer.hereFinish; repeat' lits1
macro_rules | `(tactic| lits_known) => `(tactic| (with_reducible refine Lits.hereFinish ?_; fok_tac))
theorem Lits.hereBody {a0 : HeredocLiteral} {a1 a2 a3 a4} (h : FOk a0.func) : Lits (hereBody a0 a1 a2 a3 a4) := by unfold Lexer.hereBody; repeat' lits1
macro_rules | `(tactic| lits_known) => `(tactic| (with_reducible refine Lits.hereBody ?_; fok_tac))
theorem Lits.hereDocument {a0 : HeredocLiteral} (h : FOk a0.func) : Lits (hereDocument a0) := by unfold Lexer.hereDocument; repeat' lits1
macro_rules | `(tactic| lits_known) => `(tactic| (with_reducible refine Lits.hereDocument ?_; fok_tac))
theorem Lits.setterSuffix : Lits (setterSuffix) := by unfold Lexer.setterSuffix; repeat' lits1
macro_rules | `(tactic| lits_known) => `(tactic| with_reducible exact Lits.setterSuffix)
theorem Lits.identSuffix {a0} : Lits (identSuffix a0) := by unfold Lexer.identSuffix; repeat' lits1
macro_rules | `(tactic| lits_known) => `(tactic| with_reducible exact Lits.identSuffix)
theorem Lits.identKeyword {a0} : Lits (identKeyword a0) := by unfold Lexer.identKeyword; repeat' lits1
macro_rules | `(tactic| lits_known) => `(tactic| with_reducible exact Lits.identKeyword)
theorem Lits.identName {a0 a1 a2 a3} : Lits (identName a0 a1 a2 a3) := by unfold Lexer.identName; repeat' lits1
macro_rules | `(tactic| lits_known) => `(tactic| with_reducible exact Lits.identName)
theorem Lits.parseIdent {a0 a1 a2} : Lits (parseIdent a0 a1 a2) := by unfold Lexer.parseIdent; repeat' lits1
macro_rules | `(tactic| lits_known) => `(tactic| with_reducible exact Lits.parseIdent)
theorem Lits.nthLoop : ∀ {n a1}, Lits (nthLoop n a1) := by
  intro n
  induction n with
  | zero => intro a1; unfold Lexer.nthLoop; exact Lits.fail _
  | succ n ih => intro a1; unfold Lexer.nthLoop; repeat' first | with_reducible exact ih | lits1
macro_rules | `(tactic| lits_known) => `(tactic| with_reducible exact Lits.nthLoop)
theorem Lits.gvarName {a0} : Lits (gvarName a0) := by unfold Lexer.gvarName; repeat' lits1
macro_rules | `(tactic| lits_known) => `(tactic| with_reducible exact Lits.gvarName)
theorem Lits.parseGvar {a0} : Lits (parseGvar a0) := by unfold Lexer.parseGvar; repeat' lits1
macro_rules | `(tactic| lits_known) => `(tactic| with_reducible exact Lits.parseGvar)
theorem Lits.parseAtmark {a0} : Lits (parseAtmark a0) := by unfold Lexer.parseAtmark; repeat' lits1
macro_rules | `(tactic| lits_known) => `(tactic| with_reducible exact Lits.parseAtmark)
theorem Lits.qmarkTernary {a0} : Lits (qmarkTernary a0) := by unfold Lexer.qmarkTernary; repeat' lits1
macro_rules | `(tactic| lits_known) => `(tactic| with_reducible exact Lits.qmarkTernary)
theorem Lits.qmarkNameLoop : ∀ {n a1}, Lits (qmarkNameLoop n a1) := by
  intro n
  induction n with
  | zero => intro a1; unfold Lexer.qmarkNameLoop; exact Lits.fail _
  | succ n ih => intro a1; unfold Lexer.qmarkNameLoop; repeat' first | with_reducible exact ih | lits1
macro_rules | `(tactic| lits_known) => `(tactic| with_reducible exact Lits.qmarkNameLoop)
theorem Lits.qmarkChar : Lits (qmarkChar) := by unfold Lexer.qmarkChar; repeat' lits1
macro_rules | `(tactic| lits_known) => `(tactic| with_reducible exact Lits.qmarkChar)
theorem Lits.qmarkName {a0 a1} : Lits (qmarkName a0 a1) := by unfold Lexer.qmarkName; repeat' lits1
macro_rules | `(tactic| lits_known) => `(tactic| with_reducible exact Lits.qmarkName)
theorem Lits.qmarkEscape : Lits (qmarkEscape) := by unfold Lexer.qmarkEscape; repeat' lits1
macro_rules | `(tactic| lits_known) => `(tactic| with_reducible exact Lits.qmarkEscape)
theorem Lits.parseQmark {a0} : Lits (parseQmark a0) := by unfold Lexer.parseQmark; repeat' lits1
macro_rules | `(tactic| lits_known) => `(tactic| with_reducible exact Lits.parseQmark)
theorem Lits.percentUnknown {a0} : Lits (percentUnknown a0) := by unfold Lexer.percentUnknown; repeat' lits1
macro_rules | `(tactic| lits_known) => `(tactic| with_reducible exact Lits.percentUnknown)
theorem Lits.percentUnterminated : Lits (percentUnterminated) := by unfold Lexer.percentUnterminated; repeat' lits1
macro_rules | `(tactic| lits_known) => `(tactic| with_reducible exact Lits.percentUnterminated)
theorem Lits.percentOpen {a0 a1 a2} : Lits (percentOpen a0 a1 a2) := by unfold Lexer.percentOpen; repeat' lits1
macro_rules | `(tactic| lits_known) => `(tactic| with_reducible exact Lits.percentOpen)
theorem Lits.percentQuotation {a0 a1} : Lits (percentQuotation a0 a1) := by unfold Lexer.percentQuotation; repeat' lits1
macro_rules | `(tactic| lits_known) => `(tactic| with_reducible exact Lits.percentQuotation)
theorem Lits.parsePercent {a0 a1} : Lits (parsePercent a0 a1) := by unfold Lexer.parsePercent; repeat' lits1
macro_rules | `(tactic| lits_known) => `(tactic| with_reducible exact Lits.parsePercent)
theorem Lits.mcRecord {a b c d} : ∀ {l}, Lits (mcRecord a b c d l) := by
  intro l
  induction l with
  | nil => exact Lits.pure _
  | cons h t ih => obtain ⟨h1, h2⟩ := h; unfold Lexer.mcRecord; repeat' first | with_reducible exact ih | lits1
macro_rules | `(tactic| lits_known) => `(tactic| with_reducible exact Lits.mcRecord)
theorem Lits.mcLoop {a0 a1} : ∀ {n a3 a4}, Lits (mcLoop a0 a1 n a3 a4) := by
  intro n
  induction n with
  | zero => intro a3 a4; unfold Lexer.mcLoop; exact Lits.fail _
  | succ n ih => intro a3 a4; unfold Lexer.mcLoop; repeat' first | with_reducible exact ih | lits1
macro_rules | `(tactic| lits_known) => `(tactic| with_reducible exact Lits.mcLoop)
theorem Lits.magicComment {a0 a1 a2} : Lits (magicComment a0 a1 a2) := by unfold Lexer.magicComment; repeat' lits1
macro_rules | `(tactic| lits_known) => `(tactic| with_reducible exact Lits.magicComment)
theorem Lits.done {a0} : Lits (done a0) := by unfold Lexer.done; repeat' lits1
macro_rules | `(tactic| lits_known) => `(tactic| with_reducible exact Lits.done)
theorem Lits.opAsgn {a0} : Lits (opAsgn a0) := by unfold Lexer.opAsgn; repeat' lits1
macro_rules | `(tactic| lits_known) => `(tactic| with_reducible exact Lits.opAsgn)
theorem Lits.liftBuf {f} : Lits (newlineLoop.liftBuf f) := Lits.buf' (f := f) fun _ => rfl
macro_rules | `(tactic| lits_known) => `(tactic| with_reducible exact Lits.liftBuf)
theorem Lits.newlineLoop : ∀ {n a1}, Lits (newlineLoop n a1) := by
  intro n
  induction n with
  | zero => intro a1; unfold Lexer.newlineLoop; exact Lits.fail _
  | succ n ih => intro a1; unfold Lexer.newlineLoop; repeat' first | with_reducible exact ih | lits1
macro_rules | `(tactic| lits_known) => `(tactic| with_reducible exact Lits.newlineLoop)
theorem Lits.lexNewline {a0 a1} : Lits (lexNewline a0 a1) := by unfold Lexer.lexNewline; repeat' lits1
macro_rules | `(tactic| lits_known) => `(tactic| with_reducible exact Lits.lexNewline)
theorem Lits.pushComment {a0} : Lits (pushComment a0) := by unfold Lexer.pushComment; repeat' lits1
macro_rules | `(tactic| lits_known) => `(tactic| with_reducible exact Lits.pushComment)
theorem Lits.lexComment {a0 a1 a2} : Lits (lexComment a0 a1 a2) := by unfold Lexer.lexComment; repeat' lits1
macro_rules | `(tactic| lits_known) => `(tactic| with_reducible exact Lits.lexComment)
theorem Lits.lexStar {a0 a1} : Lits (lexStar a0 a1) := by unfold Lexer.lexStar; repeat' lits1
macro_rules | `(tactic| lits_known) => `(tactic| with_reducible exact Lits.lexStar)
theorem Lits.lexBang : Lits (lexBang) := by unfold Lexer.lexBang; repeat' lits1
macro_rules | `(tactic| lits_known) => `(tactic| with_reducible exact Lits.lexBang)
theorem Lits.embdocLoop {a0} : ∀ {n}, Lits (embdocLoop a0 n) := by
  intro n
  induction n with
  | zero => unfold Lexer.embdocLoop; exact Lits.fail _
  | succ n ih => unfold Lexer.embdocLoop; repeat' first | with_reducible exact ih | lits1
macro_rules | `(tactic| lits_known) => `(tactic| with_reducible exact Lits.embdocLoop)
theorem Lits.lexEqOp : Lits (lexEqOp) := by unfold Lexer.lexEqOp; repeat' lits1
macro_rules | `(tactic| lits_known) => `(tactic| with_reducible exact Lits.lexEqOp)
theorem Lits.lexEq {a0} : Lits (lexEq a0) := by unfold Lexer.lexEq; repeat' lits1
macro_rules | `(tactic| lits_known) => `(tactic| with_reducible exact Lits.lexEq)
theorem Lits.lexLtOp {a0 a1 a2} : Lits (lexLtOp a0 a1 a2) := by unfold Lexer.lexLtOp; repeat' lits1
macro_rules | `(tactic| lits_known) => `(tactic| with_reducible exact Lits.lexLtOp)
theorem Lits.lexLt {a0 a1} : Lits (lexLt a0 a1) := by unfold Lexer.lexLt; repeat' lits1
macro_rules | `(tactic| lits_known) => `(tactic| with_reducible exact Lits.lexLt)
theorem Lits.lexGt : Lits (lexGt) := by unfold Lexer.lexGt; repeat' lits1
macro_rules | `(tactic| lits_known) => `(tactic| with_reducible exact Lits.lexGt)
theorem Lits.lexQuote {a0 a1 a2} (h : a0 = str_dquote ∨ a0 = str_squote) : Lits (lexQuote a0 a1 a2) := by
  have h1 : FOk (a0 ||| str_label) := by rcases h with rfl | rfl <;> (unfold FOk; decide)
  have h2 : FOk (a0 ||| 0) := by rcases h with rfl | rfl <;> (unfold FOk; decide)
  unfold Lexer.lexQuote; dsimp only; repeat' lits1
macro_rules | `(tactic| lits_known) => `(tactic| (with_reducible refine Lits.lexQuote ?_; first | exact .inl rfl | exact .inr rfl))
theorem Lits.lexBacktick {a0} : Lits (lexBacktick a0) := by unfold Lexer.lexBacktick; repeat' lits1
macro_rules | `(tactic| lits_known) => `(tactic| with_reducible exact Lits.lexBacktick)
theorem Lits.lexAmp {a0 a1} : Lits (lexAmp a0 a1) := by unfold Lexer.lexAmp; repeat' lits1
macro_rules | `(tactic| lits_known) => `(tactic| with_reducible exact Lits.lexAmp)
theorem Lits.lexPipe {a0} : Lits (lexPipe a0) := by unfold Lexer.lexPipe; repeat' lits1
macro_rules | `(tactic| lits_known) => `(tactic| with_reducible exact Lits.lexPipe)
theorem Lits.unaryHere {a0 a1 a2} : Lits (unaryHere a0 a1 a2) := by unfold Lexer.unaryHere; repeat' lits1
macro_rules | `(tactic| lits_known) => `(tactic| with_reducible exact Lits.unaryHere)
theorem Lits.lexPlus {a0 a1} : Lits (lexPlus a0 a1) := by unfold Lexer.lexPlus; repeat' lits1
macro_rules | `(tactic| lits_known) => `(tactic| with_reducible exact Lits.lexPlus)
theorem Lits.lexMinus {a0 a1} : Lits (lexMinus a0 a1) := by unfold Lexer.lexMinus; repeat' lits1
macro_rules | `(tactic| lits_known) => `(tactic| with_reducible exact Lits.lexMinus)
theorem Lits.lexDot3 {a0 a1} : Lits (lexDot3 a0 a1) := by unfold Lexer.lexDot3; repeat' lits1
macro_rules | `(tactic| lits_known) => `(tactic| with_reducible exact Lits.lexDot3)
theorem Lits.lexDotDigit {a0} : Lits (lexDotDigit a0) := by unfold Lexer.lexDotDigit; repeat' lits1
macro_rules | `(tactic| lits_known) => `(tactic| with_reducible exact Lits.lexDotDigit)
theorem Lits.lexDot {a0 a1} : Lits (lexDot a0 a1) := by unfold Lexer.lexDot; repeat' lits1
macro_rules | `(tactic| lits_known) => `(tactic| with_reducible exact Lits.lexDot)
theorem Lits.lexClose {a0 a1} : Lits (lexClose a0 a1) := by unfold Lexer.lexClose; repeat' lits1
macro_rules | `(tactic| lits_known) => `(tactic| with_reducible exact Lits.lexClose)
theorem Lits.lexRcurly : Lits (lexRcurly) := by unfold Lexer.lexRcurly; repeat' lits1
macro_rules | `(tactic| lits_known) => `(tactic| with_reducible exact Lits.lexRcurly)
theorem Lits.lexColon {a0 a1} : Lits (lexColon a0 a1) := by unfold Lexer.lexColon; repeat' lits1
macro_rules | `(tactic| lits_known) => `(tactic| with_reducible exact Lits.lexColon)
theorem Lits.lexSlash {a0 a1} : Lits (lexSlash a0 a1) := by unfold Lexer.lexSlash; repeat' lits1
macro_rules | `(tactic| lits_known) => `(tactic| with_reducible exact Lits.lexSlash)
theorem Lits.lexCaret : Lits (lexCaret) := by unfold Lexer.lexCaret; repeat' lits1
macro_rules | `(tactic| lits_known) => `(tactic| with_reducible exact Lits.lexCaret)
theorem Lits.lexSemi : Lits (lexSemi) := by unfold Lexer.lexSemi; repeat' lits1
macro_rules | `(tactic| lits_known) => `(tactic| with_reducible exact Lits.lexSemi)
theorem Lits.lexComma : Lits (lexComma) := by unfold Lexer.lexComma; repeat' lits1
macro_rules | `(tactic| lits_known) => `(tactic| with_reducible exact Lits.lexComma)
theorem Lits.lexTilde : Lits (lexTilde) := by unfold Lexer.lexTilde; repeat' lits1
macro_rules | `(tactic| lits_known) => `(tactic| with_reducible exact Lits.lexTilde)
theorem Lits.openNest : Lits (openNest) := by unfold Lexer.openNest; repeat' lits1
macro_rules | `(tactic| lits_known) => `(tactic| with_reducible exact Lits.openNest)
theorem Lits.lexLparen {a0} : Lits (lexLparen a0) := by unfold Lexer.lexLparen; repeat' lits1
macro_rules | `(tactic| lits_known) => `(tactic| with_reducible exact Lits.lexLparen)
theorem Lits.lexLbrack {a0} : Lits (lexLbrack a0) := by unfold Lexer.lexLbrack; repeat' lits1
macro_rules | `(tactic| lits_known) => `(tactic| with_reducible exact Lits.lexLbrack)
theorem Lits.lexLcurly : Lits (lexLcurly) := by unfold Lexer.lexLcurly; repeat' lits1
macro_rules | `(tactic| lits_known) => `(tactic| with_reducible exact Lits.lexLcurly)
theorem Lits.lexBackslash : Lits (lexBackslash) := by unfold Lexer.lexBackslash; repeat' lits1
macro_rules | `(tactic| lits_known) => `(tactic| with_reducible exact Lits.lexBackslash)
theorem Lits.lexUnderscore : Lits (lexUnderscore) := by unfold Lexer.lexUnderscore; repeat' lits1
macro_rules | `(tactic| lits_known) => `(tactic| with_reducible exact Lits.lexUnderscore)
theorem Lits.lexOther {a0 a1} : Lits (lexOther a0 a1) := by unfold Lexer.lexOther; repeat' lits1
macro_rules | `(tactic| lits_known) => `(tactic| with_reducible exact Lits.lexOther)
theorem Lits.lexCr : Lits (lexCr) := by unfold Lexer.lexCr; repeat' lits1
macro_rules | `(tactic| lits_known) => `(tactic| with_reducible exact Lits.lexCr)
theorem Lits.dispatch {a0 a1 a2 a3 a4 a5} : Lits (dispatch a0 a1 a2 a3 a4 a5) := by unfold Lexer.dispatch; repeat' lits1
macro_rules | `(tactic| lits_known) => `(tactic| with_reducible exact Lits.dispatch)
theorem Lits.yylexLoop {a0 a1 a2} : ∀ {n a4}, Lits (yylexLoop a0 a1 a2 n a4) := by
  intro n
  induction n with
  | zero => intro a4; unfold Lexer.yylexLoop; exact Lits.fail _
  | succ n ih => intro a4; unfold Lexer.yylexLoop; repeat' first | with_reducible exact ih | lits1
macro_rules | `(tactic| lits_known) => `(tactic| with_reducible exact Lits.yylexLoop)
theorem Lits.parserYylex {a0} : Lits (parserYylex a0) := by
  intro s a s' e hs
  change (match s.strterm with
    | some (.heredoc here) => Lexer.hereDocument here
    | some (.string lit) => do Lexer.tokenFlush; Lexer.parseString lit
    | none => do
      let cmdState ← Lexer.getS (·.commandStart)
      let tokenSeen ← Lexer.getS (·.tokenSeen)
      Lexer.modS fun s => { s with commandStart := false, tokenSeen := true }
      Lexer.yylexLoop a0 cmdState tokenSeen (← Lexer.fuel) false) s = _ at e
  cases hst : s.strterm with
  | none =>
    rw [hst] at e
    revert e
    exact fun e => (show Lits _ by repeat' lits1) s a s' e hs
  | some t =>
    cases t with
    | string lit =>
      rw [hst] at e
      have h : FOk lit.func := hs _ hst
      exact (show Lits (do Lexer.tokenFlush; Lexer.parseString lit) by repeat' lits1) s a s' e hs
    | heredoc here =>
      rw [hst] at e
      have h : FOk here.func := hs _ hst
      exact (Lits.hereDocument h) s a s' e hs
macro_rules | `(tactic| lits_known) => `(tactic| with_reducible exact Lits.parserYylex)
theorem Lits.yylex {a0} : Lits (yylex a0) := by unfold Lexer.yylex; repeat' lits1
macro_rules | `(tactic| lits_known) => `(tactic| with_reducible exact Lits.yylex)
theorem Lits.tokenizeUntilEof {a0} : ∀ {n}, Lits (tokenizeUntilEof a0 n) := by
  intro n
  induction n with
  | zero => unfold Lexer.tokenizeUntilEof; exact Lits.fail _
  | succ n ih => unfold Lexer.tokenizeUntilEof; repeat' first | with_reducible exact ih | lits1
macro_rules | `(tactic| lits_known) => `(tactic| with_reducible exact Lits.tokenizeUntilEof)

end Verif.Lexer
