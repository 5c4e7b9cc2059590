import Verif.Lemmas.LexMagic
import Verif.Model.Lexer.Main
/-! Which functions leave the recorded comments alone, whatever they return. -/
namespace Verif.Lexer
section
variable {α β : Type}

/-- `x` does not touch the recorded comments. -/
def Quiet (x : LexM α) : Prop :=
  ∀ s a s', x s = .ok (a, s') → s'.comments = s.comments ∧ s'.magicComments = s.magicComments

theorem Quiet.pure (a : α) : Quiet (Pure.pure a : LexM α) := by
  intro s b s' h
  cases h; exact ⟨rfl, rfl⟩
theorem Quiet.bind {x : LexM β} {f : β → LexM α} (h : Quiet x) (h' : ∀ b, Quiet (f b)) : Quiet (x >>= f) := by
  intro s a s' e
  change StateT.bind x f s = _ at e
  simp only [StateT.bind, Bind.bind, Except.bind] at e
  cases hx : x s with
  | error p => rw [hx] at e; simp at e
  | ok r =>
    rw [hx] at e
    obtain ⟨b, s1⟩ := r
    have h1 := h s b s1 hx
    have h2 := h' b s1 a s' e
    exact ⟨h2.1.trans h1.1, h2.2.trans h1.2⟩
theorem Quiet.map {x : LexM β} {f : β → α} (h : Quiet x) : Quiet (f <$> x) := by
  intro s a s' e
  change StateT.map f x s = _ at e
  simp only [StateT.map, Bind.bind, Except.bind] at e
  cases hx : x s with
  | error p => rw [hx] at e; simp at e
  | ok r =>
    rw [hx] at e
    obtain ⟨b, s1⟩ := r
    cases e
    exact h s b s1 hx
theorem Quiet.ite {c : Prop} [Decidable c] {x y : LexM α} (h1 : Quiet x) (h2 : Quiet y) : Quiet (if c then x else y) := by
  split <;> assumption
theorem Quiet.pu {x : LexM α} (h : Pu x) : Quiet x := by
  intro s a s' e
  obtain ⟨b, s1, e1, h1⟩ := h s
  rw [e1] at e
  cases e
  exact ⟨h1.2.2.2.2.1, h1.2.2.2.2.2⟩
theorem Quiet.fail (p : Panic) : Quiet (fail p : LexM α) := by intro s a s' e; simp [Lexer.fail] at e
theorem Quiet.getS (f : Lexer → α) : Quiet (getS f) := .pu (.getS f)
theorem Quiet.getB (f : Buffer → α) : Quiet (getB f) := .pu (.getB f)
theorem Quiet.modB (f : Buffer → Buffer) : Quiet (modB f) := by intro s a s' e; cases e; exact ⟨rfl, rfl⟩
theorem Quiet.modS {f : Lexer → Lexer} (h : ∀ s, (f s).comments = s.comments ∧ (f s).magicComments = s.magicComments) :
    Quiet (modS f) := by intro s a s' e; cases e; exact h s
theorem Quiet.liftB (f : Buffer → Res α) : Quiet (liftB f) := by
  intro s a s' e
  simp only [Lexer.liftB, Bind.bind, Except.bind, Pure.pure, Except.pure] at e
  cases hf : f s.buffer with
  | error p => rw [hf] at e; simp at e
  | ok r => rw [hf] at e; cases e; exact ⟨rfl, rfl⟩
end

theorem Quiet.nextc : Quiet nextc := by
  intro s a s' e
  simp only [Lexer.nextc, Bind.bind, Except.bind, Pure.pure, Except.pure] at e
  cases hf : s.buffer.nextc with
  | error p => rw [hf] at e; simp at e
  | ok r => rw [hf] at e; cases e; exact ⟨rfl, rfl⟩
theorem Quiet.pushback (c) : Quiet (pushback c) := by
  intro s a s' e
  simp only [Lexer.pushback, Bind.bind, Except.bind, Pure.pure, Except.pure] at e
  cases hf : s.buffer.pushback c with
  | error p => rw [hf] at e; simp at e
  | ok r => rw [hf] at e; cases e; exact ⟨rfl, rfl⟩
theorem Quiet.pushbackByte : Quiet pushbackByte := Quiet.pushback (some 0)

/-- One step. -/
syntax "quiet1" : tactic
set_option hygiene false in
macro_rules | `(tactic| quiet1) => `(tactic| first
  | with_reducible exact Quiet.pure _
  | with_reducible exact Quiet.fail _
  | with_reducible refine Quiet.bind ?_ (fun _ => ?_)
  | with_reducible refine Quiet.map ?_
  | with_reducible refine Quiet.ite ?_ ?_
  | with_reducible exact Quiet.getS _
  | with_reducible exact Quiet.getB _
  | with_reducible exact Quiet.modB _
  | with_reducible exact Quiet.liftB _
  | with_reducible exact Quiet.nextc
  | with_reducible exact Quiet.pushback _
  | with_reducible exact Quiet.pushbackByte
  | ((with_reducible refine Quiet.modS ?_); intro s; first | exact ⟨rfl, rfl⟩ | (split <;> exact ⟨rfl, rfl⟩))
  | with_reducible assumption
  | with_reducible exact Quiet.pu (Pu.setState _)
  | with_reducible exact Quiet.pu (Pu.setLval _)
  | with_reducible exact Quiet.pu (Pu.setYylvalName)
  | with_reducible exact Quiet.pu (Pu.tokadd _)
  | with_reducible exact Quiet.pu (Pu.emit _ _ _)
  | with_reducible exact Quiet.pu (Pu.warn _ _)
  | with_reducible exact Quiet.pu (Pu.compileError _ _)
  | with_reducible exact Quiet.pu (Pu.currentLoc)
  | with_reducible exact Quiet.pu (Pu.getState)
  | with_reducible exact Quiet.pu (Pu.toklen)
  | with_reducible exact Quiet.pu (Pu.charAt _)
  | with_reducible exact Quiet.pu (Pu.takeTok)
  | with_reducible exact Quiet.pu (Pu.isLambdaBeginning)
  | with_reducible exact Quiet.pu (Pu.isLvarDefined _)
  | with_reducible exact Quiet.pu (Pu.spacearg _ _)
  | with_reducible exact Quiet.pu (Pu.yyerror0 _)
  | with_reducible exact Quiet.pu (Pu.warnBalanced _ _ _ _ _ _)
  | with_reducible exact Quiet.pu (Pu.argAmbiguous _ _)
  | with_reducible exact Quiet.pu (Pu.setStateAfterOp _)
  | with_reducible exact Quiet.pu (Pu.warnSpaceChar _ _)
  | with_reducible exact Quiet.pu (Pu.normalNewline)
  | with_reducible exact Quiet.fuel
  | with_reducible exact Quiet.pcur
  | with_reducible exact Quiet.peekU
  | with_reducible exact Quiet.pcurSub
  | with_reducible exact Quiet.peek
  | with_reducible exact Quiet.tokenFlush
  | with_reducible exact Quiet.setPtok
  | with_reducible exact Quiet.gotoEol
  | with_reducible exact Quiet.currentLocShort
  | with_reducible exact Quiet.newStrterm
  | with_reducible exact Quiet.newtok
  | with_reducible exact Quiet.isIdentchar
  | with_reducible exact Quiet.isAsciiPrev
  | with_reducible exact Quiet.isLabelSuffix
  | with_reducible exact Quiet.tokaddMB
  | with_reducible exact Quiet.multibyteCharLen
  | with_reducible exact Quiet.tokcopy
  | with_reducible exact Quiet.tokaddMbchar
  | with_reducible exact Quiet.identLoop _ _
  | with_reducible exact Quiet.tokaddIdent
  | with_reducible exact Quiet.tokaddmbc
  | with_reducible exact Quiet.utf8Unterminated
  | with_reducible exact Quiet.tokaddCodepoint
  | with_reducible exact Quiet.utf8Skip1 _
  | with_reducible exact Quiet.utf8Skip2 _ _
  | with_reducible exact Quiet.utf8Loop _ _ _ _ _
  | with_reducible exact Quiet.tokaddUtf8
  | with_reducible exact Quiet.tokHex
  | with_reducible exact Quiet.readEscapeEof
  | with_reducible exact Quiet.readEscape _ _ _
  | with_reducible exact Quiet.setterSuffix
  | with_reducible exact Quiet.identSuffix
  | with_reducible exact Quiet.identKeyword
  | with_reducible exact Quiet.identName
  | with_reducible exact Quiet.parseIdent
  | with_reducible exact Quiet.nthLoop _ _
  | with_reducible exact Quiet.gvarName
  | with_reducible exact Quiet.parseGvar
  | with_reducible exact Quiet.parseAtmark
  | with_reducible exact Quiet.qmarkTernary
  | with_reducible exact Quiet.qmarkNameLoop _ _
  | with_reducible exact Quiet.qmarkChar
  | with_reducible exact Quiet.qmarkName
  | with_reducible exact Quiet.qmarkEscape
  | with_reducible exact Quiet.parseQmark
  | with_reducible exact Quiet.percentUnknown
  | with_reducible exact Quiet.percentUnterminated
  | with_reducible exact Quiet.percentOpen
  | with_reducible exact Quiet.percentQuotation
  | with_reducible exact Quiet.parsePercent
  | with_reducible exact Quiet.hereQuoteLoop _
  | with_reducible exact Quiet.hereIdLoop _
  | with_reducible exact Quiet.heredocStart
  | with_reducible exact Quiet.heredocIdentifier
  | split
  | dsimp only
  | fail "quiet")

theorem Quiet.fuel : Quiet fuel := by unfold Lexer.fuel; repeat' quiet1
theorem Quiet.pcur : Quiet pcur := by unfold Lexer.pcur; repeat' quiet1
theorem Quiet.peekU : Quiet peekU := by unfold Lexer.peekU; repeat' quiet1
theorem Quiet.pcurSub {a} : Quiet (pcurSub a) := by unfold Lexer.pcurSub; repeat' quiet1
theorem Quiet.peek {a} : Quiet (peek a) := by unfold Lexer.peek; repeat' quiet1
theorem Quiet.tokenFlush : Quiet tokenFlush := by unfold Lexer.tokenFlush; repeat' quiet1
theorem Quiet.setPtok {a} : Quiet (setPtok a) := by unfold Lexer.setPtok; repeat' quiet1
theorem Quiet.gotoEol : Quiet gotoEol := by unfold Lexer.gotoEol; repeat' quiet1
theorem Quiet.currentLocShort : Quiet currentLocShort := by unfold Lexer.currentLocShort; repeat' quiet1
theorem Quiet.newStrterm {a b c d} : Quiet (newStrterm a b c d) := by unfold Lexer.newStrterm; repeat' quiet1
theorem Quiet.newtok : Quiet newtok := by unfold Lexer.newtok; repeat' quiet1
theorem Quiet.isIdentchar : Quiet isIdentchar := by unfold Lexer.isIdentchar; repeat' quiet1
theorem Quiet.isAsciiPrev : Quiet isAsciiPrev := by unfold Lexer.isAsciiPrev; repeat' quiet1
theorem Quiet.isLabelSuffix {a} : Quiet (isLabelSuffix a) := by unfold Lexer.isLabelSuffix; repeat' quiet1
theorem Quiet.tokaddMB {a0} : Quiet (tokaddMB a0) := by
  unfold Lexer.tokaddMB
  repeat' quiet1
theorem Quiet.multibyteCharLen {a0} : Quiet (multibyteCharLen a0) := by
  unfold Lexer.multibyteCharLen
  repeat' quiet1
theorem Quiet.tokcopy {a0} : Quiet (tokcopy a0) := by
  unfold Lexer.tokcopy
  repeat' quiet1
theorem Quiet.tokaddMbchar {a0} : Quiet (tokaddMbchar a0) := by
  unfold Lexer.tokaddMbchar
  repeat' quiet1
theorem Quiet.identLoop' : ∀ n b0, Quiet (identLoop n b0) := by
  intro n
  induction n with
  | zero => intros; unfold Lexer.identLoop; exact Quiet.fail _
  | succ n ih => intros; unfold Lexer.identLoop; (repeat' quiet1); apply ih
theorem Quiet.identLoop : ∀ n b0, Quiet (identLoop n b0) := Quiet.identLoop'
theorem Quiet.tokaddIdent {a0} : Quiet (tokaddIdent a0) := by
  unfold Lexer.tokaddIdent
  repeat' quiet1
theorem Quiet.tokaddmbc {a0} : Quiet (tokaddmbc a0) := by
  unfold Lexer.tokaddmbc
  repeat' quiet1
theorem Quiet.utf8Unterminated : Quiet (utf8Unterminated) := by
  unfold Lexer.utf8Unterminated
  repeat' quiet1
theorem Quiet.tokaddCodepoint {a0 a1} : Quiet (tokaddCodepoint a0 a1) := by
  unfold Lexer.tokaddCodepoint
  repeat' quiet1
theorem Quiet.utf8Skip1' : ∀ n, Quiet (utf8Skip1 n) := by
  intro n
  induction n with
  | zero => unfold Lexer.utf8Skip1; exact Quiet.fail _
  | succ n ih => unfold Lexer.utf8Skip1; repeat' quiet1
theorem Quiet.utf8Skip1 : ∀ n, Quiet (utf8Skip1 n) := Quiet.utf8Skip1'
theorem Quiet.utf8Skip2' : ∀ n b0, Quiet (utf8Skip2 n b0) := by
  intro n
  induction n with
  | zero => intros; unfold Lexer.utf8Skip2; exact Quiet.fail _
  | succ n ih => intros; unfold Lexer.utf8Skip2; (repeat' quiet1); apply ih
theorem Quiet.utf8Skip2 : ∀ n b0, Quiet (utf8Skip2 n b0) := Quiet.utf8Skip2'
theorem Quiet.utf8Loop' {a0 a1} : ∀ n b0 b1 b2 b3, Quiet (utf8Loop a0 a1 n b0 b1 b2 b3) := by
  intro n
  induction n with
  | zero => intros; unfold Lexer.utf8Loop; exact Quiet.fail _
  | succ n ih => intros; unfold Lexer.utf8Loop; (repeat' quiet1) <;> apply ih
theorem Quiet.utf8Loop {a0 a1} : ∀ n b0 b1 b2 b3, Quiet (utf8Loop a0 a1 n b0 b1 b2 b3) := Quiet.utf8Loop'
theorem Quiet.tokaddUtf8 {a0 a1} : Quiet (tokaddUtf8 a0 a1) := by
  unfold Lexer.tokaddUtf8
  repeat' quiet1
theorem Quiet.tokHex : Quiet (tokHex) := by
  unfold Lexer.tokHex
  repeat' quiet1
theorem Quiet.readEscapeEof : Quiet (readEscapeEof) := by
  unfold Lexer.readEscapeEof
  repeat' quiet1
theorem Quiet.readEscape' : ∀ n b0 b1, Quiet (readEscape n b0 b1) := by
  intro n
  induction n with
  | zero => intros; unfold Lexer.readEscape; exact Quiet.fail _
  | succ n ih => intros; unfold Lexer.readEscape; (repeat' quiet1) <;> apply ih
theorem Quiet.readEscape : ∀ n b0 b1, Quiet (readEscape n b0 b1) := Quiet.readEscape'
theorem Quiet.setterSuffix : Quiet (setterSuffix) := by
  unfold Lexer.setterSuffix
  repeat' quiet1
theorem Quiet.identSuffix {a0} : Quiet (identSuffix a0) := by
  unfold Lexer.identSuffix
  repeat' quiet1
theorem Quiet.identKeyword {a0} : Quiet (identKeyword a0) := by
  unfold Lexer.identKeyword
  repeat' quiet1
theorem Quiet.identName {a0 a1 a2 a3} : Quiet (identName a0 a1 a2 a3) := by
  unfold Lexer.identName
  repeat' quiet1
theorem Quiet.parseIdent {a0 a1 a2} : Quiet (parseIdent a0 a1 a2) := by
  unfold Lexer.parseIdent
  repeat' quiet1
theorem Quiet.nthLoop' : ∀ n b0, Quiet (nthLoop n b0) := by
  intro n
  induction n with
  | zero => intros; unfold Lexer.nthLoop; exact Quiet.fail _
  | succ n ih => intros; unfold Lexer.nthLoop; (repeat' quiet1) <;> apply ih
theorem Quiet.nthLoop : ∀ n b0, Quiet (nthLoop n b0) := Quiet.nthLoop'
theorem Quiet.gvarName {a0} : Quiet (gvarName a0) := by
  unfold Lexer.gvarName
  repeat' quiet1
theorem Quiet.parseGvar {a0} : Quiet (parseGvar a0) := by
  unfold Lexer.parseGvar
  repeat' quiet1
theorem Quiet.parseAtmark {a0} : Quiet (parseAtmark a0) := by
  unfold Lexer.parseAtmark
  repeat' quiet1
theorem Quiet.qmarkTernary {a0} : Quiet (qmarkTernary a0) := by
  unfold Lexer.qmarkTernary
  repeat' quiet1
theorem Quiet.qmarkNameLoop' : ∀ n b0, Quiet (qmarkNameLoop n b0) := by
  intro n
  induction n with
  | zero => intros; unfold Lexer.qmarkNameLoop; exact Quiet.fail _
  | succ n ih => intros; unfold Lexer.qmarkNameLoop; (repeat' quiet1) <;> apply ih
theorem Quiet.qmarkNameLoop : ∀ n b0, Quiet (qmarkNameLoop n b0) := Quiet.qmarkNameLoop'
theorem Quiet.qmarkChar : Quiet (qmarkChar) := by
  unfold Lexer.qmarkChar
  repeat' quiet1
theorem Quiet.qmarkName {a0 a1} : Quiet (qmarkName a0 a1) := by
  unfold Lexer.qmarkName
  repeat' quiet1
theorem Quiet.qmarkEscape : Quiet (qmarkEscape) := by
  unfold Lexer.qmarkEscape
  repeat' quiet1
theorem Quiet.parseQmark {a0} : Quiet (parseQmark a0) := by
  unfold Lexer.parseQmark
  repeat' quiet1
theorem Quiet.percentUnknown {a0} : Quiet (percentUnknown a0) := by
  unfold Lexer.percentUnknown
  repeat' quiet1
theorem Quiet.percentUnterminated : Quiet (percentUnterminated) := by
  unfold Lexer.percentUnterminated
  repeat' quiet1
theorem Quiet.percentOpen {a0 a1 a2} : Quiet (percentOpen a0 a1 a2) := by
  unfold Lexer.percentOpen
  repeat' quiet1
theorem Quiet.percentQuotation {a0 a1} : Quiet (percentQuotation a0 a1) := by
  unfold Lexer.percentQuotation
  repeat' quiet1
theorem Quiet.parsePercent {a0 a1} : Quiet (parsePercent a0 a1) := by
  unfold Lexer.parsePercent
  repeat' quiet1
theorem Quiet.hereQuoteLoop' {a0} : ∀ n, Quiet (hereQuoteLoop a0 n) := by
  intro n
  induction n with
  | zero => unfold Lexer.hereQuoteLoop; exact Quiet.fail _
  | succ n ih => unfold Lexer.hereQuoteLoop; repeat' quiet1
theorem Quiet.hereQuoteLoop {a0} : ∀ n, Quiet (hereQuoteLoop a0 n) := Quiet.hereQuoteLoop'
theorem Quiet.hereIdLoop' : ∀ n, Quiet (hereIdLoop n) := by
  intro n
  induction n with
  | zero => unfold Lexer.hereIdLoop; exact Quiet.fail _
  | succ n ih => unfold Lexer.hereIdLoop; repeat' quiet1
theorem Quiet.hereIdLoop : ∀ n, Quiet (hereIdLoop n) := Quiet.hereIdLoop'
theorem Quiet.heredocStart {a0 a1 a2 a3 a4} : Quiet (heredocStart a0 a1 a2 a3 a4) := by
  unfold Lexer.heredocStart
  repeat' quiet1
theorem Quiet.heredocIdentifier : Quiet (heredocIdentifier) := by
  unfold Lexer.heredocIdentifier
  repeat' quiet1

/-- Combine with a specification. -/
theorem Wp.quiet {α : Type} {x : LexM α} {Q : α → Lexer → Prop} {s : Lexer} (h : Wp x Q s) (hq : Quiet x) :
    Wp x (fun a s' => Q a s' ∧ s'.comments = s.comments ∧ s'.magicComments = s.magicComments) s := by
  obtain ⟨a, s', e, h⟩ := h
  exact ⟨a, s', e, h, hq s a s' e⟩

end Verif.Lexer
