import Verif.Model.Lexer.Main
import Verif.Model.Grammar.Run
import Verif.Props.ReservedWords
/-! Only the tokens for brackets change the stacks `cond` and `cmdarg` and the count of open brackets: every other part of the lexer leaves
them alone and yields no bracket. -/
namespace Verif.Lexer
open Verif.Grammar (opens closes)

/-- `cond`, `cmdarg` and `paren_nest` are the same. -/
structure Level (s s' : Lexer) : Prop where
  cond : s'.cond = s.cond
  cmdarg : s'.cmdarg = s.cmdarg
  paren : s'.parenNest = s.parenNest

theorem Level.refl (s : Lexer) : Level s s := ⟨rfl, rfl, rfl⟩
theorem Level.trans {a b c : Lexer} (h : Level a b) (h' : Level b c) : Level a c :=
  ⟨h'.1.trans h.1, h'.2.trans h.2, h'.3.trans h.3⟩

/-- A result without brackets. -/
class Br (α : Type) where
  ok : α → Prop
instance (priority := low) anyBr {α : Type} : Br α := ⟨fun _ => True⟩
instance : Br Tok := ⟨fun t => opens t = false ∧ closes t = false⟩
instance : Br Next := ⟨fun n => match n with | .tok t => Br.ok t | _ => True⟩
instance : Br (Option Tok) := ⟨fun t => ∀ u, t = some u → Br.ok u⟩
instance {β : Type} : Br (Tok ⊕ β) := ⟨fun t => ∀ u, t = .inl u → Br.ok u⟩
instance {β : Type} : Br (Tok × β) := ⟨fun t => Br.ok t.1⟩
instance {β : Type} [Br β] : Br (Bool × β) := ⟨fun _ => True⟩
instance : Br OctRes := ⟨fun n => match n with | .tok t => Br.ok t | _ => True⟩
instance : Br (Option ReservedWord) := ⟨fun t => ∀ u, t = some u → Br.ok u.id ∧ Br.ok u.modifierId⟩
instance : Br ReservedWord := ⟨fun u => Br.ok u.id ∧ Br.ok u.modifierId⟩

theorem ok_tok {t : Tok} (h1 : opens t = false) (h2 : closes t = false) : Br.ok t := ⟨h1, h2⟩
theorem ok_some {t : Tok} (h : Br.ok t) : Br.ok (some t) := fun _ e => by cases e; exact h
theorem ok_none : Br.ok (none : Option Tok) := fun _ e => by cases e
theorem ok_inl {β : Type} {t : Tok} (h : Br.ok t) : Br.ok (Sum.inl t : Tok ⊕ β) := fun _ e => by cases e; exact h
theorem ok_inr {β : Type} {b : β} : Br.ok (Sum.inr b : Tok ⊕ β) := fun _ e => by cases e
theorem ok_noword : Br.ok (none : Option ReservedWord) := fun _ e => by cases e

section
variable {α β : Type} [Br α] [Br β]

/-- `x` changes none of the three fields and does not give a bracket. -/
def Neut (x : LexM α) : Prop := ∀ s a s', x s = .ok (a, s') → Level s s' ∧ Br.ok a

theorem Neut.pure {a : α} (h : Br.ok a) : Neut (Pure.pure a : LexM α) := by
  intro s b s' h
  cases h; exact ⟨.refl _, by assumption⟩
theorem Neut.bind {x : LexM β} {f : β → LexM α} (h : Neut x) (h' : ∀ b, Br.ok b → Neut (f b)) : Neut (x >>= f) := by
  intro s a s' e
  change StateT.bind x f s = _ at e
  simp only [StateT.bind, Bind.bind, Except.bind] at e
  cases hx : x s with
  | error p => rw [hx] at e; simp at e
  | ok r =>
    rw [hx] at e
    obtain ⟨b, s1⟩ := r
    have h1 := h s b s1 hx
    have h2 := h' b h1.2 s1 a s' e
    exact ⟨h1.1.trans h2.1, h2.2⟩
theorem Neut.map {x : LexM β} {f : β → α} (h : Neut x) (h' : ∀ b, Br.ok b → Br.ok (f b)) : Neut (f <$> x) := by
  intro s a s' e
  change StateT.map f x s = _ at e
  simp only [StateT.map, Bind.bind, Except.bind] at e
  cases hx : x s with
  | error p => rw [hx] at e; simp at e
  | ok r =>
    rw [hx] at e
    obtain ⟨b, s1⟩ := r
    cases e
    exact ⟨(h s b s1 hx).1, h' b (h s b s1 hx).2⟩
theorem Neut.ite {c : Prop} [Decidable c] {x y : LexM α} (h1 : Neut x) (h2 : Neut y) : Neut (if c then x else y) := by
  split <;> assumption
theorem Neut.fail (p : Panic) : Neut (fail p : LexM α) := by intro s a s' e; simp [Lexer.fail] at e
end

section
variable {α : Type}
theorem Neut.getS (f : Lexer → α) : Neut (getS f) := by intro s a s' e; cases e; exact ⟨.refl _, trivial⟩
theorem Neut.getB (f : Buffer → α) : Neut (getB f) := by intro s a s' e; cases e; exact ⟨.refl _, trivial⟩
theorem Neut.modB (f : Buffer → Buffer) : Neut (modB f) := by
  intro s a s' e; cases e; exact ⟨⟨rfl, rfl, rfl⟩, trivial⟩
theorem Neut.modS {f : Lexer → Lexer} (h : ∀ s, Level s (f s)) : Neut (modS f) := by intro s a s' e; cases e; exact ⟨h s, trivial⟩
theorem Neut.liftB (f : Buffer → Res α) : Neut (liftB f) := by
  intro s a s' e
  simp only [Lexer.liftB, Bind.bind, Except.bind, Pure.pure, Except.pure] at e
  cases hf : f s.buffer with
  | error p => rw [hf] at e; simp at e
  | ok r => rw [hf] at e; cases e; exact ⟨.refl _, trivial⟩
end

theorem Neut.word {tok : Bytes} : Neut (Lexer.liftB fun _ => reservedWord tok) := by
  intro s a s' e
  simp only [Lexer.liftB, Bind.bind, Except.bind, Pure.pure, Except.pure] at e
  obtain ⟨r, h1, h2⟩ := Verif.C18_lookup tok
  rw [h1] at e
  cases e
  refine ⟨.refl _, fun u hu => ?_⟩
  have hm := ((h2 u).1 hu).1
  have key : ∀ u ∈ reservedWordsList, (opens u.id = false ∧ closes u.id = false) ∧ opens u.modifierId = false ∧ closes u.modifierId = false := by
    decide +kernel
  exact key u hm

theorem Neut.buf {α : Type} {f : Buffer → Res (α × Buffer)} {x : LexM α} (hx : ∀ s, x s = (do let r ← f s.buffer; return (r.1, { s with buffer := r.2 }))) :
    Neut x := by
  intro s a s' e
  rw [hx] at e
  simp only [Bind.bind, Except.bind, Pure.pure, Except.pure] at e
  cases hf : f s.buffer with
  | error p => rw [hf] at e; simp at e
  | ok r => rw [hf] at e; cases e; exact ⟨⟨rfl, rfl, rfl⟩, trivial⟩
theorem Neut.buf' {f : Buffer → Res Buffer} {x : LexM Unit} (hx : ∀ s, x s = (do let r ← f s.buffer; return ((), { s with buffer := r }))) :
    Neut x := by
  intro s a s' e
  rw [hx] at e
  simp only [Bind.bind, Except.bind, Pure.pure, Except.pure] at e
  cases hf : f s.buffer with
  | error p => rw [hf] at e; simp at e
  | ok r => rw [hf] at e; cases e; exact ⟨⟨rfl, rfl, rfl⟩, trivial⟩
theorem Neut.nextc : Neut nextc := Neut.buf (f := (·.nextc)) fun _ => rfl
theorem Neut.pushback (c) : Neut (pushback c) := Neut.buf' (f := (·.pushback c)) fun _ => rfl
theorem Neut.pushbackByte : Neut pushbackByte := Neut.buf' (f := (·.pushbackByte)) fun _ => rfl
theorem Neut.emit {a b c} : Neut (emit a b c) := by
  intro s r s' e; cases e; exact ⟨⟨rfl, rfl, rfl⟩, trivial⟩

/-- Known functions. -/
syntax "neut_known" : tactic
macro_rules | `(tactic| neut_known) => `(tactic| with_reducible exact Neut.emit)

/-- Results. -/
macro "neut_ok" : tactic => `(tactic| first
  | exact trivial
  | assumption
  | exact ok_tok rfl rfl
  | exact ok_none
  | exact ok_noword
  | exact ok_inr
  | (refine ok_some ?_; first | assumption | exact ok_tok rfl rfl)
  | (refine ok_inl ?_; first | assumption | exact ok_tok rfl rfl)
  | (rename_i h; exact h _ rfl)
  | (rename_i h _; exact h _ rfl)
  | (rename_i h _ _; exact h _ rfl))

/-- One step. -/
macro "neut1" : tactic => `(tactic| first
  | ((with_reducible refine Neut.pure ?_); neut_ok)
  | with_reducible exact Neut.fail _
  | with_reducible exact Neut.word
  | with_reducible refine Neut.bind ?_ (fun _ _ => ?_)
  | ((with_reducible refine Neut.map ?_ ?_); rotate_left; (intro _ _; neut_ok))
  | with_reducible refine Neut.ite ?_ ?_
  | with_reducible exact Neut.getS _
  | with_reducible exact Neut.getB _
  | with_reducible exact Neut.modB _
  | with_reducible exact Neut.liftB _
  | with_reducible exact Neut.nextc
  | with_reducible exact Neut.pushback _
  | with_reducible exact Neut.pushbackByte
  | ((with_reducible refine Neut.modS ?_); intro s; first
      | exact ⟨rfl, rfl, rfl⟩
      | (split <;> exact ⟨rfl, rfl, rfl⟩))
  | with_reducible assumption
  | neut_known
  | split
  | dsimp only
  | fail "neut")

theorem Neut.fuel : Neut (fuel) := by unfold Lexer.fuel; repeat' neut1
macro_rules | `(tactic| neut_known) => `(tactic| with_reducible exact Neut.fuel)
theorem Neut.charAt {a0} : Neut (charAt a0) := by unfold Lexer.charAt; repeat' neut1
macro_rules | `(tactic| neut_known) => `(tactic| with_reducible exact Neut.charAt)
theorem Neut.pcur : Neut (pcur) := by unfold Lexer.pcur; repeat' neut1
macro_rules | `(tactic| neut_known) => `(tactic| with_reducible exact Neut.pcur)
theorem Neut.pcurSub {a0} : Neut (pcurSub a0) := by unfold Lexer.pcurSub; repeat' neut1
macro_rules | `(tactic| neut_known) => `(tactic| with_reducible exact Neut.pcurSub)
theorem Neut.peek {a0} : Neut (peek a0) := by unfold Lexer.peek; repeat' neut1
macro_rules | `(tactic| neut_known) => `(tactic| with_reducible exact Neut.peek)
theorem Neut.tokenFlush : Neut (tokenFlush) := by unfold Lexer.tokenFlush; repeat' neut1
macro_rules | `(tactic| neut_known) => `(tactic| with_reducible exact Neut.tokenFlush)
theorem Neut.setPtok {a0} : Neut (setPtok a0) := by unfold Lexer.setPtok; repeat' neut1
macro_rules | `(tactic| neut_known) => `(tactic| with_reducible exact Neut.setPtok)
theorem Neut.gotoEol : Neut (gotoEol) := by unfold Lexer.gotoEol; repeat' neut1
macro_rules | `(tactic| neut_known) => `(tactic| with_reducible exact Neut.gotoEol)
theorem Neut.getState : Neut (getState) := by unfold Lexer.getState; repeat' neut1
macro_rules | `(tactic| neut_known) => `(tactic| with_reducible exact Neut.getState)
theorem Neut.setState {a0} : Neut (setState a0) := by unfold Lexer.setState; repeat' neut1
macro_rules | `(tactic| neut_known) => `(tactic| with_reducible exact Neut.setState)
theorem Neut.setLval {a0} : Neut (setLval a0) := by unfold Lexer.setLval; repeat' neut1
macro_rules | `(tactic| neut_known) => `(tactic| with_reducible exact Neut.setLval)
theorem Neut.setYylvalName : Neut (setYylvalName) := by unfold Lexer.setYylvalName; repeat' neut1
macro_rules | `(tactic| neut_known) => `(tactic| with_reducible exact Neut.setYylvalName)
theorem Neut.tokadd {a0} : Neut (tokadd a0) := by unfold Lexer.tokadd; repeat' neut1
macro_rules | `(tactic| neut_known) => `(tactic| with_reducible exact Neut.tokadd)
theorem Neut.tokaddMB {a0} : Neut (tokaddMB a0) := by unfold Lexer.tokaddMB; repeat' neut1
macro_rules | `(tactic| neut_known) => `(tactic| with_reducible exact Neut.tokaddMB)
theorem Neut.warn {a0 a1} : Neut (warn a0 a1) := by unfold Lexer.warn; repeat' neut1
macro_rules | `(tactic| neut_known) => `(tactic| with_reducible exact Neut.warn)
theorem Neut.compileError {a0 a1} : Neut (compileError a0 a1) := by unfold Lexer.compileError; repeat' neut1
macro_rules | `(tactic| neut_known) => `(tactic| with_reducible exact Neut.compileError)
theorem Neut.currentLoc : Neut (currentLoc) := by unfold Lexer.currentLoc; repeat' neut1
macro_rules | `(tactic| neut_known) => `(tactic| with_reducible exact Neut.currentLoc)
theorem Neut.currentLocShort : Neut (currentLocShort) := by unfold Lexer.currentLocShort; repeat' neut1
macro_rules | `(tactic| neut_known) => `(tactic| with_reducible exact Neut.currentLocShort)
theorem Neut.yyerror0 {a0} : Neut (yyerror0 a0) := by unfold Lexer.yyerror0; repeat' neut1
macro_rules | `(tactic| neut_known) => `(tactic| with_reducible exact Neut.yyerror0)
theorem Neut.newStrterm {a0 a1 a2 a3} : Neut (newStrterm a0 a1 a2 a3) := by unfold Lexer.newStrterm; repeat' neut1
macro_rules | `(tactic| neut_known) => `(tactic| with_reducible exact Neut.newStrterm)
theorem Neut.warnBalanced {a0 a1 a2 a3 a4 a5} (h : Br.ok a0) : Neut (warnBalanced a0 a1 a2 a3 a4 a5) := by unfold Lexer.warnBalanced; repeat' neut1
macro_rules | `(tactic| neut_known) => `(tactic| ((with_reducible refine Neut.warnBalanced ?_); neut_ok))
theorem Neut.argAmbiguous {a0 a1} : Neut (argAmbiguous a0 a1) := by unfold Lexer.argAmbiguous; repeat' neut1
macro_rules | `(tactic| neut_known) => `(tactic| with_reducible exact Neut.argAmbiguous)
theorem Neut.toklen : Neut (toklen) := by unfold Lexer.toklen; repeat' neut1
macro_rules | `(tactic| neut_known) => `(tactic| with_reducible exact Neut.toklen)
theorem Neut.isLambdaBeginning : Neut (isLambdaBeginning) := by unfold Lexer.isLambdaBeginning; repeat' neut1
macro_rules | `(tactic| neut_known) => `(tactic| with_reducible exact Neut.isLambdaBeginning)
theorem Neut.newtok : Neut (newtok) := by unfold Lexer.newtok; repeat' neut1
macro_rules | `(tactic| neut_known) => `(tactic| with_reducible exact Neut.newtok)
theorem Neut.takeTok : Neut takeTok := by
  intro s r s' e; cases e; exact ⟨⟨rfl, rfl, rfl⟩, trivial⟩
macro_rules | `(tactic| neut_known) => `(tactic| with_reducible exact Neut.takeTok)
theorem Neut.isIdentchar : Neut (isIdentchar) := by unfold Lexer.isIdentchar; repeat' neut1
macro_rules | `(tactic| neut_known) => `(tactic| with_reducible exact Neut.isIdentchar)
theorem Neut.isAsciiPrev : Neut (isAsciiPrev) := by unfold Lexer.isAsciiPrev; repeat' neut1
macro_rules | `(tactic| neut_known) => `(tactic| with_reducible exact Neut.isAsciiPrev)
theorem Neut.multibyteCharLen {a0} : Neut (multibyteCharLen a0) := by unfold Lexer.multibyteCharLen; repeat' neut1
macro_rules | `(tactic| neut_known) => `(tactic| with_reducible exact Neut.multibyteCharLen)
theorem Neut.tokcopy {a0} : Neut (tokcopy a0) := by unfold Lexer.tokcopy; repeat' neut1
macro_rules | `(tactic| neut_known) => `(tactic| with_reducible exact Neut.tokcopy)
theorem Neut.tokaddMbchar {a0} : Neut (tokaddMbchar a0) := by unfold Lexer.tokaddMbchar; repeat' neut1
macro_rules | `(tactic| neut_known) => `(tactic| with_reducible exact Neut.tokaddMbchar)
theorem Neut.identLoop : ∀ {n a1}, Neut (identLoop n a1) := by
  intro n
  induction n with
  | zero => intro a1; unfold Lexer.identLoop; exact Neut.fail _
  | succ n ih => intro a1; unfold Lexer.identLoop; repeat' first | with_reducible exact ih | neut1
macro_rules | `(tactic| neut_known) => `(tactic| with_reducible exact Neut.identLoop)
theorem Neut.tokaddIdent {a0} : Neut (tokaddIdent a0) := by unfold Lexer.tokaddIdent; repeat' neut1
macro_rules | `(tactic| neut_known) => `(tactic| with_reducible exact Neut.tokaddIdent)
theorem Neut.isLabelSuffix {a0} : Neut (isLabelSuffix a0) := by unfold Lexer.isLabelSuffix; repeat' neut1
macro_rules | `(tactic| neut_known) => `(tactic| with_reducible exact Neut.isLabelSuffix)
theorem Neut.isLvarDefined {a0} : Neut (isLvarDefined a0) := by unfold Lexer.isLvarDefined; repeat' neut1
macro_rules | `(tactic| neut_known) => `(tactic| with_reducible exact Neut.isLvarDefined)
theorem Neut.normalNewline : Neut (normalNewline) := by unfold Lexer.normalNewline; repeat' neut1
macro_rules | `(tactic| neut_known) => `(tactic| with_reducible exact Neut.normalNewline)
theorem Neut.setStateAfterOp {a0} : Neut (setStateAfterOp a0) := by unfold Lexer.setStateAfterOp; repeat' neut1
macro_rules | `(tactic| neut_known) => `(tactic| with_reducible exact Neut.setStateAfterOp)
theorem Neut.spacearg {a0 a1} : Neut (spacearg a0 a1) := by unfold Lexer.spacearg; repeat' neut1
macro_rules | `(tactic| neut_known) => `(tactic| with_reducible exact Neut.spacearg)
theorem Neut.warnSpaceChar {a0 a1} : Neut (warnSpaceChar a0 a1) := by unfold Lexer.warnSpaceChar; repeat' neut1
macro_rules | `(tactic| neut_known) => `(tactic| with_reducible exact Neut.warnSpaceChar)
theorem Neut.setNumberLiteral {a0 a1 a2} (h : Br.ok a1) : Neut (setNumberLiteral a0 a1 a2) := by unfold Lexer.setNumberLiteral; repeat' neut1
macro_rules | `(tactic| neut_known) => `(tactic| ((with_reducible refine Neut.setNumberLiteral ?_); neut_ok))
theorem Neut.setIntegerLiteral {a0 a1} : Neut (setIntegerLiteral a0 a1) := by unfold Lexer.setIntegerLiteral; repeat' neut1
macro_rules | `(tactic| neut_known) => `(tactic| with_reducible exact Neut.setIntegerLiteral)
theorem Neut.invalidOctal : Neut (invalidOctal) := by unfold Lexer.invalidOctal; repeat' neut1
macro_rules | `(tactic| neut_known) => `(tactic| with_reducible exact Neut.invalidOctal)
theorem Neut.trailingUc {a0} : Neut (trailingUc a0) := by unfold Lexer.trailingUc; repeat' neut1
macro_rules | `(tactic| neut_known) => `(tactic| with_reducible exact Neut.trailingUc)
theorem Neut.noDigits : Neut (noDigits) := by unfold Lexer.noDigits; repeat' neut1
macro_rules | `(tactic| neut_known) => `(tactic| with_reducible exact Neut.noDigits)
theorem Neut.suffixLoop {a0} : ∀ {n a2 a3}, Neut (suffixLoop a0 n a2 a3) := by
  intro n
  induction n with
  | zero => intro a2 a3; unfold Lexer.suffixLoop; exact Neut.fail _
  | succ n ih => intro a2 a3; unfold Lexer.suffixLoop; repeat' first | with_reducible exact ih | neut1
macro_rules | `(tactic| neut_known) => `(tactic| with_reducible exact Neut.suffixLoop)
theorem Neut.numberLiteralSuffix {a0} : Neut (numberLiteralSuffix a0) := by unfold Lexer.numberLiteralSuffix; repeat' neut1
macro_rules | `(tactic| neut_known) => `(tactic| with_reducible exact Neut.numberLiteralSuffix)
theorem Neut.parseNumericFooter {a0 a1} : Neut (parseNumericFooter a0 a1) := by unfold Lexer.parseNumericFooter; repeat' neut1
macro_rules | `(tactic| neut_known) => `(tactic| with_reducible exact Neut.parseNumericFooter)
theorem Neut.decodeNum {a0 a1 a2 a3} : Neut (decodeNum a0 a1 a2 a3) := by unfold Lexer.decodeNum; repeat' neut1
macro_rules | `(tactic| neut_known) => `(tactic| with_reducible exact Neut.decodeNum)
theorem Neut.digitLoop {a0} : ∀ {n a2 a3}, Neut (digitLoop a0 n a2 a3) := by
  intro n
  induction n with
  | zero => intro a2 a3; unfold Lexer.digitLoop; exact Neut.fail _
  | succ n ih => intro a2 a3; unfold Lexer.digitLoop; repeat' first | with_reducible exact ih | neut1
macro_rules | `(tactic| neut_known) => `(tactic| with_reducible exact Neut.digitLoop)
theorem Neut.prefixed {a0 a1 a2} : Neut (prefixed a0 a1 a2) := by unfold Lexer.prefixed; repeat' neut1
macro_rules | `(tactic| neut_known) => `(tactic| with_reducible exact Neut.prefixed)
theorem Neut.octalLoop : ∀ {n a1 a2}, Neut (octalLoop n a1 a2) := by
  intro n
  induction n with
  | zero => intro a1 a2; unfold Lexer.octalLoop; exact Neut.fail _
  | succ n ih => intro a1 a2; unfold Lexer.octalLoop; repeat' first | with_reducible exact ih | neut1
macro_rules | `(tactic| neut_known) => `(tactic| with_reducible exact Neut.octalLoop)
theorem Neut.parseOctal {a0 a1 a2} : Neut (parseOctal a0 a1 a2) := by unfold Lexer.parseOctal; repeat' neut1
macro_rules | `(tactic| neut_known) => `(tactic| with_reducible exact Neut.parseOctal)
theorem Neut.numLoop : ∀ {n a1 a2 a3 a4 a5}, Neut (numLoop n a1 a2 a3 a4 a5) := by
  intro n
  induction n with
  | zero => intro a1 a2 a3 a4 a5; unfold Lexer.numLoop; exact Neut.fail _
  | succ n ih => intro a1 a2 a3 a4 a5; unfold Lexer.numLoop; repeat' first | with_reducible exact ih | neut1
macro_rules | `(tactic| neut_known) => `(tactic| with_reducible exact Neut.numLoop)
theorem Neut.afterZero {a0 a1} : Neut (afterZero a0 a1) := by unfold Lexer.afterZero; repeat' neut1
macro_rules | `(tactic| neut_known) => `(tactic| with_reducible exact Neut.afterZero)
theorem Neut.zeroOctal {a0 a1 a2} : Neut (zeroOctal a0 a1 a2) := by unfold Lexer.zeroOctal; repeat' neut1
macro_rules | `(tactic| neut_known) => `(tactic| with_reducible exact Neut.zeroOctal)
theorem Neut.zeroLiteral : Neut (zeroLiteral) := by unfold Lexer.zeroLiteral; repeat' neut1
macro_rules | `(tactic| neut_known) => `(tactic| with_reducible exact Neut.zeroLiteral)
theorem Neut.parseNumeric {a0} : Neut (parseNumeric a0) := by unfold Lexer.parseNumeric; repeat' neut1
macro_rules | `(tactic| neut_known) => `(tactic| with_reducible exact Neut.parseNumeric)
theorem Neut.tokaddmbc {a0} : Neut (tokaddmbc a0) := by unfold Lexer.tokaddmbc; repeat' neut1
macro_rules | `(tactic| neut_known) => `(tactic| with_reducible exact Neut.tokaddmbc)
theorem Neut.utf8Unterminated : Neut (utf8Unterminated) := by unfold Lexer.utf8Unterminated; repeat' neut1
macro_rules | `(tactic| neut_known) => `(tactic| with_reducible exact Neut.utf8Unterminated)
theorem Neut.tokaddCodepoint {a0 a1} : Neut (tokaddCodepoint a0 a1) := by unfold Lexer.tokaddCodepoint; repeat' neut1
macro_rules | `(tactic| neut_known) => `(tactic| with_reducible exact Neut.tokaddCodepoint)
theorem Neut.utf8Skip1 : ∀ {n}, Neut (utf8Skip1 n) := by
  intro n
  induction n with
  | zero => unfold Lexer.utf8Skip1; exact Neut.fail _
  | succ n ih => unfold Lexer.utf8Skip1; repeat' first | with_reducible exact ih | neut1
macro_rules | `(tactic| neut_known) => `(tactic| with_reducible exact Neut.utf8Skip1)
theorem Neut.utf8Skip2 : ∀ {n a1}, Neut (utf8Skip2 n a1) := by
  intro n
  induction n with
  | zero => intro a1; unfold Lexer.utf8Skip2; exact Neut.fail _
  | succ n ih => intro a1; unfold Lexer.utf8Skip2; repeat' first | with_reducible exact ih | neut1
macro_rules | `(tactic| neut_known) => `(tactic| with_reducible exact Neut.utf8Skip2)
theorem Neut.utf8Loop {a0 a1} : ∀ {n a3 a4 a5 a6}, Neut (utf8Loop a0 a1 n a3 a4 a5 a6) := by
  intro n
  induction n with
  | zero => intro a3 a4 a5 a6; unfold Lexer.utf8Loop; exact Neut.fail _
  | succ n ih => intro a3 a4 a5 a6; unfold Lexer.utf8Loop; repeat' first | with_reducible exact ih | neut1
macro_rules | `(tactic| neut_known) => `(tactic| with_reducible exact Neut.utf8Loop)
theorem Neut.tokaddUtf8 {a0 a1} : Neut (tokaddUtf8 a0 a1) := by unfold Lexer.tokaddUtf8; repeat' neut1
macro_rules | `(tactic| neut_known) => `(tactic| with_reducible exact Neut.tokaddUtf8)
theorem Neut.tokHex : Neut (tokHex) := by unfold Lexer.tokHex; repeat' neut1
macro_rules | `(tactic| neut_known) => `(tactic| with_reducible exact Neut.tokHex)
theorem Neut.tokaddEscape : Neut (tokaddEscape) := by unfold Lexer.tokaddEscape; repeat' neut1
macro_rules | `(tactic| neut_known) => `(tactic| with_reducible exact Neut.tokaddEscape)
theorem Neut.readEscapeEof : Neut (readEscapeEof) := by unfold Lexer.readEscapeEof; repeat' neut1
macro_rules | `(tactic| neut_known) => `(tactic| with_reducible exact Neut.readEscapeEof)
theorem Neut.peekU : Neut (peekU) := by unfold Lexer.peekU; repeat' neut1
macro_rules | `(tactic| neut_known) => `(tactic| with_reducible exact Neut.peekU)
theorem Neut.readEscape : ∀ {n a1 a2}, Neut (readEscape n a1 a2) := by
  intro n
  induction n with
  | zero => intro a1 a2; unfold Lexer.readEscape; exact Neut.fail _
  | succ n ih => intro a1 a2; unfold Lexer.readEscape; repeat' first | with_reducible exact ih | neut1
macro_rules | `(tactic| neut_known) => `(tactic| with_reducible exact Neut.readEscape)
theorem Neut.tsEscapeOther {a0 a1 a2 a3 a4} : Neut (tsEscapeOther a0 a1 a2 a3 a4) := by unfold Lexer.tsEscapeOther; repeat' neut1
macro_rules | `(tactic| neut_known) => `(tactic| with_reducible exact Neut.tsEscapeOther)
theorem Neut.tsBackslash {a0 a1 a2 a3} : Neut (tsBackslash a0 a1 a2 a3) := by unfold Lexer.tsBackslash; repeat' neut1
macro_rules | `(tactic| neut_known) => `(tactic| with_reducible exact Neut.tsBackslash)
theorem Neut.tsStep {a0 a1 a2 a3} : Neut (tsStep a0 a1 a2 a3) := by unfold Lexer.tsStep; repeat' neut1
macro_rules | `(tactic| neut_known) => `(tactic| with_reducible exact Neut.tsStep)
theorem Neut.tsLoop {a0 a1 a2} : ∀ {n a4}, Neut (tsLoop a0 a1 a2 n a4) := by
  intro n
  induction n with
  | zero => intro a4; unfold Lexer.tsLoop; exact Neut.fail _
  | succ n ih => intro a4; unfold Lexer.tsLoop; repeat' first | with_reducible exact ih | neut1
macro_rules | `(tactic| neut_known) => `(tactic| with_reducible exact Neut.tsLoop)
theorem Neut.tokaddString {a0 a1 a2 a3} : Neut (tokaddString a0 a1 a2 a3) := by unfold Lexer.tokaddString; repeat' neut1
macro_rules | `(tactic| neut_known) => `(tactic| with_reducible exact Neut.tokaddString)
theorem Neut.peekVariableName : Neut (peekVariableName) := by unfold Lexer.peekVariableName; repeat' neut1
macro_rules | `(tactic| neut_known) => `(tactic| with_reducible exact Neut.peekVariableName)
theorem Neut.regxLoop : ∀ {n a1}, Neut (regxLoop n a1) := by
  intro n
  induction n with
  | zero => intro a1; unfold Lexer.regxLoop; exact Neut.fail _
  | succ n ih => intro a1; unfold Lexer.regxLoop; repeat' first | with_reducible exact ih | neut1
macro_rules | `(tactic| neut_known) => `(tactic| with_reducible exact Neut.regxLoop)
theorem Neut.regxOptions : Neut (regxOptions) := by unfold Lexer.regxOptions; repeat' neut1
macro_rules | `(tactic| neut_known) => `(tactic| with_reducible exact Neut.regxOptions)
theorem Neut.stringTerm {a0 a1} : Neut (stringTerm a0 a1) := by unfold Lexer.stringTerm; repeat' neut1
macro_rules | `(tactic| neut_known) => `(tactic| with_reducible exact Neut.stringTerm)
theorem Neut.skipSpaces : ∀ {n}, Neut (skipSpaces n) := by
  intro n
  induction n with
  | zero => unfold Lexer.skipSpaces; exact Neut.fail _
  | succ n ih => unfold Lexer.skipSpaces; repeat' first | with_reducible exact ih | neut1
macro_rules | `(tactic| neut_known) => `(tactic| with_reducible exact Neut.skipSpaces)
theorem Neut.restoreStrterm {a0} : Neut (restoreStrterm a0) := by unfold Lexer.restoreStrterm; repeat' neut1
macro_rules | `(tactic| neut_known) => `(tactic| with_reducible exact Neut.restoreStrterm)
theorem Neut.stringContent {a0 a1 a2 a3} : Neut (stringContent a0 a1 a2 a3) := by unfold Lexer.stringContent; repeat' neut1
macro_rules | `(tactic| neut_known) => `(tactic| with_reducible exact Neut.stringContent)
theorem Neut.parseString {a0} : Neut (parseString a0) := by unfold Lexer.parseString; repeat' neut1
macro_rules | `(tactic| neut_known) => `(tactic| with_reducible exact Neut.parseString)
theorem Neut.hereQuoteLoop {a0} : ∀ {n}, Neut (hereQuoteLoop a0 n) := by
  intro n
  induction n with
  | zero => unfold Lexer.hereQuoteLoop; exact Neut.fail _
  | succ n ih => unfold Lexer.hereQuoteLoop; repeat' first | with_reducible exact ih | neut1
macro_rules | `(tactic| neut_known) => `(tactic| with_reducible exact Neut.hereQuoteLoop)
theorem Neut.hereIdLoop : ∀ {n}, Neut (hereIdLoop n) := by
  intro n
  induction n with
  | zero => unfold Lexer.hereIdLoop; exact Neut.fail _
  | succ n ih => unfold Lexer.hereIdLoop; repeat' first | with_reducible exact ih | neut1
macro_rules | `(tactic| neut_known) => `(tactic| with_reducible exact Neut.hereIdLoop)
theorem Neut.heredocStart {a0 a1 a2 a3 a4} (h : Br.ok a0) : Neut (heredocStart a0 a1 a2 a3 a4) := by unfold Lexer.heredocStart; repeat' neut1
macro_rules | `(tactic| neut_known) => `(tactic| ((with_reducible refine Neut.heredocStart ?_); neut_ok))
theorem Neut.heredocIdentifier : Neut (heredocIdentifier) := by unfold Lexer.heredocIdentifier; repeat' neut1
macro_rules | `(tactic| neut_known) => `(tactic| with_reducible exact Neut.heredocIdentifier)
theorem Neut.computeHeredocEnd : Neut (computeHeredocEnd) := by unfold Lexer.computeHeredocEnd; repeat' neut1
macro_rules | `(tactic| neut_known) => `(tactic| with_reducible exact Neut.computeHeredocEnd)
theorem Neut.heredocRestore {a0} : Neut (heredocRestore a0) := by unfold Lexer.heredocRestore; repeat' neut1
macro_rules | `(tactic| neut_known) => `(tactic| with_reducible exact Neut.heredocRestore)
theorem Neut.hereDocumentError {a0 a1 a2} : Neut (hereDocumentError a0 a1 a2) := by unfold Lexer.hereDocumentError; repeat' neut1
macro_rules | `(tactic| neut_known) => `(tactic| with_reducible exact Neut.hereDocumentError)
theorem Neut.hereDocumentRestore {a0} : Neut (hereDocumentRestore a0) := by unfold Lexer.hereDocumentRestore; repeat' neut1
macro_rules | `(tactic| neut_known) => `(tactic| with_reducible exact Neut.hereDocumentRestore)
theorem Neut.heredocFlushStr {a0} : Neut (heredocFlushStr a0) := by unfold Lexer.heredocFlushStr; repeat' neut1
macro_rules | `(tactic| neut_known) => `(tactic| with_reducible exact Neut.heredocFlushStr)
theorem Neut.heredocFlush : Neut (heredocFlush) := by unfold Lexer.heredocFlush; repeat' neut1
macro_rules | `(tactic| neut_known) => `(tactic| with_reducible exact Neut.heredocFlush)
theorem Neut.atHeredocEnd {a0 a1 a2} : Neut (atHeredocEnd a0 a1 a2) := by unfold Lexer.atHeredocEnd; repeat' neut1
macro_rules | `(tactic| neut_known) => `(tactic| with_reducible exact Neut.atHeredocEnd)
theorem Neut.hereRawLoop {a0 a1 a2 a3} : ∀ {n a5}, Neut (hereRawLoop a0 a1 a2 a3 n a5) := by
  intro n
  induction n with
  | zero => intro a5; unfold Lexer.hereRawLoop; exact Neut.fail _
  | succ n ih => intro a5; unfold Lexer.hereRawLoop; repeat' first | with_reducible exact ih | neut1
macro_rules | `(tactic| neut_known) => `(tactic| with_reducible exact Neut.hereRawLoop)
theorem Neut.hereExpandLoop {a0 a1 a2 a3} : ∀ {n a5}, Neut (hereExpandLoop a0 a1 a2 a3 n a5) := by
  intro n
  induction n with
  | zero => intro a5; unfold Lexer.hereExpandLoop; exact Neut.fail _
  | succ n ih => intro a5; unfold Lexer.hereExpandLoop; repeat' first | with_reducible exact ih | neut1
macro_rules | `(tactic| neut_known) => `(tactic| with_reducible exact Neut.hereExpandLoop)
theorem Neut.hereFinish {a0 a1 a2} : Neut (hereFinish a0 a1 a2) := by unfold Lexer.hereFinish; repeat' neut1
macro_rules | `(tactic| neut_known) => `(tactic| with_reducible exact Neut.hereFinish)
theorem Neut.hereBody {a0 a1 a2 a3 a4} : Neut (hereBody a0 a1 a2 a3 a4) := by unfold Lexer.hereBody; repeat' neut1
macro_rules | `(tactic| neut_known) => `(tactic| with_reducible exact Neut.hereBody)
theorem Neut.hereDocument {a0} : Neut (hereDocument a0) := by unfold Lexer.hereDocument; repeat' neut1
macro_rules | `(tactic| neut_known) => `(tactic| with_reducible exact Neut.hereDocument)
theorem Neut.setterSuffix : Neut (setterSuffix) := by unfold Lexer.setterSuffix; repeat' neut1
macro_rules | `(tactic| neut_known) => `(tactic| with_reducible exact Neut.setterSuffix)
theorem Neut.identSuffix {a0} : Neut (identSuffix a0) := by unfold Lexer.identSuffix; repeat' neut1
macro_rules | `(tactic| neut_known) => `(tactic| with_reducible exact Neut.identSuffix)
theorem Neut.identKeyword {a0} (h : Br.ok a0) : Neut (identKeyword a0) := by
  have h1 : Br.ok a0.id := h.1
  have h2 : Br.ok a0.modifierId := h.2
  unfold Lexer.identKeyword; repeat' neut1
macro_rules | `(tactic| neut_known) => `(tactic| ((with_reducible refine Neut.identKeyword ?_); neut_ok))
theorem Neut.identName {a0 a1 a2 a3} (h : Br.ok a2) : Neut (identName a0 a1 a2 a3) := by unfold Lexer.identName; repeat' neut1
macro_rules | `(tactic| neut_known) => `(tactic| ((with_reducible refine Neut.identName ?_); neut_ok))
theorem Neut.parseIdent {a0 a1 a2} : Neut (parseIdent a0 a1 a2) := by unfold Lexer.parseIdent; repeat' neut1
macro_rules | `(tactic| neut_known) => `(tactic| with_reducible exact Neut.parseIdent)
theorem Neut.nthLoop : ∀ {n a1}, Neut (nthLoop n a1) := by
  intro n
  induction n with
  | zero => intro a1; unfold Lexer.nthLoop; exact Neut.fail _
  | succ n ih => intro a1; unfold Lexer.nthLoop; repeat' first | with_reducible exact ih | neut1
macro_rules | `(tactic| neut_known) => `(tactic| with_reducible exact Neut.nthLoop)
theorem Neut.gvarName {a0} : Neut (gvarName a0) := by unfold Lexer.gvarName; repeat' neut1
macro_rules | `(tactic| neut_known) => `(tactic| with_reducible exact Neut.gvarName)
theorem Neut.parseGvar {a0} : Neut (parseGvar a0) := by unfold Lexer.parseGvar; repeat' neut1
macro_rules | `(tactic| neut_known) => `(tactic| with_reducible exact Neut.parseGvar)
theorem Neut.parseAtmark {a0} : Neut (parseAtmark a0) := by unfold Lexer.parseAtmark; repeat' neut1
macro_rules | `(tactic| neut_known) => `(tactic| with_reducible exact Neut.parseAtmark)
theorem Neut.qmarkTernary {a0} : Neut (qmarkTernary a0) := by unfold Lexer.qmarkTernary; repeat' neut1
macro_rules | `(tactic| neut_known) => `(tactic| with_reducible exact Neut.qmarkTernary)
theorem Neut.qmarkNameLoop : ∀ {n a1}, Neut (qmarkNameLoop n a1) := by
  intro n
  induction n with
  | zero => intro a1; unfold Lexer.qmarkNameLoop; exact Neut.fail _
  | succ n ih => intro a1; unfold Lexer.qmarkNameLoop; repeat' first | with_reducible exact ih | neut1
macro_rules | `(tactic| neut_known) => `(tactic| with_reducible exact Neut.qmarkNameLoop)
theorem Neut.qmarkChar : Neut (qmarkChar) := by unfold Lexer.qmarkChar; repeat' neut1
macro_rules | `(tactic| neut_known) => `(tactic| with_reducible exact Neut.qmarkChar)
theorem Neut.qmarkName {a0 a1} : Neut (qmarkName a0 a1) := by unfold Lexer.qmarkName; repeat' neut1
macro_rules | `(tactic| neut_known) => `(tactic| with_reducible exact Neut.qmarkName)
theorem Neut.qmarkEscape : Neut (qmarkEscape) := by unfold Lexer.qmarkEscape; repeat' neut1
macro_rules | `(tactic| neut_known) => `(tactic| with_reducible exact Neut.qmarkEscape)
theorem Neut.parseQmark {a0} : Neut (parseQmark a0) := by unfold Lexer.parseQmark; repeat' neut1
macro_rules | `(tactic| neut_known) => `(tactic| with_reducible exact Neut.parseQmark)
theorem Neut.percentUnknown {a0} : Neut (percentUnknown a0) := by unfold Lexer.percentUnknown; repeat' neut1
macro_rules | `(tactic| neut_known) => `(tactic| with_reducible exact Neut.percentUnknown)
theorem Neut.percentUnterminated : Neut (percentUnterminated) := by unfold Lexer.percentUnterminated; repeat' neut1
macro_rules | `(tactic| neut_known) => `(tactic| with_reducible exact Neut.percentUnterminated)
theorem Neut.percentOpen {a0 a1 a2} : Neut (percentOpen a0 a1 a2) := by unfold Lexer.percentOpen; repeat' neut1
macro_rules | `(tactic| neut_known) => `(tactic| with_reducible exact Neut.percentOpen)
theorem Neut.percentQuotation {a0 a1} : Neut (percentQuotation a0 a1) := by unfold Lexer.percentQuotation; repeat' neut1
macro_rules | `(tactic| neut_known) => `(tactic| with_reducible exact Neut.percentQuotation)
theorem Neut.parsePercent {a0 a1} : Neut (parsePercent a0 a1) := by unfold Lexer.parsePercent; repeat' neut1
macro_rules | `(tactic| neut_known) => `(tactic| with_reducible exact Neut.parsePercent)
theorem Neut.mcRecord {a b c d} : ∀ {l}, Neut (mcRecord a b c d l) := by
  intro l
  induction l with
  | nil => exact Neut.pure trivial
  | cons h t ih => obtain ⟨h1, h2⟩ := h; unfold Lexer.mcRecord; repeat' first | with_reducible exact ih | neut1
macro_rules | `(tactic| neut_known) => `(tactic| with_reducible exact Neut.mcRecord)
theorem Neut.mcLoop {a0 a1} : ∀ {n a3 a4}, Neut (mcLoop a0 a1 n a3 a4) := by
  intro n
  induction n with
  | zero => intro a3 a4; unfold Lexer.mcLoop; exact Neut.fail _
  | succ n ih => intro a3 a4; unfold Lexer.mcLoop; repeat' first | with_reducible exact ih | neut1
macro_rules | `(tactic| neut_known) => `(tactic| with_reducible exact Neut.mcLoop)
theorem Neut.magicComment {a0 a1 a2} : Neut (magicComment a0 a1 a2) := by unfold Lexer.magicComment; repeat' neut1
macro_rules | `(tactic| neut_known) => `(tactic| with_reducible exact Neut.magicComment)
theorem Neut.done {a0} (h : Br.ok a0) : Neut (done a0) := by unfold Lexer.done; repeat' neut1
macro_rules | `(tactic| neut_known) => `(tactic| ((with_reducible refine Neut.done ?_); neut_ok))
theorem Neut.opAsgn {a0} : Neut (opAsgn a0) := by unfold Lexer.opAsgn; repeat' neut1
macro_rules | `(tactic| neut_known) => `(tactic| with_reducible exact Neut.opAsgn)
theorem Neut.liftBuf {f} : Neut (newlineLoop.liftBuf f) := Neut.buf' (f := f) fun _ => rfl
macro_rules | `(tactic| neut_known) => `(tactic| with_reducible exact Neut.liftBuf)
theorem Neut.newlineLoop : ∀ {n a1}, Neut (newlineLoop n a1) := by
  intro n
  induction n with
  | zero => intro a1; unfold Lexer.newlineLoop; exact Neut.fail _
  | succ n ih => intro a1; unfold Lexer.newlineLoop; repeat' first | with_reducible exact ih | neut1
macro_rules | `(tactic| neut_known) => `(tactic| with_reducible exact Neut.newlineLoop)
theorem Neut.lexNewline {a0 a1} : Neut (lexNewline a0 a1) := by unfold Lexer.lexNewline; repeat' neut1
macro_rules | `(tactic| neut_known) => `(tactic| with_reducible exact Neut.lexNewline)
theorem Neut.pushComment {a0} : Neut (pushComment a0) := by unfold Lexer.pushComment; repeat' neut1
macro_rules | `(tactic| neut_known) => `(tactic| with_reducible exact Neut.pushComment)
theorem Neut.lexComment {a0 a1 a2} : Neut (lexComment a0 a1 a2) := by unfold Lexer.lexComment; repeat' neut1
macro_rules | `(tactic| neut_known) => `(tactic| with_reducible exact Neut.lexComment)
theorem Neut.lexStar {a0 a1} : Neut (lexStar a0 a1) := by unfold Lexer.lexStar; repeat' neut1
macro_rules | `(tactic| neut_known) => `(tactic| with_reducible exact Neut.lexStar)
theorem Neut.lexBang : Neut (lexBang) := by unfold Lexer.lexBang; repeat' neut1
macro_rules | `(tactic| neut_known) => `(tactic| with_reducible exact Neut.lexBang)
theorem Neut.embdocLoop {a0} : ∀ {n}, Neut (embdocLoop a0 n) := by
  intro n
  induction n with
  | zero => unfold Lexer.embdocLoop; exact Neut.fail _
  | succ n ih => unfold Lexer.embdocLoop; repeat' first | with_reducible exact ih | neut1
macro_rules | `(tactic| neut_known) => `(tactic| with_reducible exact Neut.embdocLoop)
theorem Neut.lexEqOp : Neut (lexEqOp) := by unfold Lexer.lexEqOp; repeat' neut1
macro_rules | `(tactic| neut_known) => `(tactic| with_reducible exact Neut.lexEqOp)
theorem Neut.lexEq {a0} : Neut (lexEq a0) := by unfold Lexer.lexEq; repeat' neut1
macro_rules | `(tactic| neut_known) => `(tactic| with_reducible exact Neut.lexEq)
theorem Neut.lexLtOp {a0 a1 a2} : Neut (lexLtOp a0 a1 a2) := by unfold Lexer.lexLtOp; repeat' neut1
macro_rules | `(tactic| neut_known) => `(tactic| with_reducible exact Neut.lexLtOp)
theorem Neut.lexLt {a0 a1} : Neut (lexLt a0 a1) := by unfold Lexer.lexLt; repeat' neut1
macro_rules | `(tactic| neut_known) => `(tactic| with_reducible exact Neut.lexLt)
theorem Neut.lexGt : Neut (lexGt) := by unfold Lexer.lexGt; repeat' neut1
macro_rules | `(tactic| neut_known) => `(tactic| with_reducible exact Neut.lexGt)
theorem Neut.lexQuote {a0 a1 a2} : Neut (lexQuote a0 a1 a2) := by unfold Lexer.lexQuote; repeat' neut1
macro_rules | `(tactic| neut_known) => `(tactic| with_reducible exact Neut.lexQuote)
theorem Neut.lexBacktick {a0} : Neut (lexBacktick a0) := by unfold Lexer.lexBacktick; repeat' neut1
macro_rules | `(tactic| neut_known) => `(tactic| with_reducible exact Neut.lexBacktick)
theorem Neut.lexAmp {a0 a1} : Neut (lexAmp a0 a1) := by unfold Lexer.lexAmp; repeat' neut1
macro_rules | `(tactic| neut_known) => `(tactic| with_reducible exact Neut.lexAmp)
theorem Neut.lexPipe {a0} : Neut (lexPipe a0) := by unfold Lexer.lexPipe; repeat' neut1
macro_rules | `(tactic| neut_known) => `(tactic| with_reducible exact Neut.lexPipe)
theorem Neut.unaryHere {a0 a1 a2} : Neut (unaryHere a0 a1 a2) := by unfold Lexer.unaryHere; repeat' neut1
macro_rules | `(tactic| neut_known) => `(tactic| with_reducible exact Neut.unaryHere)
theorem Neut.lexPlus {a0 a1} : Neut (lexPlus a0 a1) := by unfold Lexer.lexPlus; repeat' neut1
macro_rules | `(tactic| neut_known) => `(tactic| with_reducible exact Neut.lexPlus)
theorem Neut.lexMinus {a0 a1} : Neut (lexMinus a0 a1) := by unfold Lexer.lexMinus; repeat' neut1
macro_rules | `(tactic| neut_known) => `(tactic| with_reducible exact Neut.lexMinus)
theorem Neut.lexDot3 {a0 a1} : Neut (lexDot3 a0 a1) := by unfold Lexer.lexDot3; repeat' neut1
macro_rules | `(tactic| neut_known) => `(tactic| with_reducible exact Neut.lexDot3)
theorem Neut.lexDotDigit {a0} : Neut (lexDotDigit a0) := by unfold Lexer.lexDotDigit; repeat' neut1
macro_rules | `(tactic| neut_known) => `(tactic| with_reducible exact Neut.lexDotDigit)
theorem Neut.lexDot {a0 a1} : Neut (lexDot a0 a1) := by unfold Lexer.lexDot; repeat' neut1
macro_rules | `(tactic| neut_known) => `(tactic| with_reducible exact Neut.lexDot)
theorem Neut.lexColon {a0 a1} : Neut (lexColon a0 a1) := by unfold Lexer.lexColon; repeat' neut1
macro_rules | `(tactic| neut_known) => `(tactic| with_reducible exact Neut.lexColon)
theorem Neut.lexSlash {a0 a1} : Neut (lexSlash a0 a1) := by unfold Lexer.lexSlash; repeat' neut1
macro_rules | `(tactic| neut_known) => `(tactic| with_reducible exact Neut.lexSlash)
theorem Neut.lexCaret : Neut (lexCaret) := by unfold Lexer.lexCaret; repeat' neut1
macro_rules | `(tactic| neut_known) => `(tactic| with_reducible exact Neut.lexCaret)
theorem Neut.lexSemi : Neut (lexSemi) := by unfold Lexer.lexSemi; repeat' neut1
macro_rules | `(tactic| neut_known) => `(tactic| with_reducible exact Neut.lexSemi)
theorem Neut.lexComma : Neut (lexComma) := by unfold Lexer.lexComma; repeat' neut1
macro_rules | `(tactic| neut_known) => `(tactic| with_reducible exact Neut.lexComma)
theorem Neut.lexTilde : Neut (lexTilde) := by unfold Lexer.lexTilde; repeat' neut1
macro_rules | `(tactic| neut_known) => `(tactic| with_reducible exact Neut.lexTilde)
theorem Neut.lexBackslash : Neut (lexBackslash) := by unfold Lexer.lexBackslash; repeat' neut1
macro_rules | `(tactic| neut_known) => `(tactic| with_reducible exact Neut.lexBackslash)
theorem Neut.lexUnderscore : Neut (lexUnderscore) := by unfold Lexer.lexUnderscore; repeat' neut1
macro_rules | `(tactic| neut_known) => `(tactic| with_reducible exact Neut.lexUnderscore)
theorem Neut.lexOther {a0 a1} : Neut (lexOther a0 a1) := by unfold Lexer.lexOther; repeat' neut1
macro_rules | `(tactic| neut_known) => `(tactic| with_reducible exact Neut.lexOther)
theorem Neut.lexCr : Neut (lexCr) := by unfold Lexer.lexCr; repeat' neut1
macro_rules | `(tactic| neut_known) => `(tactic| with_reducible exact Neut.lexCr)

end Verif.Lexer
