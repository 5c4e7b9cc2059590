import Verif.Lemmas.LexMagic
import Verif.Model.Lexer.Numeric
/-! A number that is read without diagnostics and within a line leaves the start of the token alone. -/
namespace Verif.Lexer
section
variable {α β : Type}

/-- From `s` to `s'` the diagnostics and the lines only grow; if they do not, the start of the token stays. -/
structure KeepsR (s s' : Lexer) : Prop where
  nl : s'.buffer.nextline = 0
  diag : s.diagnostics <+: s'.diagnostics
  line : s.buffer.lineCount ≤ s'.buffer.lineCount
  ptok : s'.diagnostics = s.diagnostics → s'.buffer.lineCount = s.buffer.lineCount → s'.buffer.ptok = s.buffer.ptok
  state : s.lexState = EXPR_END → s'.lexState = EXPR_END

theorem KeepsR.refl {s : Lexer} (h : s.buffer.nextline = 0) : KeepsR s s := ⟨h, List.prefix_refl _, Nat.le_refl _, fun _ _ => rfl, id⟩
theorem KeepsR.trans {a b c : Lexer} (h : KeepsR a b) (h' : KeepsR b c) : KeepsR a c := by
  refine ⟨h'.nl, h.diag.trans h'.diag, Nat.le_trans h.line h'.line, fun e1 e2 => ?_, fun e => h'.state (h.state e)⟩
  have d1 : b.diagnostics = a.diagnostics := (h.diag.eq_of_length_le (by rw [← e1]; exact h'.diag.length_le)).symm
  have l1 : b.buffer.lineCount = a.buffer.lineCount := by have := h.line; have := h'.line; omega
  rw [h'.ptok (by rw [e1, d1]) (by omega), h.ptok d1 l1]

/-- `x` keeps the start of the token. -/
def Keeps (x : LexM α) : Prop := ∀ s a s', s.buffer.nextline = 0 → x s = .ok (a, s') → KeepsR s s'

theorem Keeps.pure (a : α) : Keeps (Pure.pure a : LexM α) := by
  intro s b s' h0 h
  cases h; exact .refl h0
theorem Keeps.bind {x : LexM β} {f : β → LexM α} (h : Keeps x) (h' : ∀ b, Keeps (f b)) : Keeps (x >>= f) := by
  intro s a s' h0 e
  change StateT.bind x f s = _ at e
  simp only [StateT.bind, Bind.bind, Except.bind] at e
  cases hx : x s with
  | error p => rw [hx] at e; simp at e
  | ok r =>
    rw [hx] at e
    obtain ⟨b, s1⟩ := r
    have h1 := h s b s1 h0 hx
    exact h1.trans (h' b s1 a s' h1.nl e)
theorem Keeps.ite {c : Prop} [Decidable c] {x y : LexM α} (h1 : Keeps x) (h2 : Keeps y) : Keeps (if c then x else y) := by
  split <;> assumption
theorem Keeps.fail (p : Panic) : Keeps (fail p : LexM α) := by intro s a s' _ e; simp [Lexer.fail] at e
theorem Keeps.getS (f : Lexer → α) : Keeps (getS f) := by intro s a s' h0 e; cases e; exact .refl h0
theorem Keeps.getB (f : Buffer → α) : Keeps (getB f) := by intro s a s' h0 e; cases e; exact .refl h0
theorem Keeps.modS {f : Lexer → Lexer} (h : ∀ s : Lexer, s.buffer.nextline = 0 → KeepsR s (f s)) : Keeps (modS f) := by
  intro s a s' h0 e; cases e; exact h s h0
theorem Keeps.modB {f : Buffer → Buffer} (h : ∀ s : Lexer, s.buffer.nextline = 0 → KeepsR s { s with buffer := f s.buffer }) : Keeps (modB f) := by
  intro s a s' h0 e; cases e; exact h s h0
theorem Keeps.liftB (f : Buffer → Res α) : Keeps (liftB f) := by
  intro s a s' h0 e
  simp only [Lexer.liftB, Bind.bind, Except.bind, Pure.pure, Except.pure] at e
  cases hf : f s.buffer with
  | error p => rw [hf] at e; simp at e
  | ok r => rw [hf] at e; cases e; exact .refl h0
end

theorem readByte_keeps {b b' : Buffer} {c : MB} (h : b.readByte = .ok (c, b')) :
    b'.nextline = b.nextline ∧ b'.lineCount = b.lineCount ∧ b'.ptok = b.ptok := by
  unfold Buffer.readByte at h
  split at h
  · cases h; exact ⟨rfl, rfl, rfl⟩
  · simp only at h
    split at h
    · simp only [Buffer.parserCr, Bind.bind, Except.bind, Pure.pure, Except.pure] at h
      split at h
      · cases h
      · rename_i h2
        cases h
        split at h2
        · cases h2
        · split at h2 <;> cases h2 <;> exact ⟨rfl, rfl, rfl⟩
    · cases h; exact ⟨rfl, rfl, rfl⟩

theorem loadLine_keeps {b b' : Buffer} {v : Nat} (h : b.loadLine v = .ok b') : b'.nextline = b.nextline ∧ b'.lineCount = b.lineCount := by
  simp only [Buffer.loadLine, Bind.bind, Except.bind, Pure.pure, Except.pure, Buffer.tokenFlush, Buffer.setPtok] at h
  split at h
  · cases h
  · cases h; constructor <;> (simp only; split <;> rfl)

theorem nextlineFn_keeps {b b' : Buffer} {r : Bool} (h0 : b.nextline = 0) (h : b.nextlineFn = .ok (r, b')) :
    b'.nextline = 0 ∧ b.lineCount ≤ b'.lineCount ∧ (b'.lineCount = b.lineCount → b'.ptok = b.ptok) := by
  unfold Buffer.nextlineFn at h
  simp only [h0, if_true] at h
  split at h
  · cases h; exact ⟨rfl, Nat.le_refl _, fun _ => rfl⟩
  · simp only [Bind.bind, Except.bind, Pure.pure, Except.pure] at h
    split at h
    on_goal 1 => split at h; · cases h
    all_goals
      split at h
      · cases h; exact ⟨rfl, Nat.le_refl _, fun _ => rfl⟩
      · simp only [Buffer.getline] at h
        split at h
        · rename_i hg
          split at hg
          · simp only [Option.some.injEq, Prod.mk.injEq] at hg
            obtain ⟨rfl, rfl⟩ := hg
            split at h
            · cases h
            · rename_i hl
              cases h
              obtain ⟨e1, e2⟩ := loadLine_keeps hl
              simp only at e1 e2
              exact ⟨e1, by omega, fun e => by omega⟩
          · cases hg
        · cases h; exact ⟨rfl, Nat.le_refl _, fun _ => rfl⟩

theorem Keeps.nextc : Keeps nextc := by
  intro s a s' h0 e
  simp only [Lexer.nextc, Bind.bind, Except.bind, Pure.pure, Except.pure] at e
  cases hf : s.buffer.nextc with
  | error p => rw [hf] at e; simp at e
  | ok r =>
    rw [hf] at e; cases e
    obtain ⟨c, b'⟩ := r
    have : b'.nextline = 0 ∧ s.buffer.lineCount ≤ b'.lineCount ∧ (b'.lineCount = s.buffer.lineCount → b'.ptok = s.buffer.ptok) := by
      unfold Buffer.nextc at hf
      split at hf
      · simp only [Bind.bind, Except.bind, Pure.pure, Except.pure] at hf
        split at hf
        · cases hf
        · rename_i h1
          split at hf
          · cases hf; exact nextlineFn_keeps h0 h1
          · obtain ⟨e1, e2, e3⟩ := nextlineFn_keeps h0 h1
            obtain ⟨f1, f2, f3⟩ := readByte_keeps hf
            exact ⟨by rw [f1, e1], by omega, fun e => by rw [f3, e3 (by omega)]⟩
      · obtain ⟨f1, f2, f3⟩ := readByte_keeps hf
        exact ⟨by rw [f1, h0], by omega, fun e => f3⟩
    exact ⟨this.1, List.prefix_refl _, this.2.1, fun _ e => this.2.2 e, id⟩

theorem Keeps.pushback (c) : Keeps (pushback c) := by
  intro s a s' h0 e
  simp only [Lexer.pushback, Bind.bind, Except.bind, Pure.pure, Except.pure] at e
  cases hf : s.buffer.pushback c with
  | error p => rw [hf] at e; simp at e
  | ok b' =>
    rw [hf] at e; cases e
    have : b'.nextline = s.buffer.nextline ∧ b'.lineCount = s.buffer.lineCount ∧ b'.ptok = s.buffer.ptok := by
      cases c with
      | none => cases hf; exact ⟨rfl, rfl, rfl⟩
      | some c =>
        simp only [Buffer.pushback, Buffer.pushbackByte, csub, Bind.bind, Except.bind, Pure.pure, Except.pure] at hf
        split at hf
        · cases hf
        · split at hf <;> cases hf <;> exact ⟨rfl, rfl, rfl⟩
    exact ⟨by rw [this.1, h0], List.prefix_refl _, Nat.le_of_eq this.2.1.symm, fun _ _ => this.2.2, id⟩

theorem Keeps.emit {l m o} : Keeps (emit l m o) := Keeps.modS fun _ h0 =>
  ⟨h0, List.prefix_append _ _, Nat.le_refl _, fun _ _ => rfl, id⟩
theorem Keeps.yyerror0 {m} : Keeps (yyerror0 m) := by
  unfold Lexer.yyerror0
  exact Keeps.bind (Keeps.getB _) fun _ => Keeps.emit

theorem Keeps.setState : Keeps (setState EXPR_END) := Keeps.modS fun _ h0 => ⟨h0, List.prefix_refl _, Nat.le_refl _, fun _ _ => rfl, fun _ => rfl⟩
theorem Keeps.setLval {v} : Keeps (setLval v) := Keeps.modS fun _ h0 => ⟨h0, List.prefix_refl _, Nat.le_refl _, fun _ _ => rfl, id⟩
theorem Keeps.tokadd {v} : Keeps (tokadd v) := Keeps.modS fun _ h0 => ⟨h0, List.prefix_refl _, Nat.le_refl _, fun _ _ => rfl, id⟩
theorem Keeps.newtok : Keeps newtok := Keeps.modS fun _ h0 => ⟨h0, List.prefix_refl _, Nat.le_refl _, fun _ _ => rfl, id⟩

/-- One step. -/
syntax "keeps1" : tactic
set_option hygiene false in
macro_rules | `(tactic| keeps1) => `(tactic| first
  | with_reducible exact Keeps.pure _
  | with_reducible exact Keeps.fail _
  | with_reducible assumption
  | with_reducible exact Keeps.nextc
  | with_reducible exact Keeps.pushback _
  | with_reducible exact Keeps.yyerror0
  | with_reducible exact Keeps.emit
  | with_reducible exact Keeps.setState
  | with_reducible exact Keeps.setLval
  | with_reducible exact Keeps.tokadd
  | with_reducible exact Keeps.newtok
  | with_reducible exact Keeps.tokaddMB
  | with_reducible exact Keeps.takeTok
  | with_reducible exact Keeps.trailingUc
  | with_reducible exact Keeps.noDigits
  | with_reducible exact Keeps.setIntegerLiteral
  | with_reducible exact Keeps.setNumberLiteral
  | with_reducible exact Keeps.numberLiteralSuffix
  | with_reducible exact Keeps.parseNumericFooter
  | with_reducible exact Keeps.decodeNum
  | with_reducible exact Keeps.digitLoop
  | with_reducible exact Keeps.octalLoop
  | with_reducible exact Keeps.prefixed
  | with_reducible exact Keeps.parseOctal
  | with_reducible exact Keeps.numLoop
  | with_reducible exact Keeps.afterZero
  | with_reducible exact Keeps.zeroOctal
  | with_reducible exact Keeps.zeroLiteral
  | with_reducible refine Keeps.bind ?_ (fun _ => ?_)
  | with_reducible refine Keeps.ite ?_ ?_
  | with_reducible exact Keeps.getS _
  | with_reducible exact Keeps.getB _
  | with_reducible exact Keeps.liftB _
  | exact Keeps.getS _
  | exact Keeps.liftB _
  | apply_assumption
  | split)

theorem Keeps.tokaddMB {c} : Keeps (tokaddMB c) := by unfold Lexer.tokaddMB; repeat' keeps1
theorem Keeps.takeTok : Keeps takeTok := by
  intro s a s' h0 e; cases e; exact ⟨h0, List.prefix_refl _, Nat.le_refl _, fun _ _ => rfl, id⟩
theorem Keeps.trailingUc {c} : Keeps (trailingUc c) := by
  intro s a s' h0 e
  simp only [Lexer.trailingUc, Lexer.pcurSub, Lexer.getS, Lexer.liftB, Lexer.setPtok, Lexer.modB, Lexer.yyerror0, Lexer.compileError, Lexer.emit, Lexer.modS,
    Lexer.currentLoc, Lexer.getB, csub, Bind.bind, StateT.bind, Except.bind, Pure.pure, StateT.pure, Except.pure] at e
  split at e
  · cases e
  · rename_i v hv
    cases e
    have : v.2 = s := by
      split at hv
      · cases hv
      · cases hv; rfl
    rw [this]
    exact ⟨h0, List.prefix_append _ _, Nat.le_refl _, fun e _ => absurd e (by simp), id⟩
theorem Keeps.setNumberLiteral {a b c} : Keeps (setNumberLiteral a b c) := by unfold Lexer.setNumberLiteral; repeat' keeps1
theorem Keeps.setIntegerLiteral {a b} : Keeps (setIntegerLiteral a b) := by unfold Lexer.setIntegerLiteral; repeat' keeps1
theorem Keeps.noDigits : Keeps noDigits := by unfold Lexer.noDigits; repeat' keeps1
theorem Keeps.suffixLoop {p} : ∀ {n a b}, Keeps (suffixLoop p n a b) := by
  intro n
  induction n with
  | zero => intro a b; exact Keeps.fail _
  | succ n ih =>
    intro a b; unfold Lexer.suffixLoop
    have m : Keeps (Lexer.modB fun b => { b with pcur := p }) := Keeps.modB fun _ h0 => ⟨h0, List.prefix_refl _, Nat.le_refl _, fun _ _ => rfl, id⟩
    repeat' keeps1
theorem Keeps.numberLiteralSuffix {a} : Keeps (numberLiteralSuffix a) := by
  unfold Lexer.numberLiteralSuffix
  exact Keeps.bind (Keeps.getB _) fun _ => Keeps.bind (Keeps.getS _) fun _ => Keeps.suffixLoop
theorem Keeps.parseNumericFooter {a b} : Keeps (parseNumericFooter a b) := by unfold Lexer.parseNumericFooter; repeat' keeps1
theorem Keeps.decodeNum {a b c d} : Keeps (decodeNum a b c d) := by unfold Lexer.decodeNum; repeat' keeps1
theorem Keeps.digitLoop {p} : ∀ {n a b}, Keeps (digitLoop p n a b) := by
  intro n
  induction n with
  | zero => intro a b; exact Keeps.fail _
  | succ n ih => intro a b; unfold Lexer.digitLoop; repeat' first | with_reducible exact ih | keeps1
theorem Keeps.octalLoop : ∀ {n a b}, Keeps (octalLoop n a b) := by
  intro n
  induction n with
  | zero => intro a b; exact Keeps.fail _
  | succ n ih => intro a b; unfold Lexer.octalLoop Lexer.invalidOctal; repeat' first | with_reducible exact ih | keeps1
theorem Keeps.prefixed {p a b} : Keeps (prefixed p a b) := by unfold Lexer.prefixed; repeat' keeps1
theorem Keeps.parseOctal {p a b} : Keeps (parseOctal p a b) := by unfold Lexer.parseOctal; repeat' keeps1
theorem Keeps.numLoop : ∀ {n a b c d e}, Keeps (numLoop n a b c d e) := by
  intro n
  induction n with
  | zero => intro a b c d e; exact Keeps.fail _
  | succ n ih => intro a b c d e; unfold Lexer.numLoop; repeat' first | with_reducible exact ih | keeps1
theorem Keeps.afterZero {p a} : Keeps (afterZero p a) := by unfold Lexer.afterZero Lexer.invalidOctal; repeat' keeps1
theorem Keeps.zeroOctal {p a b} : Keeps (zeroOctal p a b) := by unfold Lexer.zeroOctal; repeat' keeps1
theorem Keeps.zeroLiteral : Keeps zeroLiteral := by unfold Lexer.zeroLiteral; repeat' keeps1
theorem Keeps.parseNumeric {c} : Keeps (parseNumeric c) := by unfold Lexer.parseNumeric; repeat' keeps1
/-- The state after a number. -/
theorem parseNumeric_state {c : UInt8} {s s' : Lexer} {t : Tok} (h0 : s.buffer.nextline = 0) (e : parseNumeric c s = .ok (t, s')) : s'.lexState = EXPR_END := by
  have key : Keeps (do
      newtok
      let c ← if c = asc '-' ∨ c = asc '+' then do tokadd c; nextc else pure (some c)
      if isC c '0' then zeroLiteral
      else numLoop (← fuel) c false false false none) := by repeat' keeps1
  exact (key { s with lexState := EXPR_END } t s' h0 e).state rfl
end Verif.Lexer
