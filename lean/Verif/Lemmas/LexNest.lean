import Verif.Lemmas.LexNeut
/-! What reading a token does to `cond`, `cmdarg` and `paren_nest`. -/
namespace Verif.Lexer
open Verif.Grammar (opens closes)

/-- The effect of reading the token `t`; `op` says that an operator may be named here (after `def` or a dot). -/
def Shifts (op : Bool) (t : Tok) (s s' : Lexer) : Prop :=
  if t = .tLBRACK2 ∧ op = true then s'.cond = s.cond ∧ s'.cmdarg = s.cmdarg ∧ s'.parenNest = s.parenNest + 1
  else if opens t then s'.cond = s.cond.push false ∧ s'.cmdarg = s.cmdarg.push false ∧ s'.parenNest = s.parenNest + 1
  else if closes t then s'.cond = s.cond.pop ∧ s'.cmdarg = s.cmdarg.pop ∧ s'.parenNest = s.parenNest - 1
  else Level s s'

theorem Shifts.before {op : Bool} {t : Tok} {a b c : Lexer} (h : Level a b) (h' : Shifts op t b c) : Shifts op t a c := by
  unfold Shifts at h' ⊢
  rw [h.cond, h.cmdarg, h.paren] at h'
  split
  · rename_i e; rw [if_pos e] at h'; exact h'
  rename_i e; rw [if_neg e] at h'
  split
  · rename_i e; rw [if_pos e] at h'; exact h'
  rename_i e; rw [if_neg e] at h'
  split
  · rename_i e; rw [if_pos e] at h'; exact h'
  rename_i e; rw [if_neg e] at h'
  exact h.trans h'

theorem Shifts.after {op : Bool} {t : Tok} {a b c : Lexer} (h' : Shifts op t a b) (h : Level b c) : Shifts op t a c := by
  unfold Shifts at h' ⊢
  rw [h.cond, h.cmdarg, h.paren]
  split
  · rename_i e; rw [if_pos e] at h'; exact h'
  rename_i e; rw [if_neg e] at h'
  split
  · rename_i e; rw [if_pos e] at h'; exact h'
  rename_i e; rw [if_neg e] at h'
  split
  · rename_i e; rw [if_pos e] at h'; exact h'
  rename_i e; rw [if_neg e] at h'
  exact h'.trans h

theorem Shifts.neut {op : Bool} {t : Tok} {a b : Lexer} (h : Level a b) (ht : Br.ok t) : Shifts op t a b := by
  have h1 : opens t = false := ht.1
  have h2 : closes t = false := ht.2
  unfold Shifts
  rw [if_neg (by rintro ⟨rfl, -⟩; exact absurd h1 (by decide)), if_neg (by simp [h1]), if_neg (by simp [h2])]
  exact h

theorem Shifts.opened {op : Bool} {t : Tok} {a b : Lexer} (h : opens t = true) (h' : t = .tLBRACK2 → op = false) (h1 : b.cond = a.cond.push false)
    (h2 : b.cmdarg = a.cmdarg.push false) (h3 : b.parenNest = a.parenNest + 1) : Shifts op t a b := by
  unfold Shifts
  rw [if_neg (by rintro ⟨e, e'⟩; rw [h' e] at e'; cases e'), if_pos h]
  exact ⟨h1, h2, h3⟩

/-- One pass of the loop. -/
def Pass (x : LexM Next) : Prop := ∀ s a s', x s = .ok (a, s') →
  match a with
  | .tok t => Shifts s.lexState.isAfterOperator t s s'
  | _ => Level s s'

theorem Neut.pass {x : LexM Next} (h : Neut x) : Pass x := by
  intro s a s' e
  obtain ⟨h1, h2⟩ := h s a s' e
  cases a with
  | tok t => exact .neut h1 h2
  | retry _ => exact h1
  | ident => exact h1

theorem Pass.ite {c : Prop} [Decidable c] {x y : LexM Next} (h1 : Pass x) (h2 : Pass y) : Pass (if c then x else y) := by
  split <;> assumption

theorem Pass.lexClose {st : Nat} {t : Tok} (h : closes t = true) : Pass (lexClose st t) := by
  intro s a s' e
  cases e
  show Shifts _ t s _
  unfold Shifts
  have h1 : opens t = false := by cases t <;> first | rfl | (exact absurd h (by decide))
  rw [if_neg (by rintro ⟨rfl, -⟩; exact absurd h (by decide)), if_neg (by simp [h1]), if_pos h]
  exact ⟨rfl, rfl, rfl⟩

theorem Pass.lexRcurly : Pass lexRcurly := by
  intro s a s' e
  unfold Lexer.lexRcurly at e
  simp only [Lexer.getS, Lexer.modS, Bind.bind, StateT.bind, Except.bind, Pure.pure, Except.pure, Lexer.done, StateT.pure] at e
  split at e
  · cases e
    exact Shifts.neut (t := .tSTRING_DEND) ⟨rfl, rfl, rfl⟩ ⟨rfl, rfl⟩
  · have := Pass.lexClose (t := .tRCURLY) (st := EXPR_END) rfl { s with braceNest := s.braceNest - 1 } a s' e
    cases e
    exact Shifts.before ⟨rfl, rfl, rfl⟩ this

theorem Pass.lexLparen {sp : Bool} : Pass (lexLparen sp) := by
  intro s a s' e
  unfold Lexer.lexLparen at e
  simp only [Lexer.getState, Lexer.isLambdaBeginning, Lexer.getS, Bind.bind, StateT.bind, Except.bind, Pure.pure, StateT.pure, Except.pure] at e
  repeat' split at e
  all_goals
    cases e
    exact .opened (by rfl) (by intro h; cases h) rfl rfl rfl

/-- Going on after a part that leaves everything alone. -/
theorem neut_step {α β : Type} [Br β] {x : LexM β} {f : β → LexM α} (h : Neut x) {s s' : Lexer} {a : α} (e : (x >>= f) s = .ok (a, s')) :
    ∃ b s1, Level s s1 ∧ f b s1 = .ok (a, s') := by
  change StateT.bind x f s = _ at e
  simp only [StateT.bind, Bind.bind, Except.bind] at e
  cases hx : x s with
  | error p => rw [hx] at e; simp at e
  | ok r =>
    rw [hx] at e
    exact ⟨r.1, r.2, (h s _ _ hx).1, e⟩

theorem getState_step {α : Type} {f : LexState → LexM α} {s : Lexer} : (getState >>= f) s = f s.lexState s := rfl

theorem modS_step {α : Type} {g : Lexer → Lexer} {f : Unit → LexM α} {s : Lexer} : (modS g >>= f) s = f () (g s) := rfl

theorem setState_step {α : Type} {v : LexState} {f : Unit → LexM α} {s : Lexer} :
    (setState v >>= f) s = f () { s with lexState := v } := rfl

theorem openNest_step {α : Type} {f : Unit → LexM α} {s : Lexer} :
    (openNest >>= f) s =
      f () { s with parenNest := s.parenNest + 1, cond := s.cond.push false, cmdarg := s.cmdarg.push false } := rfl

theorem Pass.lexLbrack {sp : Bool} : Pass (lexLbrack sp) := by
  intro s a s' e
  unfold Lexer.lexLbrack at e
  rw [getState_step] at e
  split at e
  · rename_i hop
    rw [modS_step] at e
    obtain ⟨c, s1, h1, e⟩ := neut_step Neut.nextc e
    split at e
    · rw [modS_step, setState_step] at e
      obtain ⟨c, s2, h2, e⟩ := neut_step Neut.nextc e
      have h : Level s s2 := ⟨h2.cond.trans h1.cond, h2.cmdarg.trans h1.cmdarg, by
        have h3 : s2.parenNest = s1.parenNest - 1 := h2.paren
        have h4 : s1.parenNest = s.parenNest + 1 := h1.paren
        omega⟩
      split at e
      · cases e
        exact Shifts.neut (t := .tASET) h ⟨rfl, rfl⟩
      · obtain ⟨_, s3, h3, e⟩ := neut_step (Neut.pushback _) e
        cases e
        exact Shifts.neut (t := .tAREF) (h.trans h3) ⟨rfl, rfl⟩
    · obtain ⟨_, s2, h2, e⟩ := neut_step (Neut.pushback _) e
      cases e
      show Shifts _ _ _ _
      unfold Shifts
      rw [if_pos ⟨rfl, hop⟩]
      exact ⟨h2.cond.trans h1.cond, h2.cmdarg.trans h1.cmdarg, h2.paren.trans h1.paren⟩
  · rename_i hop
    rw [openNest_step, setState_step] at e
    split at e
    · cases e; exact Shifts.opened (t := .tLBRACK) rfl (by intro h; cases h) rfl rfl rfl
    · cases e; exact Shifts.opened (t := .tLBRACK2) rfl (fun _ => by simpa using hop) rfl rfl rfl

theorem Pass.lexLcurly : Pass lexLcurly := by
  intro s a s' e
  unfold Lexer.lexLcurly at e
  simp only [Lexer.getState, Lexer.isLambdaBeginning, Lexer.getS, Lexer.modS, Bind.bind, StateT.bind, Except.bind, Pure.pure, StateT.pure, Except.pure] at e
  repeat' split at e
  all_goals
    cases e
    exact .opened (by rfl) (by intro h; cases h) rfl rfl rfl

theorem Pass.dispatch {x : Ext} {c : UInt8} {sp : Bool} {st : LexState} {cmd ts : Bool} : Pass (dispatch x c sp st cmd ts) := by
  unfold Lexer.dispatch
  repeat' first
    | with_reducible exact Pass.lexLparen
    | with_reducible exact Pass.lexLbrack
    | with_reducible exact Pass.lexLcurly
    | with_reducible exact Pass.lexRcurly
    | exact Pass.lexClose rfl
    | with_reducible refine Pass.ite ?_ ?_
    | (refine Neut.pass ?_; (repeat' neut1); done)

/-! ### The lexer state where a pass starts again -/

/-- `x` leaves the lexer state alone. -/
def Calm {α : Type} (x : LexM α) : Prop := ∀ s a s', x s = .ok (a, s') → s'.lexState = s.lexState

/-- `x` does not start the pass again. -/
def NoRetry (x : LexM Next) : Prop := ∀ s b s', x s ≠ .ok (.retry b, s')

/-- If `x` starts the pass again where an operator may be named, then it was so before. -/
def Again (x : LexM Next) : Prop := ∀ s b s', x s = .ok (.retry b, s') → s'.lexState.isAfterOperator = true → s.lexState.isAfterOperator = true

section
variable {α β : Type}

theorem bind_ok {x : LexM β} {f : β → LexM α} {s s' : Lexer} {a : α} (e : (x >>= f) s = .ok (a, s')) :
    ∃ b s1, x s = .ok (b, s1) ∧ f b s1 = .ok (a, s') := by
  change StateT.bind x f s = _ at e
  simp only [StateT.bind, Bind.bind, Except.bind] at e
  cases hx : x s with
  | error p => rw [hx] at e; simp at e
  | ok r => rw [hx] at e; exact ⟨r.1, r.2, rfl, e⟩

theorem Calm.pure {a : α} : Calm (Pure.pure a : LexM α) := by intro s b s' h; cases h; rfl
theorem Calm.bind {x : LexM β} {f : β → LexM α} (h : Calm x) (h' : ∀ b, Calm (f b)) : Calm (x >>= f) := by
  intro s a s' e
  obtain ⟨b, s1, e1, e2⟩ := bind_ok e
  exact (h' b s1 a s' e2).trans (h s b s1 e1)
theorem Calm.map {x : LexM β} {f : β → α} (h : Calm x) : Calm (f <$> x) := by
  intro s a s' e
  change StateT.map f x s = _ at e
  simp only [StateT.map, Bind.bind, Except.bind] at e
  cases hx : x s with
  | error p => rw [hx] at e; simp at e
  | ok r => rw [hx] at e; cases e; exact h _ _ _ hx
theorem Calm.ite {c : Prop} [Decidable c] {x y : LexM α} (h1 : Calm x) (h2 : Calm y) : Calm (if c then x else y) := by
  split <;> assumption
theorem Calm.fail (p : Panic) : Calm (fail p : LexM α) := by intro s a s' e; simp [Lexer.fail] at e
theorem Calm.getS (f : Lexer → α) : Calm (getS f) := by intro s a s' e; cases e; rfl
theorem Calm.getB (f : Buffer → α) : Calm (getB f) := by intro s a s' e; cases e; rfl
theorem Calm.modB (f : Buffer → Buffer) : Calm (modB f) := by intro s a s' e; cases e; rfl
theorem Calm.modS {f : Lexer → Lexer} (h : ∀ s, (f s).lexState = s.lexState) : Calm (modS f) := by intro s a s' e; cases e; exact h s
theorem Calm.liftB (f : Buffer → Res α) : Calm (liftB f) := by
  intro s a s' e
  simp only [Lexer.liftB, Bind.bind, Except.bind, Pure.pure, Except.pure] at e
  cases hf : f s.buffer with
  | error p => rw [hf] at e; simp at e
  | ok r => rw [hf] at e; cases e; rfl
theorem Calm.buf {f : Buffer → Res (α × Buffer)} {x : LexM α} (hx : ∀ s, x s = (do let r ← f s.buffer; return (r.1, { s with buffer := r.2 }))) :
    Calm x := by
  intro s a s' e
  rw [hx] at e
  simp only [Bind.bind, Except.bind, Pure.pure, Except.pure] at e
  cases hf : f s.buffer with
  | error p => rw [hf] at e; simp at e
  | ok r => rw [hf] at e; cases e; rfl
theorem Calm.buf' {f : Buffer → Res Buffer} {x : LexM Unit} (hx : ∀ s, x s = (do let r ← f s.buffer; return ((), { s with buffer := r }))) :
    Calm x := by
  intro s a s' e
  rw [hx] at e
  simp only [Bind.bind, Except.bind, Pure.pure, Except.pure] at e
  cases hf : f s.buffer with
  | error p => rw [hf] at e; simp at e
  | ok r => rw [hf] at e; cases e; rfl
theorem Calm.emit {a b c} : Calm (emit a b c) := by intro s r s' e; cases e; rfl
end

theorem Calm.nextc : Calm nextc := .buf (f := (·.nextc)) fun _ => rfl
theorem Calm.pushback {c} : Calm (pushback c) := .buf' (f := (·.pushback c)) fun _ => rfl
theorem Calm.liftBuf {f} : Calm (newlineLoop.liftBuf f) := .buf' (f := f) fun _ => rfl

/-- Known functions. -/
syntax "calm_known" : tactic
macro_rules | `(tactic| calm_known) => `(tactic| with_reducible exact Calm.emit)

/-- One step. -/
macro "calm1" : tactic => `(tactic| first
  | with_reducible exact Calm.pure
  | with_reducible exact Calm.fail _
  | with_reducible refine Calm.bind ?_ (fun _ => ?_)
  | with_reducible refine Calm.map ?_
  | with_reducible refine Calm.ite ?_ ?_
  | with_reducible exact Calm.getS _
  | with_reducible exact Calm.getB _
  | with_reducible exact Calm.modB _
  | with_reducible exact Calm.liftB _
  | with_reducible exact Calm.nextc
  | with_reducible exact Calm.pushback
  | with_reducible exact Calm.liftBuf
  | ((with_reducible refine Calm.modS ?_); intro s; first
      | rfl
      | (split <;> rfl))
  | with_reducible assumption
  | calm_known
  | split
  | dsimp only
  | fail "calm")

theorem Calm.tokenFlush : Calm (tokenFlush) := by unfold Lexer.tokenFlush; repeat' calm1
macro_rules | `(tactic| calm_known) => `(tactic| with_reducible exact Calm.tokenFlush)

theorem Calm.gotoEol : Calm (gotoEol) := by unfold Lexer.gotoEol; repeat' calm1
macro_rules | `(tactic| calm_known) => `(tactic| with_reducible exact Calm.gotoEol)

theorem Calm.getState : Calm (getState) := by unfold Lexer.getState; repeat' calm1
macro_rules | `(tactic| calm_known) => `(tactic| with_reducible exact Calm.getState)

theorem Calm.fuel : Calm (fuel) := by unfold Lexer.fuel; repeat' calm1
macro_rules | `(tactic| calm_known) => `(tactic| with_reducible exact Calm.fuel)

theorem Calm.pcur : Calm (pcur) := by unfold Lexer.pcur; repeat' calm1
macro_rules | `(tactic| calm_known) => `(tactic| with_reducible exact Calm.pcur)

theorem Calm.pcurSub {k} : Calm (pcurSub k) := by unfold Lexer.pcurSub; repeat' calm1
macro_rules | `(tactic| calm_known) => `(tactic| with_reducible exact Calm.pcurSub)

theorem Calm.peek {c} : Calm (peek c) := by unfold Lexer.peek; repeat' calm1
macro_rules | `(tactic| calm_known) => `(tactic| with_reducible exact Calm.peek)

theorem Calm.currentLoc : Calm (currentLoc) := by unfold Lexer.currentLoc; repeat' calm1
macro_rules | `(tactic| calm_known) => `(tactic| with_reducible exact Calm.currentLoc)

theorem Calm.compileError {m l} : Calm (compileError m l) := by unfold Lexer.compileError; repeat' calm1
macro_rules | `(tactic| calm_known) => `(tactic| with_reducible exact Calm.compileError)

theorem Calm.warn {m l} : Calm (warn m l) := by unfold Lexer.warn; repeat' calm1
macro_rules | `(tactic| calm_known) => `(tactic| with_reducible exact Calm.warn)

theorem Calm.pushComment {l} : Calm (pushComment l) := by unfold Lexer.pushComment; repeat' calm1
macro_rules | `(tactic| calm_known) => `(tactic| with_reducible exact Calm.pushComment)

theorem Calm.isIdentchar : Calm (isIdentchar) := by unfold Lexer.isIdentchar; repeat' calm1
macro_rules | `(tactic| calm_known) => `(tactic| with_reducible exact Calm.isIdentchar)

theorem Calm.embdocLoop {l} : ∀ {n}, Calm (embdocLoop l n) := by
  intro n
  induction n with
  | zero => exact Calm.fail _
  | succ n ih => unfold Lexer.embdocLoop; repeat' calm1

theorem Calm.mcRecord {a b c d} : ∀ {l}, Calm (mcRecord a b c d l) := by
  intro l
  induction l with
  | nil => exact Calm.pure
  | cons h t ih => obtain ⟨h1, h2⟩ := h; unfold Lexer.mcRecord; repeat' first | with_reducible exact ih | calm1

theorem Calm.mcLoop {a b} : ∀ {n c d}, Calm (mcLoop a b n c d) := by
  intro n
  induction n with
  | zero => intro c d; exact Calm.fail _
  | succ n ih => intro c d; unfold Lexer.mcLoop; repeat' first | with_reducible exact ih | with_reducible exact Calm.mcRecord | calm1

theorem Calm.magicComment {a b c} : Calm (magicComment a b c) := by
  unfold Lexer.magicComment; repeat' first | with_reducible exact Calm.mcLoop | calm1

theorem NoRetry.tok {t : Tok} : NoRetry (Pure.pure (.tok t)) := by intro s b s' e; cases e
theorem NoRetry.ident : NoRetry (Pure.pure .ident) := by intro s b s' e; cases e
theorem NoRetry.done {t : Tok} : NoRetry (done t) := by intro s b s' e; cases e
theorem NoRetry.fail {p : Panic} : NoRetry (fail p) := by intro s b s' e; cases e
theorem NoRetry.bind {β : Type} {x : LexM β} {f : β → LexM Next} (h : ∀ b, NoRetry (f b)) : NoRetry (x >>= f) := by
  intro s b s' e
  obtain ⟨c, s1, _, e2⟩ := bind_ok e
  exact h c s1 b s' e2
theorem NoRetry.ite {c : Prop} [Decidable c] {x y : LexM Next} (h1 : NoRetry x) (h2 : NoRetry y) : NoRetry (if c then x else y) := by
  split <;> assumption
theorem NoRetry.again {x : LexM Next} (h : NoRetry x) : Again x := fun s b s' e => absurd e (h s b s')

/-- One step. -/
macro "noretry1" : tactic => `(tactic| first
  | with_reducible exact NoRetry.tok
  | with_reducible exact NoRetry.ident
  | with_reducible exact NoRetry.done
  | with_reducible exact NoRetry.fail
  | with_reducible assumption
  | with_reducible refine NoRetry.bind (fun _ => ?_)
  | with_reducible refine NoRetry.ite ?_ ?_
  | split
  | dsimp only
  | fail "noretry")

theorem Again.retry {b : Bool} : Again (Pure.pure (.retry b)) := by intro s c s' e h; cases e; exact h
theorem Again.bind {β : Type} {x : LexM β} {f : β → LexM Next} (h : Calm x) (h' : ∀ b, Again (f b)) : Again (x >>= f) := by
  intro s b s' e ho
  obtain ⟨c, s1, e1, e2⟩ := bind_ok e
  rw [← h s c s1 e1]
  exact h' c s1 b s' e2 ho
theorem Again.ite {c : Prop} [Decidable c] {x y : LexM Next} (h1 : Again x) (h2 : Again y) : Again (if c then x else y) := by
  split <;> assumption

/-- One step. -/
macro "again1" : tactic => `(tactic| first
  | with_reducible exact Again.retry
  | with_reducible assumption
  | (refine NoRetry.again ?_; (repeat' noretry1); done)
  | ((with_reducible refine Again.bind ?_ (fun _ => ?_)); · (repeat' first | with_reducible exact Calm.embdocLoop | with_reducible exact Calm.magicComment | calm1))
  | with_reducible refine Again.ite ?_ ?_
  | split
  | dsimp only
  | fail "back")

theorem Again.newlineLoop : ∀ {n b}, Again (newlineLoop n b) := by
  intro n
  induction n with
  | zero => intro b; exact NoRetry.again .fail
  | succ n ih => intro b; unfold Lexer.newlineLoop; repeat' first | with_reducible exact ih | again1

theorem Again.lexNewline {a b} : Again (lexNewline a b) := by
  unfold Lexer.lexNewline; repeat' first | with_reducible exact Again.newlineLoop | again1

theorem Again.lexComment {x a b} : Again (lexComment x a b) := by
  unfold Lexer.lexComment; repeat' first | with_reducible exact Again.lexNewline | again1

theorem NoRetry.lexEqOp : NoRetry lexEqOp := by unfold Lexer.lexEqOp; repeat' noretry1

theorem Again.lexEq {b} : Again (lexEq b) := by
  unfold Lexer.lexEq; repeat' first | with_reducible exact NoRetry.again .lexEqOp | again1

theorem Again.lexBackslash : Again lexBackslash := by unfold Lexer.lexBackslash; repeat' again1

theorem Again.lexOther {c b} : Again (lexOther c b) := by unfold Lexer.lexOther; repeat' again1

/-- A number that starts with a dot: the state is `EXPR_END` afterwards. -/
theorem lexDotDigit_end {b b' : Bool} {s s' : Lexer} (e : lexDotDigit b s = .ok (.retry b', s')) : s'.lexState = EXPR_END := by
  unfold Lexer.lexDotDigit at e
  obtain ⟨_, s1, _, e⟩ := bind_ok e
  obtain ⟨_, s2, _, e⟩ := bind_ok e
  obtain ⟨_, s3, _, e⟩ := bind_ok e
  cases e
  rfl

theorem Again.lexDot {b st} : Again (lexDot b st) := by
  intro s b' s' e ho
  have h : s'.lexState = EXPR_END := by
    unfold Lexer.lexDot at e
    obtain ⟨_, s1, _, e⟩ := bind_ok e
    obtain ⟨_, s1, _, e⟩ := bind_ok e
    obtain ⟨_, s1, _, e⟩ := bind_ok e
    split at e
    · refine absurd e (NoRetry.bind (fun _ => ?_) _ _ _)
      unfold Lexer.lexDot3
      repeat' noretry1
    · obtain ⟨_, s1, _, e⟩ := bind_ok e
      split at e
      · exact lexDotDigit_end e
      · exact absurd e (NoRetry.bind (fun _ => NoRetry.bind fun _ => NoRetry.done) _ _ _)
  rw [h] at ho
  exact absurd ho (by decide)

theorem NoRetry.opAsgn {o} : NoRetry (opAsgn o) := by unfold Lexer.opAsgn; repeat' noretry1
theorem NoRetry.lexLtOp {a b c} : NoRetry (lexLtOp a b c) := by
  unfold Lexer.lexLtOp; repeat' first | with_reducible exact NoRetry.opAsgn | noretry1

/-- Unfold one branch. -/
macro "branch" n:ident : tactic => `(tactic|
  (refine NoRetry.again ?_; unfold $n; repeat' first | with_reducible exact NoRetry.opAsgn | with_reducible exact NoRetry.lexLtOp | noretry1))

theorem NoRetry.lexRcurly : NoRetry lexRcurly := by
  unfold Lexer.lexRcurly; repeat' first | (with_reducible exact NoRetry.bind fun _ => NoRetry.done) | noretry1
  unfold Lexer.lexClose; repeat' noretry1

theorem Again.dispatch {x : Ext} {c : UInt8} {sp : Bool} {st : LexState} {cmd ts : Bool} : Again (dispatch x c sp st cmd ts) := by
  unfold Lexer.dispatch
  repeat' first
    | with_reducible exact Again.retry
    | with_reducible exact Again.lexComment
    | with_reducible exact Again.lexNewline
    | with_reducible exact Again.lexEq
    | with_reducible exact Again.lexDot
    | with_reducible exact Again.lexBackslash
    | with_reducible exact Again.lexOther
    | with_reducible refine Again.ite ?_ ?_
    | (refine NoRetry.again ?_; (repeat' noretry1); done)
  all_goals first
    | (branch Lexer.lexCr) | (branch Lexer.lexStar) | (branch Lexer.lexBang) | (branch Lexer.lexLt)
    | (branch Lexer.lexGt) | (branch Lexer.lexQuote) | (branch Lexer.lexBacktick) | (branch Lexer.lexAmp)
    | (branch Lexer.lexPipe) | (branch Lexer.lexPlus) | (branch Lexer.lexMinus) | (branch Lexer.lexClose; done)
    | with_reducible exact NoRetry.again NoRetry.lexRcurly| (branch Lexer.lexColon) | (branch Lexer.lexSlash) | (branch Lexer.lexCaret)
    | (branch Lexer.lexSemi) | (branch Lexer.lexComma) | (branch Lexer.lexTilde) | (branch Lexer.lexLparen)
    | (branch Lexer.lexLbrack) | (branch Lexer.lexLcurly) | (branch Lexer.lexUnderscore)

/-- The effect of one token, for the state where the search for it began. -/
def Moves (op : Bool) (t : Tok) (s s' : Lexer) : Prop := ∃ op', Shifts op' t s s' ∧ (op' = true → op = true)

theorem yylexLoop_moves {x : Ext} {cmd ts : Bool} : ∀ {n b s t s'}, yylexLoop x cmd ts n b s = .ok (t, s') →
    Moves s.lexState.isAfterOperator t s s' := by
  intro n
  induction n with
  | zero => intro b s t s' e; cases e
  | succ n ih =>
    intro b s t s' e
    unfold Lexer.yylexLoop at e
    rw [getState_step] at e
    obtain ⟨_, s1, e1, e⟩ := bind_ok e
    obtain ⟨c, s2, e2, e⟩ := bind_ok e
    have l1 : Level s s2 := ((Neut.tokenFlush) _ _ _ e1).1.trans (Neut.nextc _ _ _ e2).1
    have c1 : s2.lexState = s.lexState := (Calm.nextc _ _ _ e2).trans (Calm.tokenFlush _ _ _ e1)
    cases c with
    | none =>
      cases e
      exact ⟨false, Shifts.neut l1 ⟨rfl, rfl⟩, fun h => by cases h⟩
    | some c =>
      obtain ⟨r, s3, e3, e⟩ := bind_ok e
      have hp := Pass.dispatch _ _ _ e3
      cases r with
      | tok u =>
        cases e
        exact ⟨_, Shifts.before l1 hp, fun h => by rw [← c1]; exact h⟩
      | retry b' =>
        have hb := Again.dispatch _ _ _ e3
        obtain ⟨op, h1, h2⟩ := ih e
        exact ⟨op, Shifts.before (l1.trans hp) h1, fun h => by rw [← c1]; exact hb (h2 h)⟩
      | ident =>
        have hi := Neut.parseIdent _ _ _ e
        exact ⟨false, Shifts.neut ((l1.trans hp).trans hi.1) hi.2, fun h => by cases h⟩

theorem parserYylex_moves {x : Ext} {s : Lexer} {t : Tok} {s' : Lexer} (e : parserYylex x s = .ok (t, s')) :
    Moves s.lexState.isAfterOperator t s s' := by
  have quiet : ∀ {y : LexM Tok}, Neut y → y s = .ok (t, s') → Moves s.lexState.isAfterOperator t s s' := fun h e =>
    ⟨false, Shifts.neut (h _ _ _ e).1 (h _ _ _ e).2, fun h => by cases h⟩
  unfold Lexer.parserYylex at e
  obtain ⟨st, s1, e1, e⟩ := bind_ok e
  cases e1
  cases hs : s.strterm with
  | some v =>
    dsimp only at e
    rw [hs] at e
    cases v with
    | heredoc v => exact quiet Neut.hereDocument e
    | string v => exact quiet (Neut.bind Neut.tokenFlush fun _ _ => Neut.parseString) e
  | none =>
    dsimp only at e
    rw [hs] at e
    obtain ⟨_, s1, e1, e⟩ := bind_ok e
    cases e1
    obtain ⟨_, s1, e1, e⟩ := bind_ok e
    cases e1
    obtain ⟨_, s1, e1, e⟩ := bind_ok e
    cases e1
    obtain ⟨_, s1, e1, e⟩ := bind_ok e
    cases e1
    obtain ⟨op, h1, h2⟩ := yylexLoop_moves e
    exact ⟨op, Shifts.before (a := s) (b := { s with commandStart := false, tokenSeen := true }) ⟨rfl, rfl, rfl⟩ h1, h2⟩

theorem yylex_moves {x : Ext} {s : Lexer} {t : Token} {s' : Lexer} (e : yylex x s = .ok (t, s')) :
    Moves s.lexState.isAfterOperator t.tokenType s s' := by
  unfold Lexer.yylex at e
  obtain ⟨_, s1, e1, e⟩ := bind_ok e
  cases e1
  obtain ⟨u, s2, e2, e⟩ := bind_ok e
  obtain ⟨op, h1, h2⟩ := parserYylex_moves e2
  have rest : Level s2 s' ∧ t.tokenType = u := by
    obtain ⟨_, s3, e3, e⟩ := bind_ok e
    cases e3
    obtain ⟨_, s3, e3, e⟩ := bind_ok e
    cases e3
    obtain ⟨_, s3, e3, e⟩ := bind_ok e
    cases e3
    obtain ⟨_, s3, e3, e⟩ := bind_ok e
    cases e3
    dsimp only at e
    have tail : ∀ {value : Bytes} {s3 : Lexer}, Level s2 s3 →
        (do modS (fun s => { s with lval := none })
            if u = .tNL then return ⟨u, [10], ⟨s2.lvalStart.getD s2.buffer.ptok, s2.lvalStart.getD s2.buffer.ptok + 1⟩⟩
            else return ⟨u, value, ⟨s2.lvalStart.getD s2.buffer.ptok, s2.lvalEnd.getD s2.buffer.pcur⟩⟩ : LexM Token) s3 = .ok (t, s') →
        Level s2 s' ∧ t.tokenType = u := by
      intro value s3 l e
      rw [modS_step] at e
      split at e <;> cases e <;> exact ⟨⟨l.1, l.2, l.3⟩, rfl⟩
    cases hl : s2.lval <;> rw [hl] at e <;> dsimp only at e
    rotate_left
    · obtain ⟨_, s3, e3, e⟩ := bind_ok e
      cases e3
      refine tail (s3 := _) ?_ e
      exact ⟨rfl, rfl, rfl⟩
    · obtain ⟨_, s3, e3, e⟩ := bind_ok e
      have := (Neut.map (f := fun (x : Option Bytes) => x.getD []) (Neut.liftB _) (fun _ _ => trivial) _ _ _ e3).1
      exact tail ⟨this.1, this.2, this.3⟩ e
  rw [rest.2]
  exact ⟨op, (Shifts.before (a := s) (b := { s with lval := none }) ⟨rfl, rfl, rfl⟩ h1).after rest.1, h2⟩

end Verif.Lexer
