import Verif.Lemmas.LexWp
/-! Steps that do not touch the buffer, and the tactic that walks through a lexer function. -/
namespace Verif.Lexer

/-- Nothing but unobserved fields changed. -/
def Same (s s' : Lexer) : Prop := s'.buffer = s.buffer ∧ Fr s s'

theorem Same.refl (s : Lexer) : Same s s := ⟨rfl, .refl s⟩
theorem Same.trans {a b c : Lexer} (h : Same a b) (h' : Same b c) : Same a c := ⟨h'.1.trans h.1, h.2.trans h'.2⟩
theorem Same.loc {s s' : Lexer} (h : Same s s') : Loc s s' := ⟨by rw [h.1]; exact .refl _, h.2⟩
theorem Same.mid {s s' : Lexer} (h : Same s s') (hm : Mid s.buffer) : Mid s'.buffer := by rw [h.1]; exact hm
theorem Same.good {s s' : Lexer} (h : Same s s') (hm : Good s.buffer) : Good s'.buffer := by rw [h.1]; exact hm

theorem Rd.same {p s s' : Lexer} {c : MB} (h : Rd p c s) (hs : Same s s') : Rd p c s' := {
  mid0 := h.mid0
  eqB := by rw [hs.1]; exact h.eqB
  good := by rw [hs.1]; exact h.good
  loc := ⟨by rw [hs.1]; exact h.loc.1, h.loc.2.trans hs.2⟩
  isNone := by rw [hs.1]; exact h.isNone
  atEnd := h.atEnd
  isSome := by rw [hs.1]; exact h.isSome }

section
variable {α β : Type} {Q : α → Lexer → Prop} {s : Lexer}

/-- `x` only changes unobserved fields. -/
def Pu (x : LexM α) : Prop := ∀ s, ∃ a s', x s = .ok (a, s') ∧ Same s s'

theorem Wp.pu {x : LexM α} (h : Pu x) (hq : ∀ a s', Same s s' → Q a s') : Wp x Q s := by
  obtain ⟨a, s', e, hs⟩ := h s
  exact ⟨a, s', e, hq _ _ hs⟩

theorem Pu.pure (a : α) : Pu (Pure.pure a : LexM α) := fun s => ⟨a, s, rfl, .refl s⟩
theorem Pu.bind {x : LexM β} {f : β → LexM α} (h : Pu x) (h' : ∀ b, Pu (f b)) : Pu (x >>= f) := by
  intro s
  obtain ⟨b, s', e, hs⟩ := h s
  obtain ⟨a, s'', e', hs'⟩ := h' b s'
  refine ⟨a, s'', ?_, hs.trans hs'⟩
  show StateT.bind x f s = _
  simp only [StateT.bind, Bind.bind, Except.bind]
  rw [e]; exact e'
theorem Pu.ite {c : Prop} [Decidable c] {x y : LexM α} (h1 : Pu x) (h2 : Pu y) : Pu (if c then x else y) := by
  split <;> assumption
theorem Pu.getS (f : Lexer → α) : Pu (Lexer.getS f) := fun s => ⟨_, s, rfl, .refl s⟩
theorem Pu.getB (f : Buffer → α) : Pu (Lexer.getB f) := fun s => ⟨_, s, rfl, .refl s⟩
end

theorem Pu.setState (v : Nat) : Pu (setState v) := fun _ => ⟨_, _, rfl, rfl, rfl, rfl, rfl, rfl, rfl⟩
theorem Pu.setLval (v : Bytes) : Pu (setLval v) := fun _ => ⟨_, _, rfl, rfl, rfl, rfl, rfl, rfl, rfl⟩
theorem Pu.setYylvalName : Pu setYylvalName := fun _ => ⟨_, _, rfl, rfl, rfl, rfl, rfl, rfl, rfl⟩
theorem Pu.tokadd (c : UInt8) : Pu (tokadd c) := fun _ => ⟨_, _, rfl, rfl, rfl, rfl, rfl, rfl, rfl⟩
theorem Pu.emit (l m c) : Pu (emit l m c) := fun _ => ⟨_, _, rfl, rfl, rfl, rfl, rfl, rfl, rfl⟩
theorem Pu.warn (m c) : Pu (warn m c) := Pu.emit _ _ _
theorem Pu.compileError (m c) : Pu (compileError m c) := Pu.emit _ _ _
theorem Pu.currentLoc : Pu currentLoc := Pu.getB _
theorem Pu.getState : Pu getState := Pu.getS _
theorem Pu.toklen : Pu toklen := Pu.getS _
theorem Pu.charAt (i) : Pu (charAt i) := Pu.getB _
theorem Pu.takeTok : Pu takeTok := fun _ => ⟨_, _, rfl, rfl, rfl, rfl, rfl, rfl, rfl⟩
theorem Pu.isLambdaBeginning : Pu isLambdaBeginning := Pu.getS _
theorem Pu.isLvarDefined (n) : Pu (isLvarDefined n) := Pu.getS _
theorem Pu.spacearg (c b) : Pu (spacearg c b) := Pu.getS _
theorem Pu.yyerror0 (m) : Pu (yyerror0 m) := Pu.bind Pu.currentLoc fun _ => Pu.compileError _ _
theorem Pu.warnBalanced (t o y c b l) : Pu (warnBalanced t o y c b l) := by
  unfold Lexer.warnBalanced
  exact Pu.ite (Pu.bind Pu.currentLoc fun _ => Pu.bind (Pu.warn _ _) fun _ => Pu.pure _) (Pu.pure _)
theorem Pu.argAmbiguous (c l) : Pu (argAmbiguous c l) := Pu.ite (Pu.warn _ _) (Pu.warn _ _)
theorem Pu.setStateAfterOp (v) : Pu (setStateAfterOp v) := by
  unfold Lexer.setStateAfterOp
  exact Pu.bind Pu.getState fun _ => Pu.ite (Pu.setState _) (Pu.setState _)
theorem Pu.warnSpaceChar (c p) : Pu (warnSpaceChar c p) :=
  Pu.bind Pu.currentLoc fun _ => Pu.warn _ _
/-- A change of unobserved fields. -/
theorem Pu.modS {f : Lexer → Lexer} (h : ∀ s, Same s (f s)) : Pu (modS f) := fun s => ⟨_, _, rfl, h s⟩
theorem Pu.normalNewline : Pu normalNewline :=
  Pu.bind (Pu.modS fun _ => ⟨rfl, rfl, rfl, rfl, rfl, rfl⟩) fun _ => Pu.bind (Pu.setState _) fun _ => Pu.pure _

theorem Wp.pcur {Q : Nat → Lexer → Prop} {s : Lexer} (h : Q s.buffer.pcur s) : Wp pcur Q s := ⟨_, _, rfl, h⟩
theorem Wp.fuel {Q : Nat → Lexer → Prop} {s : Lexer}
    (h : Q (64 * (s.buffer.d.bytes.length + 1)) s) : Wp fuel Q s := ⟨_, _, rfl, h⟩
theorem Wp.pcurSub {Q : Nat → Lexer → Prop} {s : Lexer} {n : Nat} (hn : n ≤ s.buffer.pcur)
    (h : Q (s.buffer.pcur - n) s) : Wp (pcurSub n) Q s := Wp.liftB _ (csub_of_le hn) h

/-- Changes of buffer fields that play no role for reading. -/
structure BSame (b b' : Buffer) : Prop where
  same : SameLine b b'
  pcur : b'.pcur = b.pcur
  eofp : b'.eofp = b.eofp

theorem BSame.refl (b : Buffer) : BSame b b := ⟨.refl b, rfl, rfl⟩

theorem BSame.R {b b' : Buffer} (h : BSame b b') : b'.R = b.R := by
  unfold Buffer.R Buffer.unread Buffer.curW Buffer.d
  rw [h.same.input, h.same.lineCount, h.same.nextline, h.same.lastline, h.same.pbeg, h.same.pend, h.pcur, h.eofp]

theorem BSame.good {b b' : Buffer} (h : BSame b b') (hm : Good b) : Good b' := {
  tab := by rw [Buffer.d, h.same.input]; exact hm.tab
  lc := by rw [h.same.lineCount, Buffer.d, h.same.input]; exact hm.lc
  ll := by rw [h.same.lineCount, h.same.lastline]; exact hm.ll
  nl := by rw [h.same.lineCount, h.same.nextline]; exact hm.nl
  nl2 := by rw [h.same.nextline, h.same.lastline, h.eofp, Buffer.d, h.same.input]; exact hm.nl2
  stop := by rw [h.same.pend, h.same.lastline, Buffer.d, h.same.input]; exact hm.stop
  start := by rw [h.same.pbeg, h.same.lastline, Buffer.d, h.same.input]; exact hm.start
  lo := by rw [h.same.pbeg, h.pcur]; exact hm.lo
  hi := by rw [h.same.pend, h.pcur]; exact hm.hi
  ns := by rw [h.same.pbeg, h.same.pend, h.pcur, Buffer.d, h.same.input]; exact hm.ns }

theorem BSame.mid {b b' : Buffer} (h : BSame b b') (hm : Mid b) : Mid b' := {
  h.good hm.toGood with
  lt := by rw [h.same.pbeg, h.pcur]; exact hm.lt
  nolf := by rw [h.pcur, Buffer.d, h.same.input]; exact hm.nolf
  nonl := by rw [h.same.nextline]; exact hm.nonl }

theorem BSame.locB {b b' : Buffer} (h : BSame b b') (ht : b.ptok ≤ b.pcur → b'.ptok ≤ b'.pcur)
    (hl : b.ptok ≤ b'.ptok ∨ b.pcur ≤ b'.ptok + 1) : LocB b b' :=
  ⟨h.same, by rw [h.pcur]; exact Nat.le_refl _, by have := h.R; have := h.pcur; omega, ht, by rw [h.eofp]; exact id, fun _ _ _ => by omega⟩

/-- The token start stays. -/
theorem BSame.locB' {b b' : Buffer} (h : BSame b b') (ht : b'.ptok = b.ptok) : LocB b b' :=
  h.locB (by rw [ht, h.pcur]; exact id) (.inl (by rw [ht]; exact Nat.le_refl _))

/-- `newtok` changes only bookkeeping. -/
theorem Wp.newtok {Q : Unit → Lexer → Prop} {s : Lexer}
    (h : ∀ s', Loc s s' → BSame s.buffer s'.buffer → s'.buffer.ptok = s.buffer.ptok → s'.tokenbuf = [] → Q () s') : Wp newtok Q s :=
  ⟨_, _, rfl, h _ ⟨BSame.locB ⟨⟨rfl, rfl, rfl, rfl, rfl, rfl, rfl, rfl⟩, rfl, rfl⟩ id (.inl (Nat.le_refl _)), rfl, rfl, rfl, rfl, rfl⟩
    ⟨⟨rfl, rfl, rfl, rfl, rfl, rfl, rfl, rfl⟩, rfl, rfl⟩ rfl rfl⟩

/-- Setting the token start to a position before the cursor. -/
theorem Wp.setPtok {Q : Unit → Lexer → Prop} {s : Lexer} {p : Nat} (hp : p ≤ s.buffer.pcur) (hl : s.buffer.ptok ≤ p ∨ s.buffer.pcur ≤ p + 1)
    (h : ∀ s', Loc s s' → BSame s.buffer s'.buffer → s'.buffer.ptok = p → Q () s') : Wp (setPtok p) Q s :=
  ⟨_, _, rfl, h _ ⟨BSame.locB ⟨⟨rfl, rfl, rfl, rfl, rfl, rfl, rfl, rfl⟩, rfl, rfl⟩ (fun _ => hp) hl, rfl, rfl, rfl, rfl, rfl⟩
    ⟨⟨rfl, rfl, rfl, rfl, rfl, rfl, rfl, rfl⟩, rfl, rfl⟩ rfl⟩

theorem Wp.tokenFlush {Q : Unit → Lexer → Prop} {s : Lexer}
    (h : ∀ s', Loc s s' → BSame s.buffer s'.buffer → s'.buffer.ptok = s.buffer.pcur → Q () s') : Wp tokenFlush Q s :=
  ⟨_, _, rfl, h _ ⟨BSame.locB ⟨⟨rfl, rfl, rfl, rfl, rfl, rfl, rfl, rfl⟩, rfl, rfl⟩ (fun _ => Nat.le_refl _) (.inr (Nat.le_succ _)), rfl, rfl, rfl, rfl, rfl⟩
    ⟨⟨rfl, rfl, rfl, rfl, rfl, rfl, rfl, rfl⟩, rfl, rfl⟩ rfl⟩

/-- Other bookkeeping in the buffer. -/
theorem Wp.modB_same {Q : Unit → Lexer → Prop} {s : Lexer} {f : Buffer → Buffer} (hb : BSame s.buffer (f s.buffer))
    (ht : (f s.buffer).ptok = s.buffer.ptok) (h : ∀ s', Loc s s' → BSame s.buffer s'.buffer →
      s'.buffer.ptok = s.buffer.ptok → Q () s') : Wp (Lexer.modB f) Q s :=
  ⟨_, _, rfl, h _ ⟨hb.locB' ht, rfl, rfl, rfl, rfl, rfl⟩ hb ht⟩

theorem uncheckedByteAt_ok {b : Buffer} (h : Good b) {j : Nat} (hj : j < b.pend) :
    ∃ c, b.input.uncheckedByteAt j = .ok c ∧ b.d.bytes[j]? = some c := by
  obtain ⟨c, hc⟩ := h.byte hj
  exact ⟨c, by simp only [Input.uncheckedByteAt]; rw [hc], hc⟩

theorem peekN_ok {b : Buffer} (h : Good b) (c : UInt8) (n : Nat) :
    b.peekN c n = .ok (decide (b.pcur + n < b.pend ∧ b.d.bytes[b.pcur + n]? = some c)) := by
  unfold Buffer.peekN Buffer.isEolN
  by_cases hn : b.pcur + n ≥ b.pend
  · rw [if_pos (by simpa using hn)]
    congr 1
    symm
    simp only [decide_eq_false_iff_not, not_and]
    intro h; omega
  · rw [if_neg (by simpa using hn)]
    obtain ⟨x, h1, h2⟩ := uncheckedByteAt_ok h (j := b.pcur + n) (by omega)
    rw [h1]
    simp only [Bind.bind, Except.bind, Pure.pure, Except.pure]
    rw [h2]
    congr 1
    by_cases e : c = x
    · subst e; simp; omega
    · simp only [beq_eq_false_iff_ne.2 e]
      symm; simp only [decide_eq_false_iff_not, not_and]; intro _ h; exact e (by simpa using h.symm)

theorem Wp.peek {Q : Bool → Lexer → Prop} {s : Lexer} {c : Char} (hg : Good s.buffer)
    (h : ∀ r, (r = true ↔ s.buffer.pcur < s.buffer.pend ∧ s.buffer.d.bytes[s.buffer.pcur]? = some (asc c)) → Q r s) :
    Wp (peek c) Q s :=
  Wp.liftB _ (peekN_ok hg _ 0) (h _ (by simp))

theorem Wp.isLabelSuffix {Q : Bool → Lexer → Prop} {s : Lexer} {n : Nat} (hg : Good s.buffer)
    (h : ∀ r, (r = true → s.buffer.pcur + n < s.buffer.pend ∧ s.buffer.d.bytes[s.buffer.pcur + n]? = some 58) → Q r s) :
    Wp (isLabelSuffix n) Q s := by
  unfold Lexer.isLabelSuffix
  by_cases e : s.buffer.pcur + n < s.buffer.pend ∧ s.buffer.d.bytes[s.buffer.pcur + n]? = some (asc ':')
  · refine Wp.liftB (!decide (s.buffer.pcur + (n + 1) < s.buffer.pend ∧ s.buffer.d.bytes[s.buffer.pcur + (n + 1)]? = some (asc ':')))
      ?_ (h _ (fun _ => e))
    simp only [peekN_ok hg, Bind.bind, Except.bind, Pure.pure, Except.pure, decide_eq_true e, if_true]
  · refine Wp.liftB false ?_ (h _ (by simp))
    simp only [peekN_ok hg, Bind.bind, Except.bind, Pure.pure, Except.pure, decide_eq_false e, if_false, Bool.false_eq_true]

theorem Wp.tokaddMB {Q : Unit → Lexer → Prop} {s : Lexer} {c : MB} (hc : c ≠ none) (h : ∀ s', Same s s' → Q () s') :
    Wp (tokaddMB c) Q s := by
  cases c with
  | none => exact absurd rfl hc
  | some ch => exact Wp.pu (Pu.tokadd ch) fun _ s' => h s'

theorem Wp.isIdentchar {Q : Bool → Lexer → Prop} {s : Lexer} (hp : 0 < s.buffer.pcur)
    (h : ∀ r, (r = true ↔ s.buffer.eofp = false ∧ s.buffer.isIdentcharAt (s.buffer.pcur - 1) = true) → Q r s) :
    Wp isIdentchar Q s := by
  unfold Lexer.isIdentchar
  by_cases e : s.buffer.eofp = true
  · exact Wp.liftB false (by simp [e]) (h _ (by simp [e]))
  · refine Wp.liftB (s.buffer.isIdentcharAt (s.buffer.pcur - 1)) ?_ (h _ (by simp [e]))
    simp [e, csub_of_le hp, Bind.bind, Except.bind, Pure.pure, Except.pure]

theorem Wp.isAsciiPrev {Q : Bool → Lexer → Prop} {s : Lexer} (hp : 0 < s.buffer.pcur)
    (h : Q (MB.isAscii (s.buffer.byteAt (s.buffer.pcur - 1))) s) : Wp isAsciiPrev Q s := by
  unfold Lexer.isAsciiPrev
  exact Wp.liftB _ (by simp [csub_of_le hp, Bind.bind, Except.bind, Pure.pure, Except.pure]) h

theorem substrAt_ok {b : Buffer} {i j : Nat} (h1 : i ≤ j) (h2 : j ≤ b.d.bytes.length) :
    b.substrAt i j = .ok (some (Spec.slice b.d.bytes i j)) := by
  unfold Buffer.substrAt DecodedInput.substrAt
  rw [if_pos ⟨h1, h2⟩]
  simp [DecodedInput.sliceChecked, Buffer.d] at h1 h2 ⊢
  simp [h1, h2, Spec.slice]
  rfl

theorem substrAt_total (b : Buffer) (i j : Nat) : ∃ r, b.substrAt i j = .ok r ∧
    (r = if i ≤ j ∧ j ≤ b.d.bytes.length then some (Spec.slice b.d.bytes i j) else none) := by
  by_cases e : i ≤ j ∧ j ≤ b.d.bytes.length
  · exact ⟨_, substrAt_ok e.1 e.2, by rw [if_pos e]⟩
  · refine ⟨none, ?_, by rw [if_neg e]⟩
    unfold Buffer.substrAt DecodedInput.substrAt
    rw [if_neg e]

end Verif.Lexer
