import Verif.Lemmas.LexGap
import Verif.Spec.Operators
/-! Operators are read as the specification says. -/
namespace Verif.Lexer
open Verif.Props (collapse Seq nextc_text)
open OpSpec (Place AfterOperand BeforeOperand infixes prefixes Longest)

/-- Inside a line, behind a character. -/
structure Behind (bs text : Bytes) (b : Buffer) : Prop where
  inline : Inline bs text b
  prev : ∃ c, bs[b.pcur - 1]? = some c ∧ c ≠ 10

theorem Took.behind {bs text : Bytes} {c : UInt8} {b : Buffer} (h : Took bs c text b) (hc : c ≠ 10) : Behind bs text b :=
  ⟨h.inline hc, c, h.last, hc⟩

/-- A character was read that can be put back. -/
def Undo (bs text : Bytes) (b0 b : Buffer) : Prop :=
  ∃ b2, b.pushback text.head? = .ok b2 ∧ Upcoming bs text b2 ∧ b2.pcur = b0.pcur ∧ b2.ptok = b0.ptok

theorem Behind.peekc {bs text : Bytes} {s : Lexer} (h : Behind bs text s.buffer) {Q : MB → Lexer → Prop}
    (hq : ∀ b, Undo bs text s.buffer b → Q text.head? { s with buffer := b }) : Wp Lexer.nextc Q s := by
  obtain ⟨c', b', e, hn⟩ := nextc_good h.inline.at'.seq.good
  have hrun : Lexer.nextc s = .ok (c', { s with buffer := b' }) := by simp [Lexer.nextc, e, Bind.bind, Except.bind, Pure.pure, Except.pure]
  obtain ⟨h1, h2, h3⟩ := nextc_text h.inline.at'.seq e
  have hd : b'.d = s.buffer.d := by simp only [Buffer.d, h2]
  rw [h.inline.at'.d, h.inline.at'.txt] at h3
  refine ⟨c', _, hrun, ?_⟩
  cases text with
  | nil =>
    rcases h3 with ⟨rfl, -, h4⟩ | ⟨ch, rfl, h3⟩
    · have hu : Upcoming bs [] b' := ⟨h1, by rw [hd]; exact h.inline.at'.d, h4⟩
      cases hn with
      | eof h5 => exact hq _ ⟨_, rfl, hu, rfl, rfl⟩
      | eofNow h5 h6 h7 h8 => exact hq _ ⟨_, rfl, hu, rfl, rfl⟩
      | eofLoad _ hl h5 h6 h7 =>
        exfalso
        have h8 := (hl.atEnd h.inline.at'.seq.nl).1
        have h9 := hl.later
        have h10 := hl.good.llen
        rw [hd] at h10
        have h11 := h.inline.at'.seq.good.tab.last_lf (i := s.buffer.lastline) (by omega)
        rw [← h.inline.at'.seq.good.stop, h.inline.at'.d, ← h8] at h11
        obtain ⟨c, hc, hne⟩ := h.prev
        rw [hc] at h11
        simp only [Option.some.injEq] at h11
        exact hne h11
    · cases h3
  | cons c t =>
    obtain ⟨c2, s2, e2, g1, g2, g3⟩ := Upcoming.nextc (Q := fun r s' => r = some c ∧ Took bs c t s'.buffer ∧ s'.buffer.pbPos = s.buffer.pcur)
      h.inline.at' fun b ht hm => ⟨rfl, ht, hm.back⟩
    rw [hrun] at e2
    simp only [Except.ok.injEq, Prod.mk.injEq] at e2
    obtain ⟨rfl, rfl⟩ := e2
    subst g1
    have hlt := h.inline.lt (by simp)
    cases hn with
    | load ch b1 b' hl hr => exact absurd (hl.atEnd h.inline.at'.seq.nl).1 (by omega)
    | here ch b' h4 hr =>
      refine hq b' ⟨s.buffer, ?_, h.inline.at', rfl, rfl⟩
      dsimp only at g3
      simp only [Buffer.pushback, pushbackByte_eq _ g2.pos, List.head?_cons, g3]
      have : ({ b' with pcur := s.buffer.pcur } : Buffer) = s.buffer := by rw [hr.eq]
      rw [this]

/-- Reading a given character. -/
theorem Behind.eat {bs text : Bytes} {c : UInt8} {s : Lexer} (h : Behind bs (c :: text) s.buffer) (hc : c ≠ 10) {Q : MB → Lexer → Prop}
    (hq : ∀ b, Behind bs text b → b.pcur = s.buffer.pcur + 1 → b.ptok = s.buffer.ptok → Q (some c) { s with buffer := b }) : Wp Lexer.nextc Q s := by
  have h1 := h.inline.step hc
  exact h1.nextc (hq _ ⟨h1.next, c, h1.byte, hc⟩ rfl rfl)

theorem Undo.pushback {bs text : Bytes} {b0 : Buffer} {s : Lexer} (h : Undo bs text b0 s.buffer) {c : MB} (hc : c = text.head?) {Q : Unit → Lexer → Prop}
    (hq : ∀ b, Upcoming bs text b → b.pcur = b0.pcur → b.ptok = b0.ptok → Q () { s with buffer := b }) : Wp (Lexer.pushback c) Q s := by
  obtain ⟨b2, h1, h2, h3, h4⟩ := h
  refine ⟨(), _, ?_, hq b2 h2 h3 h4⟩
  subst hc
  simp [Lexer.pushback, h1, Bind.bind, Except.bind, Pure.pure, Except.pure]

/-- Only warnings. -/
def Warnings (ds : List LexDiag) : Prop := ∀ d ∈ ds, d.level = .warning

theorem isSome_or {st a b : Nat} (h : LexState.isSome st (a ||| b) = false) : LexState.isSome st a = false ∧ LexState.isSome st b = false := by
  simp only [LexState.isSome, bne_eq_false_iff_eq, Nat.and_or_distrib_left, Nat.or_eq_zero_iff] at h ⊢
  exact h

theorem isAll_arg {st : Nat} (h : LexState.isSome st EXPR_ARG = false) : LexState.isAll st (EXPR_ARG ||| EXPR_LABELED) = false := by
  by_contra hn
  simp only [LexState.isAll, Bool.not_eq_false, beq_iff_eq] at hn
  have : (st &&& (EXPR_ARG ||| EXPR_LABELED)) &&& EXPR_ARG = st &&& EXPR_ARG := by rw [Nat.and_assoc]; rfl
  rw [hn] at this
  simp only [LexState.isSome, bne_eq_false_iff_eq] at h
  rw [h] at this
  revert this; decide

/-- What the lexer looks at after an operand. -/
structure EndState (st : LexState) : Prop where
  isEnd : st.isEnd = true
  isBeg : st.isBeg = false
  isArg : st.isArg = false
  op : st.isAfterOperator = false
  beg : st.isSome EXPR_BEG = false
  cls : st.isSome EXPR_CLASS = false
  fitem : st.isSome EXPR_FITEM = false

theorem AfterOperand.end' {st : LexState} (h : AfterOperand st) : EndState st := by
  obtain ⟨h1, h2⟩ := h
  obtain ⟨h2, h7⟩ := isSome_or (isSome_or h2).1
  obtain ⟨h2, h6⟩ := isSome_or h2
  obtain ⟨h2, h5⟩ := isSome_or h2
  obtain ⟨h3, h4⟩ := isSome_or h2
  obtain ⟨h8, h9⟩ := isSome_or (a := EXPR_BEG ||| EXPR_MID) (b := EXPR_CLASS) h3
  obtain ⟨h10, h11⟩ := isSome_or (a := EXPR_ARG) (b := EXPR_CMDARG) h4
  refine ⟨h1, ?_, h4, ?_, (isSome_or h8).1, h9, h7⟩
  · simp only [LexState.isBeg, h3, isAll_arg h10, Bool.or_self]
  · simp only [LexState.isAfterOperator, LexState.isSome, bne_eq_false_iff_eq, Nat.and_or_distrib_left, Nat.or_eq_zero_iff] at h5 h6 ⊢
    exact ⟨h5, h6⟩

/-- What the lexer looks at after a name that may be a command. -/
structure ArgState (st : LexState) : Prop where
  isEnd : st.isEnd = false
  isBeg : st.isBeg = false
  isArg : st.isArg = true
  op : st.isAfterOperator = false
  beg : st.isSome EXPR_BEG = false
  cls : st.isSome EXPR_CLASS = false
  fitem : st.isSome EXPR_FITEM = false
  labeled : st.isSome EXPR_LABELED = false

theorem isAll_labeled {st : Nat} (h : LexState.isSome st EXPR_LABELED = false) : LexState.isAll st (EXPR_ARG ||| EXPR_LABELED) = false := by
  by_contra hn
  simp only [LexState.isAll, Bool.not_eq_false, beq_iff_eq] at hn
  have : (st &&& (EXPR_ARG ||| EXPR_LABELED)) &&& EXPR_LABELED = st &&& EXPR_LABELED := by rw [Nat.and_assoc]; rfl
  rw [hn] at this
  simp only [LexState.isSome, bne_eq_false_iff_eq] at h
  rw [h] at this
  revert this; decide

theorem AfterName.arg' {st : LexState} (h : OpSpec.AfterName st) : ArgState st := by
  obtain ⟨h1, h2⟩ := h
  obtain ⟨h2, h8⟩ := isSome_or h2
  obtain ⟨h2, h7⟩ := isSome_or h2
  obtain ⟨h2, h6⟩ := isSome_or h2
  obtain ⟨h2, h5⟩ := isSome_or h2
  obtain ⟨h3, h4⟩ := isSome_or h2
  obtain ⟨h9, h10⟩ := isSome_or (a := EXPR_BEG ||| EXPR_MID) (b := EXPR_CLASS) h3
  refine ⟨h4, ?_, h1, ?_, (isSome_or h9).1, h10, h7, h8⟩
  · simp only [LexState.isBeg, h3, isAll_labeled h8, Bool.or_self]
  · simp only [LexState.isAfterOperator, LexState.isSome, bne_eq_false_iff_eq, Nat.and_or_distrib_left, Nat.or_eq_zero_iff] at h5 h6 ⊢
    exact ⟨h5, h6⟩

/-- What the lexer looks at before an operand. -/
structure BegState (st : LexState) : Prop where
  isEnd : st.isEnd = false
  isBeg : st.isBeg = true
  isArg : st.isArg = false
  op : st.isAfterOperator = false

theorem BeforeOperand.beg' {st : LexState} (h : BeforeOperand st) : BegState st := by
  obtain ⟨h1, h2⟩ := h
  obtain ⟨h2, h6⟩ := isSome_or (isSome_or h2).1
  obtain ⟨h2, h5⟩ := isSome_or h2
  obtain ⟨h3, h4⟩ := isSome_or h2
  refine ⟨h3, ?_, h4, ?_⟩
  · simp only [LexState.isBeg, h1, Bool.true_or]
  · simp only [LexState.isAfterOperator, LexState.isSome, bne_eq_false_iff_eq, Nat.and_or_distrib_left, Nat.or_eq_zero_iff] at h5 h6 ⊢
    exact ⟨h5, h6⟩

/-- The first character of an operator was read. -/
structure OpFirst (bs text : Bytes) (p : Nat) (s : Lexer) : Prop where
  behind : Behind bs text s.buffer
  pcur : s.buffer.pcur = p + 1
  ptok : s.buffer.ptok = p
  lval : s.lval = none
  strterm : s.strterm = none
  ls : s.lvalStart = none
  le : s.lvalEnd = none

/-- An operator was read. -/
structure OpRead (bs : Bytes) (op rest : Bytes) (p : Nat) (s0 : Lexer) (t : Tok) (pl : Place) (r : Next) (s : Lexer) : Prop where
  tok : r = .tok t
  up : Upcoming bs rest s.buffer
  pcur : s.buffer.pcur = p + op.length
  ptok : s.buffer.ptok = p
  lval : s.lval = none ∨ s.lval = some op
  strterm : s.strterm = none
  ls : s.lvalStart = none
  le : s.lvalEnd = none
  warn : ∃ ds, s.diagnostics = s0.diagnostics ++ ds ∧ Warnings ds
  place : pl.Is s.lexState

theorem Wp.warnBal {t : Tok} {o y : String} {c : MB} {sp : Bool} {l : LexState} {s : Lexer} {Q : Tok → Lexer → Prop}
    (hq : ∀ ds, Warnings ds → Q t { s with diagnostics := s.diagnostics ++ ds }) : Wp (Lexer.warnBalanced t o y c sp l) Q s := by
  unfold Lexer.warnBalanced
  refine Wp.ite (fun _ => ?_) fun _ => ?_
  · exact Wp.bind (Wp.getB (Wp.bind (Wp.modS (Wp.pure (hq _ (by simp [Warnings]))))))
  · refine Wp.pure ?_
    have := hq [] (by simp [Warnings])
    rwa [List.append_nil] at this


/-- Simplify a condition on the state. -/
macro "oside" : tactic => `(tactic| (first | rfl | assumption | (simp (config := { decide := true }) [isC, isSpacearg, *]; done)))

theorem Wp.modS_not {c : Prop} [Decidable c] {f : Lexer → Lexer} {s : Lexer} {Q : Unit → Lexer → Prop} (hc : ¬ c) (hq : Q () s) :
    Wp (Lexer.modS fun s => if c then f s else s) Q s := Wp.modS (by rw [if_neg hc]; exact hq)

/-- One step of reading an operator. -/
macro "ostep" : tactic => `(tactic| ((first
  | ((with_reducible apply Behind.eat); (· assumption); (· decide); intro _ _ _ _)
  | ((with_reducible apply Behind.peekc); (· assumption); intro _ _)
  | ((with_reducible apply Undo.pushback); (· assumption); (· rfl); intro _ _ _ _)
  | with_reducible refine Wp.warnBal fun _ _ => ?_
  | with_reducible refine Wp.getS ?_
  | with_reducible refine Wp.getB ?_
  | ((with_reducible refine Wp.modS_not ?_ ?_); (· oside))
  | with_reducible refine Wp.modS ?_
  | with_reducible refine Wp.pcur ?_
  | with_reducible refine Wp.pure ?_
  | with_reducible refine Wp.bind ?_
  | ((with_reducible refine Wp.ite (fun e => absurd e ?_) fun _ => ?_); (· oside))
  | ((with_reducible refine Wp.ite (fun _ => ?_) (fun e => absurd ?_ e)); rotate_left; (· oside))
  | unfold getState | unfold spacearg | unfold setStateAfterOp | unfold setState | unfold done | unfold opAsgn | unfold setLval | unfold unaryHere | unfold currentLoc | unfold Lexer.warn | unfold emit | unfold lexDot3 | unfold isLambdaBeginning | unfold openNest); try dsimp only))

theorem before_beg : BeforeOperand EXPR_BEG ∧ LexState.isSome EXPR_BEG EXPR_BEG = true := ⟨⟨by decide, by decide⟩, by decide⟩
theorem before_label : BeforeOperand (EXPR_BEG ||| EXPR_LABEL) ∧ LexState.isSome (EXPR_BEG ||| EXPR_LABEL) EXPR_BEG = true := ⟨⟨by decide, by decide⟩, by decide⟩
theorem after_end : AfterOperand EXPR_END := ⟨by decide, by decide⟩
theorem after_endfn : AfterOperand EXPR_ENDFN := ⟨by decide, by decide⟩
theorem name_dot : EXPR_DOT = EXPR_DOT := rfl

/-- After the last step. -/
macro "oend" : tactic => `(tactic| exact ⟨by first | rfl | simp [*], by first | assumption | exact Inline.at' (Behind.inline (by assumption)), by simp only [*]; rfl, by simp only [*],
  by first | exact .inr rfl | exact .inl (by assumption), by assumption, by assumption, by assumption,
  by first | exact ⟨_, rfl, by assumption⟩ | exact ⟨_, rfl, by simp [Warnings]⟩ | exact ⟨[], (List.append_nil _).symm, by simp [Warnings]⟩,
  by (try simp only [*, Bool.false_eq_true, if_false]); first | exact before_beg | exact before_label | exact after_end | exact after_endfn | exact name_dot⟩)

section
variable {bs rest : Bytes} {p : Nat} {s : Lexer} {sp : Bool}

theorem op_star_star (h : OpFirst bs (asc '*' :: rest) p s) (ha : EndState s.lexState) (n0 : rest.head? ≠ some (asc '=')) :
    Wp (lexStar sp s.lexState) (OpRead bs (ascs "**") rest p s .tPOW .operand) s := by
  obtain ⟨hb, h2, h3, h4, h5, h6, h7⟩ := h
  obtain ⟨g1, g2, g3, g4, g5, g6, g7⟩ := ha
  unfold lexStar
  repeat ostep
  oend

theorem op_star (h : OpFirst bs rest p s) (ha : EndState s.lexState) (n0 : rest.head? ≠ some (asc '*')) (n1 : rest.head? ≠ some (asc '=')) :
    Wp (lexStar sp s.lexState) (OpRead bs (ascs "*") rest p s .tSTAR2 .operand) s := by
  obtain ⟨hb, h2, h3, h4, h5, h6, h7⟩ := h
  obtain ⟨g1, g2, g3, g4, g5, g6, g7⟩ := ha
  unfold lexStar
  repeat ostep
  oend

theorem op_star_star_eq (h : OpFirst bs (asc '*' :: asc '=' :: rest) p s) (ha : EndState s.lexState) :
    Wp (lexStar sp s.lexState) (OpRead bs (ascs "**=") rest p s .tOP_ASGN .operand) s := by
  obtain ⟨hb, h2, h3, h4, h5, h6, h7⟩ := h
  obtain ⟨g1, g2, g3, g4, g5, g6, g7⟩ := ha
  unfold lexStar
  repeat ostep
  oend

theorem op_star_eq (h : OpFirst bs (asc '=' :: rest) p s) (ha : EndState s.lexState) :
    Wp (lexStar sp s.lexState) (OpRead bs (ascs "*=") rest p s .tOP_ASGN .operand) s := by
  obtain ⟨hb, h2, h3, h4, h5, h6, h7⟩ := h
  obtain ⟨g1, g2, g3, g4, g5, g6, g7⟩ := ha
  unfold lexStar
  repeat ostep
  oend

theorem op_bang (h : OpFirst bs rest p s) (ha : EndState s.lexState) (n0 : rest.head? ≠ some (asc '=')) (n1 : rest.head? ≠ some (asc '~')) :
    Wp (lexBang) (OpRead bs (ascs "!") rest p s .tBANG .operand) s := by
  obtain ⟨hb, h2, h3, h4, h5, h6, h7⟩ := h
  obtain ⟨g1, g2, g3, g4, g5, g6, g7⟩ := ha
  unfold lexBang
  repeat ostep
  oend

theorem op_bang_eq (h : OpFirst bs (asc '=' :: rest) p s) (ha : EndState s.lexState) :
    Wp (lexBang) (OpRead bs (ascs "!=") rest p s .tNEQ .operand) s := by
  obtain ⟨hb, h2, h3, h4, h5, h6, h7⟩ := h
  obtain ⟨g1, g2, g3, g4, g5, g6, g7⟩ := ha
  unfold lexBang
  repeat ostep
  oend

theorem op_bang_tilde (h : OpFirst bs (asc '~' :: rest) p s) (ha : EndState s.lexState) :
    Wp (lexBang) (OpRead bs (ascs "!~") rest p s .tNMATCH .operand) s := by
  obtain ⟨hb, h2, h3, h4, h5, h6, h7⟩ := h
  obtain ⟨g1, g2, g3, g4, g5, g6, g7⟩ := ha
  unfold lexBang
  repeat ostep
  oend

theorem op_eq (h : OpFirst bs rest p s) (ha : EndState s.lexState) (n0 : rest.head? ≠ some (asc '=')) (n1 : rest.head? ≠ some (asc '~')) (n2 : rest.head? ≠ some (asc '>')) :
    Wp (lexEqOp) (OpRead bs (ascs "=") rest p s .tEQL .operand) s := by
  obtain ⟨hb, h2, h3, h4, h5, h6, h7⟩ := h
  obtain ⟨g1, g2, g3, g4, g5, g6, g7⟩ := ha
  unfold lexEqOp
  repeat ostep
  oend

theorem op_eq_eq (h : OpFirst bs (asc '=' :: rest) p s) (ha : EndState s.lexState) (n0 : rest.head? ≠ some (asc '=')) :
    Wp (lexEqOp) (OpRead bs (ascs "==") rest p s .tEQ .operand) s := by
  obtain ⟨hb, h2, h3, h4, h5, h6, h7⟩ := h
  obtain ⟨g1, g2, g3, g4, g5, g6, g7⟩ := ha
  unfold lexEqOp
  repeat ostep
  oend

theorem op_eq_eq_eq (h : OpFirst bs (asc '=' :: asc '=' :: rest) p s) (ha : EndState s.lexState) :
    Wp (lexEqOp) (OpRead bs (ascs "===") rest p s .tEQQ .operand) s := by
  obtain ⟨hb, h2, h3, h4, h5, h6, h7⟩ := h
  obtain ⟨g1, g2, g3, g4, g5, g6, g7⟩ := ha
  unfold lexEqOp
  repeat ostep
  oend

theorem op_eq_tilde (h : OpFirst bs (asc '~' :: rest) p s) (ha : EndState s.lexState) :
    Wp (lexEqOp) (OpRead bs (ascs "=~") rest p s .tMATCH .operand) s := by
  obtain ⟨hb, h2, h3, h4, h5, h6, h7⟩ := h
  obtain ⟨g1, g2, g3, g4, g5, g6, g7⟩ := ha
  unfold lexEqOp
  repeat ostep
  oend

theorem op_eq_gt (h : OpFirst bs (asc '>' :: rest) p s) (ha : EndState s.lexState) :
    Wp (lexEqOp) (OpRead bs (ascs "=>") rest p s .tASSOC .operand) s := by
  obtain ⟨hb, h2, h3, h4, h5, h6, h7⟩ := h
  obtain ⟨g1, g2, g3, g4, g5, g6, g7⟩ := ha
  unfold lexEqOp
  repeat ostep
  oend

theorem op_lt (h : OpFirst bs rest p s) (ha : EndState s.lexState) (n0 : rest.head? ≠ some (asc '=')) (n1 : rest.head? ≠ some (asc '<')) :
    Wp (lexLt sp s.lexState) (OpRead bs (ascs "<") rest p s .tLT .operand) s := by
  obtain ⟨hb, h2, h3, h4, h5, h6, h7⟩ := h
  obtain ⟨g1, g2, g3, g4, g5, g6, g7⟩ := ha
  unfold lexLt lexLtOp
  repeat ostep
  oend

theorem op_lt_eq (h : OpFirst bs (asc '=' :: rest) p s) (ha : EndState s.lexState) (n0 : rest.head? ≠ some (asc '>')) :
    Wp (lexLt sp s.lexState) (OpRead bs (ascs "<=") rest p s .tLEQ .operand) s := by
  obtain ⟨hb, h2, h3, h4, h5, h6, h7⟩ := h
  obtain ⟨g1, g2, g3, g4, g5, g6, g7⟩ := ha
  unfold lexLt lexLtOp
  repeat ostep
  oend

theorem op_lt_eq_gt (h : OpFirst bs (asc '=' :: asc '>' :: rest) p s) (ha : EndState s.lexState) :
    Wp (lexLt sp s.lexState) (OpRead bs (ascs "<=>") rest p s .tCMP .operand) s := by
  obtain ⟨hb, h2, h3, h4, h5, h6, h7⟩ := h
  obtain ⟨g1, g2, g3, g4, g5, g6, g7⟩ := ha
  unfold lexLt lexLtOp
  repeat ostep
  oend

theorem op_lt_lt (h : OpFirst bs (asc '<' :: rest) p s) (ha : EndState s.lexState) (n0 : rest.head? ≠ some (asc '=')) :
    Wp (lexLt sp s.lexState) (OpRead bs (ascs "<<") rest p s .tLSHFT .operand) s := by
  obtain ⟨hb, h2, h3, h4, h5, h6, h7⟩ := h
  obtain ⟨g1, g2, g3, g4, g5, g6, g7⟩ := ha
  unfold lexLt lexLtOp
  repeat ostep
  oend

theorem op_lt_lt_eq (h : OpFirst bs (asc '<' :: asc '=' :: rest) p s) (ha : EndState s.lexState) :
    Wp (lexLt sp s.lexState) (OpRead bs (ascs "<<=") rest p s .tOP_ASGN .operand) s := by
  obtain ⟨hb, h2, h3, h4, h5, h6, h7⟩ := h
  obtain ⟨g1, g2, g3, g4, g5, g6, g7⟩ := ha
  unfold lexLt lexLtOp
  repeat ostep
  oend

theorem op_gt (h : OpFirst bs rest p s) (ha : EndState s.lexState) (n0 : rest.head? ≠ some (asc '=')) (n1 : rest.head? ≠ some (asc '>')) :
    Wp (lexGt) (OpRead bs (ascs ">") rest p s .tGT .operand) s := by
  obtain ⟨hb, h2, h3, h4, h5, h6, h7⟩ := h
  obtain ⟨g1, g2, g3, g4, g5, g6, g7⟩ := ha
  unfold lexGt
  repeat ostep
  oend

theorem op_gt_eq (h : OpFirst bs (asc '=' :: rest) p s) (ha : EndState s.lexState) :
    Wp (lexGt) (OpRead bs (ascs ">=") rest p s .tGEQ .operand) s := by
  obtain ⟨hb, h2, h3, h4, h5, h6, h7⟩ := h
  obtain ⟨g1, g2, g3, g4, g5, g6, g7⟩ := ha
  unfold lexGt
  repeat ostep
  oend

theorem op_gt_gt (h : OpFirst bs (asc '>' :: rest) p s) (ha : EndState s.lexState) (n0 : rest.head? ≠ some (asc '=')) :
    Wp (lexGt) (OpRead bs (ascs ">>") rest p s .tRSHFT .operand) s := by
  obtain ⟨hb, h2, h3, h4, h5, h6, h7⟩ := h
  obtain ⟨g1, g2, g3, g4, g5, g6, g7⟩ := ha
  unfold lexGt
  repeat ostep
  oend

theorem op_gt_gt_eq (h : OpFirst bs (asc '>' :: asc '=' :: rest) p s) (ha : EndState s.lexState) :
    Wp (lexGt) (OpRead bs (ascs ">>=") rest p s .tOP_ASGN .operand) s := by
  obtain ⟨hb, h2, h3, h4, h5, h6, h7⟩ := h
  obtain ⟨g1, g2, g3, g4, g5, g6, g7⟩ := ha
  unfold lexGt
  repeat ostep
  oend

theorem op_amp (h : OpFirst bs rest p s) (ha : EndState s.lexState) (n0 : rest.head? ≠ some (asc '&')) (n1 : rest.head? ≠ some (asc '=')) (n2 : rest.head? ≠ some (asc '.')) :
    Wp (lexAmp sp s.lexState) (OpRead bs (ascs "&") rest p s .tAMPER2 .operand) s := by
  obtain ⟨hb, h2, h3, h4, h5, h6, h7⟩ := h
  obtain ⟨g1, g2, g3, g4, g5, g6, g7⟩ := ha
  unfold lexAmp
  repeat ostep
  oend

theorem op_amp_amp (h : OpFirst bs (asc '&' :: rest) p s) (ha : EndState s.lexState) (n0 : rest.head? ≠ some (asc '=')) :
    Wp (lexAmp sp s.lexState) (OpRead bs (ascs "&&") rest p s .tANDOP .operand) s := by
  obtain ⟨hb, h2, h3, h4, h5, h6, h7⟩ := h
  obtain ⟨g1, g2, g3, g4, g5, g6, g7⟩ := ha
  unfold lexAmp
  repeat ostep
  oend

theorem op_amp_amp_eq (h : OpFirst bs (asc '&' :: asc '=' :: rest) p s) (ha : EndState s.lexState) :
    Wp (lexAmp sp s.lexState) (OpRead bs (ascs "&&=") rest p s .tOP_ASGN .operand) s := by
  obtain ⟨hb, h2, h3, h4, h5, h6, h7⟩ := h
  obtain ⟨g1, g2, g3, g4, g5, g6, g7⟩ := ha
  unfold lexAmp
  repeat ostep
  oend

theorem op_amp_eq (h : OpFirst bs (asc '=' :: rest) p s) (ha : EndState s.lexState) :
    Wp (lexAmp sp s.lexState) (OpRead bs (ascs "&=") rest p s .tOP_ASGN .operand) s := by
  obtain ⟨hb, h2, h3, h4, h5, h6, h7⟩ := h
  obtain ⟨g1, g2, g3, g4, g5, g6, g7⟩ := ha
  unfold lexAmp
  repeat ostep
  oend

theorem op_amp_dot (h : OpFirst bs (asc '.' :: rest) p s) (ha : EndState s.lexState) :
    Wp (lexAmp sp s.lexState) (OpRead bs (ascs "&.") rest p s .tANDDOT .name) s := by
  obtain ⟨hb, h2, h3, h4, h5, h6, h7⟩ := h
  obtain ⟨g1, g2, g3, g4, g5, g6, g7⟩ := ha
  unfold lexAmp
  repeat ostep
  oend

theorem op_pipe (h : OpFirst bs rest p s) (ha : EndState s.lexState) (n0 : rest.head? ≠ some (asc '|')) (n1 : rest.head? ≠ some (asc '=')) :
    Wp (lexPipe s.lexState) (OpRead bs (ascs "|") rest p s .tPIPE .operand) s := by
  obtain ⟨hb, h2, h3, h4, h5, h6, h7⟩ := h
  obtain ⟨g1, g2, g3, g4, g5, g6, g7⟩ := ha
  unfold lexPipe
  repeat ostep
  oend

theorem op_pipe_pipe (h : OpFirst bs (asc '|' :: rest) p s) (ha : EndState s.lexState) (n0 : rest.head? ≠ some (asc '=')) :
    Wp (lexPipe s.lexState) (OpRead bs (ascs "||") rest p s .tOROP .operand) s := by
  obtain ⟨hb, h2, h3, h4, h5, h6, h7⟩ := h
  obtain ⟨g1, g2, g3, g4, g5, g6, g7⟩ := ha
  unfold lexPipe
  repeat ostep
  oend

theorem op_pipe_pipe_eq (h : OpFirst bs (asc '|' :: asc '=' :: rest) p s) (ha : EndState s.lexState) :
    Wp (lexPipe s.lexState) (OpRead bs (ascs "||=") rest p s .tOP_ASGN .operand) s := by
  obtain ⟨hb, h2, h3, h4, h5, h6, h7⟩ := h
  obtain ⟨g1, g2, g3, g4, g5, g6, g7⟩ := ha
  unfold lexPipe
  repeat ostep
  oend

theorem op_pipe_eq (h : OpFirst bs (asc '=' :: rest) p s) (ha : EndState s.lexState) :
    Wp (lexPipe s.lexState) (OpRead bs (ascs "|=") rest p s .tOP_ASGN .operand) s := by
  obtain ⟨hb, h2, h3, h4, h5, h6, h7⟩ := h
  obtain ⟨g1, g2, g3, g4, g5, g6, g7⟩ := ha
  unfold lexPipe
  repeat ostep
  oend

theorem op_plus (h : OpFirst bs rest p s) (ha : EndState s.lexState) (n0 : rest.head? ≠ some (asc '=')) :
    Wp (lexPlus sp s.lexState) (OpRead bs (ascs "+") rest p s .tPLUS .operand) s := by
  obtain ⟨hb, h2, h3, h4, h5, h6, h7⟩ := h
  obtain ⟨g1, g2, g3, g4, g5, g6, g7⟩ := ha
  unfold lexPlus
  repeat ostep
  oend

theorem op_plus_eq (h : OpFirst bs (asc '=' :: rest) p s) (ha : EndState s.lexState) :
    Wp (lexPlus sp s.lexState) (OpRead bs (ascs "+=") rest p s .tOP_ASGN .operand) s := by
  obtain ⟨hb, h2, h3, h4, h5, h6, h7⟩ := h
  obtain ⟨g1, g2, g3, g4, g5, g6, g7⟩ := ha
  unfold lexPlus
  repeat ostep
  oend

theorem op_minus (h : OpFirst bs rest p s) (ha : EndState s.lexState) (n0 : rest.head? ≠ some (asc '=')) (n1 : rest.head? ≠ some (asc '>')) :
    Wp (lexMinus sp s.lexState) (OpRead bs (ascs "-") rest p s .tMINUS .operand) s := by
  obtain ⟨hb, h2, h3, h4, h5, h6, h7⟩ := h
  obtain ⟨g1, g2, g3, g4, g5, g6, g7⟩ := ha
  unfold lexMinus
  repeat ostep
  oend

theorem op_minus_eq (h : OpFirst bs (asc '=' :: rest) p s) (ha : EndState s.lexState) :
    Wp (lexMinus sp s.lexState) (OpRead bs (ascs "-=") rest p s .tOP_ASGN .operand) s := by
  obtain ⟨hb, h2, h3, h4, h5, h6, h7⟩ := h
  obtain ⟨g1, g2, g3, g4, g5, g6, g7⟩ := ha
  unfold lexMinus
  repeat ostep
  oend

theorem op_minus_gt (h : OpFirst bs (asc '>' :: rest) p s) (ha : EndState s.lexState) :
    Wp (lexMinus sp s.lexState) (OpRead bs (ascs "->") rest p s .tLAMBDA .operator) s := by
  obtain ⟨hb, h2, h3, h4, h5, h6, h7⟩ := h
  obtain ⟨g1, g2, g3, g4, g5, g6, g7⟩ := ha
  unfold lexMinus
  repeat ostep
  oend

theorem op_dot (h : OpFirst bs rest p s) (ha : EndState s.lexState) (n0 : rest.head? ≠ some (asc '.')) (hd : MB.isDigit rest.head? = false) :
    Wp (lexDot sp s.lexState) (OpRead bs (ascs ".") rest p s .tDOT .name) s := by
  obtain ⟨hb, h2, h3, h4, h5, h6, h7⟩ := h
  obtain ⟨g1, g2, g3, g4, g5, g6, g7⟩ := ha
  unfold lexDot
  repeat ostep
  oend

theorem op_dot_dot (h : OpFirst bs (asc '.' :: rest) p s) (ha : EndState s.lexState) (n0 : rest.head? ≠ some (asc '.')) :
    Wp (lexDot sp s.lexState) (OpRead bs (ascs "..") rest p s .tDOT2 .operand) s := by
  obtain ⟨hb, h2, h3, h4, h5, h6, h7⟩ := h
  obtain ⟨g1, g2, g3, g4, g5, g6, g7⟩ := ha
  unfold lexDot
  repeat ostep
  oend

theorem op_dot_dot_dot (h : OpFirst bs (asc '.' :: asc '.' :: rest) p s) (ha : EndState s.lexState) (hd : s.context.get .inArgdef = false) :
    Wp (lexDot sp s.lexState) (OpRead bs (ascs "...") rest p s .tDOT3 .operand) s := by
  obtain ⟨hb, h2, h3, h4, h5, h6, h7⟩ := h
  obtain ⟨g1, g2, g3, g4, g5, g6, g7⟩ := ha
  unfold lexDot
  repeat ostep
  refine Wp.ite (fun _ => ?_) fun _ => ?_
  · repeat ostep
    oend
  · repeat ostep
    refine Wp.ite (fun _ => ?_) fun _ => ?_
    all_goals
      repeat ostep
      oend

theorem op_rparen (h : OpFirst bs rest p s) (ha : EndState s.lexState) :
    Wp (lexClose EXPR_ENDFN .tRPAREN) (OpRead bs (ascs ")") rest p s .tRPAREN .operator) s := by
  obtain ⟨hb, h2, h3, h4, h5, h6, h7⟩ := h
  obtain ⟨g1, g2, g3, g4, g5, g6, g7⟩ := ha
  unfold lexClose
  repeat ostep
  oend

theorem op_rbrack (h : OpFirst bs rest p s) (ha : EndState s.lexState) :
    Wp (lexClose EXPR_END .tRBRACK) (OpRead bs (ascs "]") rest p s .tRBRACK .operator) s := by
  obtain ⟨hb, h2, h3, h4, h5, h6, h7⟩ := h
  obtain ⟨g1, g2, g3, g4, g5, g6, g7⟩ := ha
  unfold lexClose
  repeat ostep
  oend

theorem op_lparen (h : OpFirst bs rest p s) (ha : EndState s.lexState) (hd : s.lexState.isAll (EXPR_END ||| EXPR_LABEL) = false) :
    Wp (lexLparen sp) (OpRead bs (ascs "(") rest p s .tLPAREN2 .operand) s := by
  obtain ⟨hb, h2, h3, h4, h5, h6, h7⟩ := h
  obtain ⟨g1, g2, g3, g4, g5, g6, g7⟩ := ha
  unfold lexLparen openNest isLambdaBeginning
  repeat ostep
  refine Wp.ite (fun _ => ?_) fun _ => ?_
  · repeat ostep
    oend
  · repeat ostep
    refine Wp.ite (fun _ => ?_) fun _ => ?_
    all_goals
      repeat ostep
      oend

theorem op_lbrack (h : OpFirst bs rest p s) (ha : EndState s.lexState) :
    Wp (lexLbrack sp) (OpRead bs (ascs "[") rest p s .tLBRACK2 .operand) s := by
  obtain ⟨hb, h2, h3, h4, h5, h6, h7⟩ := h
  obtain ⟨g1, g2, g3, g4, g5, g6, g7⟩ := ha
  unfold lexLbrack openNest
  repeat ostep
  oend

theorem op_colon (h : OpFirst bs rest p s) (ha : EndState s.lexState) (n0 : rest.head? ≠ some (asc ':')) :
    Wp (lexColon sp s.lexState) (OpRead bs (ascs ":") rest p s .tCOLON .operand) s := by
  obtain ⟨hb, h2, h3, h4, h5, h6, h7⟩ := h
  obtain ⟨g1, g2, g3, g4, g5, g6, g7⟩ := ha
  unfold lexColon
  repeat ostep
  oend

theorem op_colon_colon (h : OpFirst bs (asc ':' :: rest) p s) (ha : EndState s.lexState) :
    Wp (lexColon sp s.lexState) (OpRead bs (ascs "::") rest p s .tCOLON2 .name) s := by
  obtain ⟨hb, h2, h3, h4, h5, h6, h7⟩ := h
  obtain ⟨g1, g2, g3, g4, g5, g6, g7⟩ := ha
  unfold lexColon
  repeat ostep
  oend

theorem op_slash (h : OpFirst bs rest p s) (ha : EndState s.lexState) (n0 : rest.head? ≠ some (asc '=')) :
    Wp (lexSlash sp s.lexState) (OpRead bs (ascs "/") rest p s .tDIVIDE .operand) s := by
  obtain ⟨hb, h2, h3, h4, h5, h6, h7⟩ := h
  obtain ⟨g1, g2, g3, g4, g5, g6, g7⟩ := ha
  unfold lexSlash
  repeat ostep
  oend

theorem op_slash_eq (h : OpFirst bs (asc '=' :: rest) p s) (ha : EndState s.lexState) :
    Wp (lexSlash sp s.lexState) (OpRead bs (ascs "/=") rest p s .tOP_ASGN .operand) s := by
  obtain ⟨hb, h2, h3, h4, h5, h6, h7⟩ := h
  obtain ⟨g1, g2, g3, g4, g5, g6, g7⟩ := ha
  unfold lexSlash
  repeat ostep
  oend

theorem op_caret (h : OpFirst bs rest p s) (ha : EndState s.lexState) (n0 : rest.head? ≠ some (asc '=')) :
    Wp (lexCaret) (OpRead bs (ascs "^") rest p s .tCARET .operand) s := by
  obtain ⟨hb, h2, h3, h4, h5, h6, h7⟩ := h
  obtain ⟨g1, g2, g3, g4, g5, g6, g7⟩ := ha
  unfold lexCaret
  repeat ostep
  oend

theorem op_caret_eq (h : OpFirst bs (asc '=' :: rest) p s) (ha : EndState s.lexState) :
    Wp (lexCaret) (OpRead bs (ascs "^=") rest p s .tOP_ASGN .operand) s := by
  obtain ⟨hb, h2, h3, h4, h5, h6, h7⟩ := h
  obtain ⟨g1, g2, g3, g4, g5, g6, g7⟩ := ha
  unfold lexCaret
  repeat ostep
  oend

theorem op_percent (h : OpFirst bs rest p s) (ha : EndState s.lexState) (n0 : rest.head? ≠ some (asc '=')) :
    Wp (do return .tok (← parsePercent sp s.lexState)) (OpRead bs (ascs "%") rest p s .tPERCENT .operand) s := by
  obtain ⟨hb, h2, h3, h4, h5, h6, h7⟩ := h
  obtain ⟨g1, g2, g3, g4, g5, g6, g7⟩ := ha
  unfold parsePercent
  repeat ostep
  oend

theorem op_percent_eq (h : OpFirst bs (asc '=' :: rest) p s) (ha : EndState s.lexState) :
    Wp (do return .tok (← parsePercent sp s.lexState)) (OpRead bs (ascs "%=") rest p s .tOP_ASGN .operand) s := by
  obtain ⟨hb, h2, h3, h4, h5, h6, h7⟩ := h
  obtain ⟨g1, g2, g3, g4, g5, g6, g7⟩ := ha
  unfold parsePercent
  repeat ostep
  oend

theorem op_semi (h : OpFirst bs rest p s) (ha : EndState s.lexState) :
    Wp (lexSemi) (OpRead bs (ascs ";") rest p s .tSEMI .operand) s := by
  obtain ⟨hb, h2, h3, h4, h5, h6, h7⟩ := h
  obtain ⟨g1, g2, g3, g4, g5, g6, g7⟩ := ha
  unfold lexSemi
  repeat ostep
  oend

theorem op_comma (h : OpFirst bs rest p s) (ha : EndState s.lexState) :
    Wp (lexComma) (OpRead bs (ascs ",") rest p s .tCOMMA .operand) s := by
  obtain ⟨hb, h2, h3, h4, h5, h6, h7⟩ := h
  obtain ⟨g1, g2, g3, g4, g5, g6, g7⟩ := ha
  unfold lexComma
  repeat ostep
  oend

theorem op_tilde (h : OpFirst bs rest p s) (ha : EndState s.lexState) :
    Wp (lexTilde) (OpRead bs (ascs "~") rest p s .tTILDE .operand) s := by
  obtain ⟨hb, h2, h3, h4, h5, h6, h7⟩ := h
  obtain ⟨g1, g2, g3, g4, g5, g6, g7⟩ := ha
  unfold lexTilde
  repeat ostep
  oend

theorem op_qmark (h : OpFirst bs rest p s) (ha : EndState s.lexState) :
    Wp (do return .tok (← parseQmark sp)) (OpRead bs (ascs "?") rest p s .tEH .operand) s := by
  obtain ⟨hb, h2, h3, h4, h5, h6, h7⟩ := h
  obtain ⟨g1, g2, g3, g4, g5, g6, g7⟩ := ha
  unfold parseQmark
  repeat ostep
  oend

theorem pre_star_star (h : OpFirst bs (asc '*' :: rest) p s) (ha : BegState s.lexState) (n0 : rest.head? ≠ some (asc '=')) :
    Wp (lexStar sp s.lexState) (OpRead bs (ascs "**") rest p s .tDSTAR .operand) s := by
  obtain ⟨hb, h2, h3, h4, h5, h6, h7⟩ := h
  obtain ⟨g1, g2, g3, g4⟩ := ha
  unfold lexStar
  repeat ostep
  oend

theorem pre_star (h : OpFirst bs rest p s) (ha : BegState s.lexState) (n0 : rest.head? ≠ some (asc '*')) (n1 : rest.head? ≠ some (asc '=')) :
    Wp (lexStar sp s.lexState) (OpRead bs (ascs "*") rest p s .tSTAR .operand) s := by
  obtain ⟨hb, h2, h3, h4, h5, h6, h7⟩ := h
  obtain ⟨g1, g2, g3, g4⟩ := ha
  unfold lexStar
  repeat ostep
  oend

theorem pre_amp (h : OpFirst bs rest p s) (ha : BegState s.lexState) (n0 : rest.head? ≠ some (asc '&')) (n1 : rest.head? ≠ some (asc '=')) (n2 : rest.head? ≠ some (asc '.')) :
    Wp (lexAmp sp s.lexState) (OpRead bs (ascs "&") rest p s .tAMPER .operand) s := by
  obtain ⟨hb, h2, h3, h4, h5, h6, h7⟩ := h
  obtain ⟨g1, g2, g3, g4⟩ := ha
  unfold lexAmp
  repeat ostep
  oend

theorem pre_bang (h : OpFirst bs rest p s) (ha : BegState s.lexState) (n0 : rest.head? ≠ some (asc '=')) (n1 : rest.head? ≠ some (asc '~')) :
    Wp (lexBang) (OpRead bs (ascs "!") rest p s .tBANG .operand) s := by
  obtain ⟨hb, h2, h3, h4, h5, h6, h7⟩ := h
  obtain ⟨g1, g2, g3, g4⟩ := ha
  unfold lexBang
  repeat ostep
  oend

theorem pre_tilde (h : OpFirst bs rest p s) (ha : BegState s.lexState) :
    Wp (lexTilde) (OpRead bs (ascs "~") rest p s .tTILDE .operand) s := by
  obtain ⟨hb, h2, h3, h4, h5, h6, h7⟩ := h
  obtain ⟨g1, g2, g3, g4⟩ := ha
  unfold lexTilde
  repeat ostep
  oend

theorem pre_plus (h : OpFirst bs rest p s) (ha : BegState s.lexState) (n0 : rest.head? ≠ some (asc '=')) (hd : MB.isDigit rest.head? = false) :
    Wp (lexPlus sp s.lexState) (OpRead bs (ascs "+") rest p s .tUPLUS .operand) s := by
  obtain ⟨hb, h2, h3, h4, h5, h6, h7⟩ := h
  obtain ⟨g1, g2, g3, g4⟩ := ha
  unfold lexPlus
  repeat ostep
  oend

theorem pre_minus (h : OpFirst bs rest p s) (ha : BegState s.lexState) (n0 : rest.head? ≠ some (asc '=')) (n1 : rest.head? ≠ some (asc '>')) (hd : MB.isDigit rest.head? = false) :
    Wp (lexMinus sp s.lexState) (OpRead bs (ascs "-") rest p s .tUMINUS .operand) s := by
  obtain ⟨hb, h2, h3, h4, h5, h6, h7⟩ := h
  obtain ⟨g1, g2, g3, g4⟩ := ha
  unfold lexMinus
  repeat ostep
  oend

theorem pre_minus_gt (h : OpFirst bs (asc '>' :: rest) p s) (ha : BegState s.lexState) :
    Wp (lexMinus sp s.lexState) (OpRead bs (ascs "->") rest p s .tLAMBDA .operator) s := by
  obtain ⟨hb, h2, h3, h4, h5, h6, h7⟩ := h
  obtain ⟨g1, g2, g3, g4⟩ := ha
  unfold lexMinus
  repeat ostep
  oend

theorem pre_dot_dot (h : OpFirst bs (asc '.' :: rest) p s) (ha : BegState s.lexState) (n0 : rest.head? ≠ some (asc '.')) :
    Wp (lexDot sp s.lexState) (OpRead bs (ascs "..") rest p s .tBDOT2 .operand) s := by
  obtain ⟨hb, h2, h3, h4, h5, h6, h7⟩ := h
  obtain ⟨g1, g2, g3, g4⟩ := ha
  unfold lexDot
  repeat ostep
  oend

theorem pre_dot_dot_dot (h : OpFirst bs (asc '.' :: asc '.' :: rest) p s) (ha : BegState s.lexState) (hd : s.context.get .inArgdef = false) (hl : s.lparBeg + 1 ≠ s.parenNest) :
    Wp (lexDot sp s.lexState) (OpRead bs (ascs "...") rest p s .tBDOT3 .operand) s := by
  obtain ⟨hb, h2, h3, h4, h5, h6, h7⟩ := h
  obtain ⟨g1, g2, g3, g4⟩ := ha
  unfold lexDot
  repeat ostep
  refine Wp.ite (fun _ => ?_) fun _ => ?_
  · repeat ostep
    oend
  · repeat ostep
    refine Wp.ite (fun e => absurd e ?_) fun _ => ?_
    · simp [hl]
    · repeat ostep
      oend

theorem pre_colon_colon (h : OpFirst bs (asc ':' :: rest) p s) (ha : BegState s.lexState) :
    Wp (lexColon sp s.lexState) (OpRead bs (ascs "::") rest p s .tCOLON3 .operand) s := by
  obtain ⟨hb, h2, h3, h4, h5, h6, h7⟩ := h
  obtain ⟨g1, g2, g3, g4⟩ := ha
  unfold lexColon
  repeat ostep
  oend

theorem pre_lparen (h : OpFirst bs rest p s) (ha : BegState s.lexState) :
    Wp (lexLparen sp) (OpRead bs (ascs "(") rest p s .tLPAREN .operand) s := by
  obtain ⟨hb, h2, h3, h4, h5, h6, h7⟩ := h
  obtain ⟨g1, g2, g3, g4⟩ := ha
  unfold lexLparen openNest isLambdaBeginning
  repeat ostep
  oend

theorem pre_lbrack (h : OpFirst bs rest p s) (ha : BegState s.lexState) :
    Wp (lexLbrack sp) (OpRead bs (ascs "[") rest p s .tLBRACK .operand) s := by
  obtain ⟨hb, h2, h3, h4, h5, h6, h7⟩ := h
  obtain ⟨g1, g2, g3, g4⟩ := ha
  unfold lexLbrack openNest
  repeat ostep
  oend

theorem pre_rparen (h : OpFirst bs rest p s) (ha : BegState s.lexState) :
    Wp (lexClose EXPR_ENDFN .tRPAREN) (OpRead bs (ascs ")") rest p s .tRPAREN .operator) s := by
  obtain ⟨hb, h2, h3, h4, h5, h6, h7⟩ := h
  obtain ⟨g1, g2, g3, g4⟩ := ha
  unfold lexClose
  repeat ostep
  oend

theorem pre_rbrack (h : OpFirst bs rest p s) (ha : BegState s.lexState) :
    Wp (lexClose EXPR_END .tRBRACK) (OpRead bs (ascs "]") rest p s .tRBRACK .operator) s := by
  obtain ⟨hb, h2, h3, h4, h5, h6, h7⟩ := h
  obtain ⟨g1, g2, g3, g4⟩ := ha
  unfold lexClose
  repeat ostep
  oend

theorem pre_semi (h : OpFirst bs rest p s) (ha : BegState s.lexState) :
    Wp (lexSemi) (OpRead bs (ascs ";") rest p s .tSEMI .operand) s := by
  obtain ⟨hb, h2, h3, h4, h5, h6, h7⟩ := h
  obtain ⟨g1, g2, g3, g4⟩ := ha
  unfold lexSemi
  repeat ostep
  oend

theorem pre_comma (h : OpFirst bs rest p s) (ha : BegState s.lexState) :
    Wp (lexComma) (OpRead bs (ascs ",") rest p s .tCOMMA .operand) s := by
  obtain ⟨hb, h2, h3, h4, h5, h6, h7⟩ := h
  obtain ⟨g1, g2, g3, g4⟩ := ha
  unfold lexComma
  repeat ostep
  oend

theorem pre_minus_num (h : OpFirst bs rest p s) (ha : BegState s.lexState) (n0 : rest.head? ≠ some (asc '=')) (n1 : rest.head? ≠ some (asc '>')) (hd : MB.isDigit rest.head? = true) :
    Wp (lexMinus sp s.lexState) (OpRead bs (ascs "-") rest p s .tUMINUS_NUM .operand) s := by
  obtain ⟨hb, h2, h3, h4, h5, h6, h7⟩ := h
  obtain ⟨g1, g2, g3, g4⟩ := ha
  unfold lexMinus
  repeat ostep
  oend

theorem arg_star_star (h : OpFirst bs (asc '*' :: rest) p s) (ha : ArgState s.lexState) (n0 : rest.head? ≠ some (asc '=')) (hs : sp = false ∨ MB.isSpace rest.head? = true) :
    Wp (lexStar sp s.lexState) (OpRead bs (ascs "**") rest p s .tPOW .operand) s := by
  obtain ⟨hb, h2, h3, h4, h5, h6, h7⟩ := h
  obtain ⟨g1, g2, g3, g4, g5, g6, g7, g8⟩ := ha
  unfold lexStar
  rcases hs with hs | hs
  all_goals
    repeat ostep
    oend

theorem arg_star (h : OpFirst bs rest p s) (ha : ArgState s.lexState) (n0 : rest.head? ≠ some (asc '*')) (n1 : rest.head? ≠ some (asc '=')) (hs : sp = false ∨ MB.isSpace rest.head? = true) :
    Wp (lexStar sp s.lexState) (OpRead bs (ascs "*") rest p s .tSTAR2 .operand) s := by
  obtain ⟨hb, h2, h3, h4, h5, h6, h7⟩ := h
  obtain ⟨g1, g2, g3, g4, g5, g6, g7, g8⟩ := ha
  unfold lexStar
  rcases hs with hs | hs
  all_goals
    repeat ostep
    oend

theorem arg_star_star_eq (h : OpFirst bs (asc '*' :: asc '=' :: rest) p s) (ha : ArgState s.lexState) :
    Wp (lexStar sp s.lexState) (OpRead bs (ascs "**=") rest p s .tOP_ASGN .operand) s := by
  obtain ⟨hb, h2, h3, h4, h5, h6, h7⟩ := h
  obtain ⟨g1, g2, g3, g4, g5, g6, g7, g8⟩ := ha
  unfold lexStar
  repeat ostep
  oend

theorem arg_star_eq (h : OpFirst bs (asc '=' :: rest) p s) (ha : ArgState s.lexState) :
    Wp (lexStar sp s.lexState) (OpRead bs (ascs "*=") rest p s .tOP_ASGN .operand) s := by
  obtain ⟨hb, h2, h3, h4, h5, h6, h7⟩ := h
  obtain ⟨g1, g2, g3, g4, g5, g6, g7, g8⟩ := ha
  unfold lexStar
  repeat ostep
  oend

theorem arg_bang (h : OpFirst bs rest p s) (ha : ArgState s.lexState) (n0 : rest.head? ≠ some (asc '=')) (n1 : rest.head? ≠ some (asc '~')) :
    Wp (lexBang) (OpRead bs (ascs "!") rest p s .tBANG .operand) s := by
  obtain ⟨hb, h2, h3, h4, h5, h6, h7⟩ := h
  obtain ⟨g1, g2, g3, g4, g5, g6, g7, g8⟩ := ha
  unfold lexBang
  repeat ostep
  oend

theorem arg_bang_eq (h : OpFirst bs (asc '=' :: rest) p s) (ha : ArgState s.lexState) :
    Wp (lexBang) (OpRead bs (ascs "!=") rest p s .tNEQ .operand) s := by
  obtain ⟨hb, h2, h3, h4, h5, h6, h7⟩ := h
  obtain ⟨g1, g2, g3, g4, g5, g6, g7, g8⟩ := ha
  unfold lexBang
  repeat ostep
  oend

theorem arg_bang_tilde (h : OpFirst bs (asc '~' :: rest) p s) (ha : ArgState s.lexState) :
    Wp (lexBang) (OpRead bs (ascs "!~") rest p s .tNMATCH .operand) s := by
  obtain ⟨hb, h2, h3, h4, h5, h6, h7⟩ := h
  obtain ⟨g1, g2, g3, g4, g5, g6, g7, g8⟩ := ha
  unfold lexBang
  repeat ostep
  oend

theorem arg_eq (h : OpFirst bs rest p s) (ha : ArgState s.lexState) (n0 : rest.head? ≠ some (asc '=')) (n1 : rest.head? ≠ some (asc '~')) (n2 : rest.head? ≠ some (asc '>')) :
    Wp (lexEqOp) (OpRead bs (ascs "=") rest p s .tEQL .operand) s := by
  obtain ⟨hb, h2, h3, h4, h5, h6, h7⟩ := h
  obtain ⟨g1, g2, g3, g4, g5, g6, g7, g8⟩ := ha
  unfold lexEqOp
  repeat ostep
  oend

theorem arg_eq_eq (h : OpFirst bs (asc '=' :: rest) p s) (ha : ArgState s.lexState) (n0 : rest.head? ≠ some (asc '=')) :
    Wp (lexEqOp) (OpRead bs (ascs "==") rest p s .tEQ .operand) s := by
  obtain ⟨hb, h2, h3, h4, h5, h6, h7⟩ := h
  obtain ⟨g1, g2, g3, g4, g5, g6, g7, g8⟩ := ha
  unfold lexEqOp
  repeat ostep
  oend

theorem arg_eq_eq_eq (h : OpFirst bs (asc '=' :: asc '=' :: rest) p s) (ha : ArgState s.lexState) :
    Wp (lexEqOp) (OpRead bs (ascs "===") rest p s .tEQQ .operand) s := by
  obtain ⟨hb, h2, h3, h4, h5, h6, h7⟩ := h
  obtain ⟨g1, g2, g3, g4, g5, g6, g7, g8⟩ := ha
  unfold lexEqOp
  repeat ostep
  oend

theorem arg_eq_tilde (h : OpFirst bs (asc '~' :: rest) p s) (ha : ArgState s.lexState) :
    Wp (lexEqOp) (OpRead bs (ascs "=~") rest p s .tMATCH .operand) s := by
  obtain ⟨hb, h2, h3, h4, h5, h6, h7⟩ := h
  obtain ⟨g1, g2, g3, g4, g5, g6, g7, g8⟩ := ha
  unfold lexEqOp
  repeat ostep
  oend

theorem arg_eq_gt (h : OpFirst bs (asc '>' :: rest) p s) (ha : ArgState s.lexState) :
    Wp (lexEqOp) (OpRead bs (ascs "=>") rest p s .tASSOC .operand) s := by
  obtain ⟨hb, h2, h3, h4, h5, h6, h7⟩ := h
  obtain ⟨g1, g2, g3, g4, g5, g6, g7, g8⟩ := ha
  unfold lexEqOp
  repeat ostep
  oend

theorem arg_lt (h : OpFirst bs rest p s) (ha : ArgState s.lexState) (n0 : rest.head? ≠ some (asc '=')) (n1 : rest.head? ≠ some (asc '<')) :
    Wp (lexLt sp s.lexState) (OpRead bs (ascs "<") rest p s .tLT .operand) s := by
  obtain ⟨hb, h2, h3, h4, h5, h6, h7⟩ := h
  obtain ⟨g1, g2, g3, g4, g5, g6, g7, g8⟩ := ha
  unfold lexLt lexLtOp
  repeat ostep
  oend

theorem arg_lt_eq (h : OpFirst bs (asc '=' :: rest) p s) (ha : ArgState s.lexState) (n0 : rest.head? ≠ some (asc '>')) :
    Wp (lexLt sp s.lexState) (OpRead bs (ascs "<=") rest p s .tLEQ .operand) s := by
  obtain ⟨hb, h2, h3, h4, h5, h6, h7⟩ := h
  obtain ⟨g1, g2, g3, g4, g5, g6, g7, g8⟩ := ha
  unfold lexLt lexLtOp
  repeat ostep
  oend

theorem arg_lt_eq_gt (h : OpFirst bs (asc '=' :: asc '>' :: rest) p s) (ha : ArgState s.lexState) :
    Wp (lexLt sp s.lexState) (OpRead bs (ascs "<=>") rest p s .tCMP .operand) s := by
  obtain ⟨hb, h2, h3, h4, h5, h6, h7⟩ := h
  obtain ⟨g1, g2, g3, g4, g5, g6, g7, g8⟩ := ha
  unfold lexLt lexLtOp
  repeat ostep
  oend

theorem arg_lt_lt (h : OpFirst bs (asc '<' :: rest) p s) (ha : ArgState s.lexState) (n0 : rest.head? ≠ some (asc '=')) :
    Wp (lexLt false s.lexState) (OpRead bs (ascs "<<") rest p s .tLSHFT .operand) s := by
  obtain ⟨hb, h2, h3, h4, h5, h6, h7⟩ := h
  obtain ⟨g1, g2, g3, g4, g5, g6, g7, g8⟩ := ha
  unfold lexLt lexLtOp
  repeat ostep
  oend

theorem arg_lt_lt_eq (h : OpFirst bs (asc '<' :: asc '=' :: rest) p s) (ha : ArgState s.lexState) :
    Wp (lexLt false s.lexState) (OpRead bs (ascs "<<=") rest p s .tOP_ASGN .operand) s := by
  obtain ⟨hb, h2, h3, h4, h5, h6, h7⟩ := h
  obtain ⟨g1, g2, g3, g4, g5, g6, g7, g8⟩ := ha
  unfold lexLt lexLtOp
  repeat ostep
  oend

theorem arg_gt (h : OpFirst bs rest p s) (ha : ArgState s.lexState) (n0 : rest.head? ≠ some (asc '=')) (n1 : rest.head? ≠ some (asc '>')) :
    Wp (lexGt) (OpRead bs (ascs ">") rest p s .tGT .operand) s := by
  obtain ⟨hb, h2, h3, h4, h5, h6, h7⟩ := h
  obtain ⟨g1, g2, g3, g4, g5, g6, g7, g8⟩ := ha
  unfold lexGt
  repeat ostep
  oend

theorem arg_gt_eq (h : OpFirst bs (asc '=' :: rest) p s) (ha : ArgState s.lexState) :
    Wp (lexGt) (OpRead bs (ascs ">=") rest p s .tGEQ .operand) s := by
  obtain ⟨hb, h2, h3, h4, h5, h6, h7⟩ := h
  obtain ⟨g1, g2, g3, g4, g5, g6, g7, g8⟩ := ha
  unfold lexGt
  repeat ostep
  oend

theorem arg_gt_gt (h : OpFirst bs (asc '>' :: rest) p s) (ha : ArgState s.lexState) (n0 : rest.head? ≠ some (asc '=')) :
    Wp (lexGt) (OpRead bs (ascs ">>") rest p s .tRSHFT .operand) s := by
  obtain ⟨hb, h2, h3, h4, h5, h6, h7⟩ := h
  obtain ⟨g1, g2, g3, g4, g5, g6, g7, g8⟩ := ha
  unfold lexGt
  repeat ostep
  oend

theorem arg_gt_gt_eq (h : OpFirst bs (asc '>' :: asc '=' :: rest) p s) (ha : ArgState s.lexState) :
    Wp (lexGt) (OpRead bs (ascs ">>=") rest p s .tOP_ASGN .operand) s := by
  obtain ⟨hb, h2, h3, h4, h5, h6, h7⟩ := h
  obtain ⟨g1, g2, g3, g4, g5, g6, g7, g8⟩ := ha
  unfold lexGt
  repeat ostep
  oend

theorem arg_amp (h : OpFirst bs rest p s) (ha : ArgState s.lexState) (n0 : rest.head? ≠ some (asc '&')) (n1 : rest.head? ≠ some (asc '=')) (n2 : rest.head? ≠ some (asc '.')) (hs : sp = false ∨ MB.isSpace rest.head? = true) :
    Wp (lexAmp sp s.lexState) (OpRead bs (ascs "&") rest p s .tAMPER2 .operand) s := by
  obtain ⟨hb, h2, h3, h4, h5, h6, h7⟩ := h
  obtain ⟨g1, g2, g3, g4, g5, g6, g7, g8⟩ := ha
  unfold lexAmp
  rcases hs with hs | hs
  all_goals
    repeat ostep
    oend

theorem arg_amp_amp (h : OpFirst bs (asc '&' :: rest) p s) (ha : ArgState s.lexState) (n0 : rest.head? ≠ some (asc '=')) :
    Wp (lexAmp sp s.lexState) (OpRead bs (ascs "&&") rest p s .tANDOP .operand) s := by
  obtain ⟨hb, h2, h3, h4, h5, h6, h7⟩ := h
  obtain ⟨g1, g2, g3, g4, g5, g6, g7, g8⟩ := ha
  unfold lexAmp
  repeat ostep
  oend

theorem arg_amp_amp_eq (h : OpFirst bs (asc '&' :: asc '=' :: rest) p s) (ha : ArgState s.lexState) :
    Wp (lexAmp sp s.lexState) (OpRead bs (ascs "&&=") rest p s .tOP_ASGN .operand) s := by
  obtain ⟨hb, h2, h3, h4, h5, h6, h7⟩ := h
  obtain ⟨g1, g2, g3, g4, g5, g6, g7, g8⟩ := ha
  unfold lexAmp
  repeat ostep
  oend

theorem arg_amp_eq (h : OpFirst bs (asc '=' :: rest) p s) (ha : ArgState s.lexState) :
    Wp (lexAmp sp s.lexState) (OpRead bs (ascs "&=") rest p s .tOP_ASGN .operand) s := by
  obtain ⟨hb, h2, h3, h4, h5, h6, h7⟩ := h
  obtain ⟨g1, g2, g3, g4, g5, g6, g7, g8⟩ := ha
  unfold lexAmp
  repeat ostep
  oend

theorem arg_amp_dot (h : OpFirst bs (asc '.' :: rest) p s) (ha : ArgState s.lexState) :
    Wp (lexAmp sp s.lexState) (OpRead bs (ascs "&.") rest p s .tANDDOT .name) s := by
  obtain ⟨hb, h2, h3, h4, h5, h6, h7⟩ := h
  obtain ⟨g1, g2, g3, g4, g5, g6, g7, g8⟩ := ha
  unfold lexAmp
  repeat ostep
  oend

theorem arg_pipe (h : OpFirst bs rest p s) (ha : ArgState s.lexState) (n0 : rest.head? ≠ some (asc '|')) (n1 : rest.head? ≠ some (asc '=')) :
    Wp (lexPipe s.lexState) (OpRead bs (ascs "|") rest p s .tPIPE .operand) s := by
  obtain ⟨hb, h2, h3, h4, h5, h6, h7⟩ := h
  obtain ⟨g1, g2, g3, g4, g5, g6, g7, g8⟩ := ha
  unfold lexPipe
  repeat ostep
  oend

theorem arg_pipe_pipe (h : OpFirst bs (asc '|' :: rest) p s) (ha : ArgState s.lexState) (n0 : rest.head? ≠ some (asc '=')) :
    Wp (lexPipe s.lexState) (OpRead bs (ascs "||") rest p s .tOROP .operand) s := by
  obtain ⟨hb, h2, h3, h4, h5, h6, h7⟩ := h
  obtain ⟨g1, g2, g3, g4, g5, g6, g7, g8⟩ := ha
  unfold lexPipe
  repeat ostep
  oend

theorem arg_pipe_pipe_eq (h : OpFirst bs (asc '|' :: asc '=' :: rest) p s) (ha : ArgState s.lexState) :
    Wp (lexPipe s.lexState) (OpRead bs (ascs "||=") rest p s .tOP_ASGN .operand) s := by
  obtain ⟨hb, h2, h3, h4, h5, h6, h7⟩ := h
  obtain ⟨g1, g2, g3, g4, g5, g6, g7, g8⟩ := ha
  unfold lexPipe
  repeat ostep
  oend

theorem arg_pipe_eq (h : OpFirst bs (asc '=' :: rest) p s) (ha : ArgState s.lexState) :
    Wp (lexPipe s.lexState) (OpRead bs (ascs "|=") rest p s .tOP_ASGN .operand) s := by
  obtain ⟨hb, h2, h3, h4, h5, h6, h7⟩ := h
  obtain ⟨g1, g2, g3, g4, g5, g6, g7, g8⟩ := ha
  unfold lexPipe
  repeat ostep
  oend

theorem arg_plus (h : OpFirst bs rest p s) (ha : ArgState s.lexState) (n0 : rest.head? ≠ some (asc '=')) (hs : sp = false ∨ MB.isSpace rest.head? = true) :
    Wp (lexPlus sp s.lexState) (OpRead bs (ascs "+") rest p s .tPLUS .operand) s := by
  obtain ⟨hb, h2, h3, h4, h5, h6, h7⟩ := h
  obtain ⟨g1, g2, g3, g4, g5, g6, g7, g8⟩ := ha
  unfold lexPlus
  rcases hs with hs | hs
  all_goals
    repeat ostep
    oend

theorem arg_plus_eq (h : OpFirst bs (asc '=' :: rest) p s) (ha : ArgState s.lexState) :
    Wp (lexPlus sp s.lexState) (OpRead bs (ascs "+=") rest p s .tOP_ASGN .operand) s := by
  obtain ⟨hb, h2, h3, h4, h5, h6, h7⟩ := h
  obtain ⟨g1, g2, g3, g4, g5, g6, g7, g8⟩ := ha
  unfold lexPlus
  repeat ostep
  oend

theorem arg_minus (h : OpFirst bs rest p s) (ha : ArgState s.lexState) (n0 : rest.head? ≠ some (asc '=')) (n1 : rest.head? ≠ some (asc '>')) (hs : sp = false ∨ MB.isSpace rest.head? = true) :
    Wp (lexMinus sp s.lexState) (OpRead bs (ascs "-") rest p s .tMINUS .operand) s := by
  obtain ⟨hb, h2, h3, h4, h5, h6, h7⟩ := h
  obtain ⟨g1, g2, g3, g4, g5, g6, g7, g8⟩ := ha
  unfold lexMinus
  rcases hs with hs | hs
  all_goals
    repeat ostep
    oend

theorem arg_minus_eq (h : OpFirst bs (asc '=' :: rest) p s) (ha : ArgState s.lexState) :
    Wp (lexMinus sp s.lexState) (OpRead bs (ascs "-=") rest p s .tOP_ASGN .operand) s := by
  obtain ⟨hb, h2, h3, h4, h5, h6, h7⟩ := h
  obtain ⟨g1, g2, g3, g4, g5, g6, g7, g8⟩ := ha
  unfold lexMinus
  repeat ostep
  oend

theorem arg_minus_gt (h : OpFirst bs (asc '>' :: rest) p s) (ha : ArgState s.lexState) :
    Wp (lexMinus sp s.lexState) (OpRead bs (ascs "->") rest p s .tLAMBDA .operator) s := by
  obtain ⟨hb, h2, h3, h4, h5, h6, h7⟩ := h
  obtain ⟨g1, g2, g3, g4, g5, g6, g7, g8⟩ := ha
  unfold lexMinus
  repeat ostep
  oend

theorem arg_dot (h : OpFirst bs rest p s) (ha : ArgState s.lexState) (n0 : rest.head? ≠ some (asc '.')) (hd : MB.isDigit rest.head? = false) :
    Wp (lexDot sp s.lexState) (OpRead bs (ascs ".") rest p s .tDOT .name) s := by
  obtain ⟨hb, h2, h3, h4, h5, h6, h7⟩ := h
  obtain ⟨g1, g2, g3, g4, g5, g6, g7, g8⟩ := ha
  unfold lexDot
  repeat ostep
  oend

theorem arg_dot_dot (h : OpFirst bs (asc '.' :: rest) p s) (ha : ArgState s.lexState) (n0 : rest.head? ≠ some (asc '.')) :
    Wp (lexDot sp s.lexState) (OpRead bs (ascs "..") rest p s .tDOT2 .operand) s := by
  obtain ⟨hb, h2, h3, h4, h5, h6, h7⟩ := h
  obtain ⟨g1, g2, g3, g4, g5, g6, g7, g8⟩ := ha
  unfold lexDot
  repeat ostep
  oend

theorem arg_dot_dot_dot (h : OpFirst bs (asc '.' :: asc '.' :: rest) p s) (ha : ArgState s.lexState) (hd : s.context.get .inArgdef = false) :
    Wp (lexDot sp s.lexState) (OpRead bs (ascs "...") rest p s .tDOT3 .operand) s := by
  obtain ⟨hb, h2, h3, h4, h5, h6, h7⟩ := h
  obtain ⟨g1, g2, g3, g4, g5, g6, g7, g8⟩ := ha
  unfold lexDot
  repeat ostep
  refine Wp.ite (fun _ => ?_) fun _ => ?_
  · repeat ostep
    oend
  · repeat ostep
    refine Wp.ite (fun _ => ?_) fun _ => ?_
    all_goals
      repeat ostep
      oend

theorem arg_rparen (h : OpFirst bs rest p s) (ha : ArgState s.lexState) :
    Wp (lexClose EXPR_ENDFN .tRPAREN) (OpRead bs (ascs ")") rest p s .tRPAREN .operator) s := by
  obtain ⟨hb, h2, h3, h4, h5, h6, h7⟩ := h
  obtain ⟨g1, g2, g3, g4, g5, g6, g7, g8⟩ := ha
  unfold lexClose
  repeat ostep
  oend

theorem arg_rbrack (h : OpFirst bs rest p s) (ha : ArgState s.lexState) :
    Wp (lexClose EXPR_END .tRBRACK) (OpRead bs (ascs "]") rest p s .tRBRACK .operator) s := by
  obtain ⟨hb, h2, h3, h4, h5, h6, h7⟩ := h
  obtain ⟨g1, g2, g3, g4, g5, g6, g7, g8⟩ := ha
  unfold lexClose
  repeat ostep
  oend

theorem arg_lparen (h : OpFirst bs rest p s) (ha : ArgState s.lexState) :
    Wp (lexLparen false) (OpRead bs (ascs "(") rest p s .tLPAREN2 .operand) s := by
  obtain ⟨hb, h2, h3, h4, h5, h6, h7⟩ := h
  obtain ⟨g1, g2, g3, g4, g5, g6, g7, g8⟩ := ha
  unfold lexLparen openNest isLambdaBeginning
  repeat ostep
  oend

theorem arg_lbrack (h : OpFirst bs rest p s) (ha : ArgState s.lexState) :
    Wp (lexLbrack false) (OpRead bs (ascs "[") rest p s .tLBRACK2 .operand) s := by
  obtain ⟨hb, h2, h3, h4, h5, h6, h7⟩ := h
  obtain ⟨g1, g2, g3, g4, g5, g6, g7, g8⟩ := ha
  unfold lexLbrack openNest
  repeat ostep
  oend

theorem arg_colon (h : OpFirst bs rest p s) (ha : ArgState s.lexState) (n0 : rest.head? ≠ some (asc ':')) (hs : MB.isSpace rest.head? = true ∨ rest.head? = some (asc '#')) :
    Wp (lexColon sp s.lexState) (OpRead bs (ascs ":") rest p s .tCOLON .operand) s := by
  obtain ⟨hb, h2, h3, h4, h5, h6, h7⟩ := h
  obtain ⟨g1, g2, g3, g4, g5, g6, g7, g8⟩ := ha
  unfold lexColon
  rcases hs with hs | hs
  all_goals
    repeat ostep
    oend

theorem arg_colon_colon (h : OpFirst bs (asc ':' :: rest) p s) (ha : ArgState s.lexState) :
    Wp (lexColon false s.lexState) (OpRead bs (ascs "::") rest p s .tCOLON2 .name) s := by
  obtain ⟨hb, h2, h3, h4, h5, h6, h7⟩ := h
  obtain ⟨g1, g2, g3, g4, g5, g6, g7, g8⟩ := ha
  unfold lexColon
  repeat ostep
  oend

theorem arg_slash (h : OpFirst bs rest p s) (ha : ArgState s.lexState) (n0 : rest.head? ≠ some (asc '=')) (hs : sp = false ∨ MB.isSpace rest.head? = true) :
    Wp (lexSlash sp s.lexState) (OpRead bs (ascs "/") rest p s .tDIVIDE .operand) s := by
  obtain ⟨hb, h2, h3, h4, h5, h6, h7⟩ := h
  obtain ⟨g1, g2, g3, g4, g5, g6, g7, g8⟩ := ha
  unfold lexSlash
  rcases hs with hs | hs
  all_goals
    repeat ostep
    oend

theorem arg_slash_eq (h : OpFirst bs (asc '=' :: rest) p s) (ha : ArgState s.lexState) :
    Wp (lexSlash sp s.lexState) (OpRead bs (ascs "/=") rest p s .tOP_ASGN .operand) s := by
  obtain ⟨hb, h2, h3, h4, h5, h6, h7⟩ := h
  obtain ⟨g1, g2, g3, g4, g5, g6, g7, g8⟩ := ha
  unfold lexSlash
  repeat ostep
  oend

theorem arg_caret (h : OpFirst bs rest p s) (ha : ArgState s.lexState) (n0 : rest.head? ≠ some (asc '=')) :
    Wp (lexCaret) (OpRead bs (ascs "^") rest p s .tCARET .operand) s := by
  obtain ⟨hb, h2, h3, h4, h5, h6, h7⟩ := h
  obtain ⟨g1, g2, g3, g4, g5, g6, g7, g8⟩ := ha
  unfold lexCaret
  repeat ostep
  oend

theorem arg_caret_eq (h : OpFirst bs (asc '=' :: rest) p s) (ha : ArgState s.lexState) :
    Wp (lexCaret) (OpRead bs (ascs "^=") rest p s .tOP_ASGN .operand) s := by
  obtain ⟨hb, h2, h3, h4, h5, h6, h7⟩ := h
  obtain ⟨g1, g2, g3, g4, g5, g6, g7, g8⟩ := ha
  unfold lexCaret
  repeat ostep
  oend

theorem arg_percent (h : OpFirst bs rest p s) (ha : ArgState s.lexState) (n0 : rest.head? ≠ some (asc '=')) (hs : sp = false ∨ MB.isSpace rest.head? = true) :
    Wp (do return .tok (← parsePercent sp s.lexState)) (OpRead bs (ascs "%") rest p s .tPERCENT .operand) s := by
  obtain ⟨hb, h2, h3, h4, h5, h6, h7⟩ := h
  obtain ⟨g1, g2, g3, g4, g5, g6, g7, g8⟩ := ha
  unfold parsePercent
  rcases hs with hs | hs
  all_goals
    repeat ostep
    oend

theorem arg_percent_eq (h : OpFirst bs (asc '=' :: rest) p s) (ha : ArgState s.lexState) :
    Wp (do return .tok (← parsePercent sp s.lexState)) (OpRead bs (ascs "%=") rest p s .tOP_ASGN .operand) s := by
  obtain ⟨hb, h2, h3, h4, h5, h6, h7⟩ := h
  obtain ⟨g1, g2, g3, g4, g5, g6, g7, g8⟩ := ha
  unfold parsePercent
  repeat ostep
  oend

theorem arg_semi (h : OpFirst bs rest p s) (ha : ArgState s.lexState) :
    Wp (lexSemi) (OpRead bs (ascs ";") rest p s .tSEMI .operand) s := by
  obtain ⟨hb, h2, h3, h4, h5, h6, h7⟩ := h
  obtain ⟨g1, g2, g3, g4, g5, g6, g7, g8⟩ := ha
  unfold lexSemi
  repeat ostep
  oend

theorem arg_comma (h : OpFirst bs rest p s) (ha : ArgState s.lexState) :
    Wp (lexComma) (OpRead bs (ascs ",") rest p s .tCOMMA .operand) s := by
  obtain ⟨hb, h2, h3, h4, h5, h6, h7⟩ := h
  obtain ⟨g1, g2, g3, g4, g5, g6, g7, g8⟩ := ha
  unfold lexComma
  repeat ostep
  oend

theorem arg_tilde (h : OpFirst bs rest p s) (ha : ArgState s.lexState) :
    Wp (lexTilde) (OpRead bs (ascs "~") rest p s .tTILDE .operand) s := by
  obtain ⟨hb, h2, h3, h4, h5, h6, h7⟩ := h
  obtain ⟨g1, g2, g3, g4, g5, g6, g7, g8⟩ := ha
  unfold lexTilde
  repeat ostep
  oend

end

end Verif.Lexer
