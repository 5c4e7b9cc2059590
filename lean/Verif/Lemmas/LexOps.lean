import Verif.Lemmas.LexRet
/-! The operators and other tokens of `parser_yylex` that are read within a line. -/
namespace Verif.Lexer
variable {a b s : Lexer}

/-- A finished token other than a newline; it may have started a string literal. -/
def OpPost (s : Lexer) (r : Next) (s' : Lexer) : Prop :=
  ∃ t, r = .tok t ∧ t ≠ .tNL ∧ SPost s t s' ∧ s'.comments = s.comments ∧ s'.magicComments = s.magicComments

theorem OpPost.loc {t : Tok} {s' : Lexer} (h : Loc s s') (hg : Good s'.buffer) (ht : t ≠ .tNL) : OpPost s (.tok t) s' :=
  ⟨t, rfl, ht, .of_loc h hg, h.2.2.2.2.1, h.2.2.2.2.2⟩

theorem OpPost.str {t : Tok} {s1 s2 s3 : Lexer} {l : StringLiteral} (h : Loc s s1) (hg : Good s1.buffer) (hb : s2.buffer = s1.buffer)
    (h1 : s2.lvalStart = s1.lvalStart) (h2 : s2.lvalEnd = s1.lvalEnd) (h3 : s2.strterm = some (.string l))
    (hc : s2.comments = s1.comments) (hm : s2.magicComments = s1.magicComments)
    (hl : l.heredocEnd = none) (hs : Same s2 s3) (ht : t ≠ .tNL) : OpPost s (.tok t) s3 :=
  ⟨t, rfl, ht, .str h hg hb h1 h2 h3 hl hs, hs.2.2.2.2.1.trans (hc.trans h.2.2.2.2.1), hs.2.2.2.2.2.trans (hm.trans h.2.2.2.2.2)⟩

theorem _root_.Verif.Mid.pos {b : Buffer} (h : Mid b) : 0 < b.pcur := by have := h.lt; omega

/-- A string literal was opened. -/
structure Opened (s s' : Lexer) : Prop where
  buf : s'.buffer = s.buffer
  ls : s'.lvalStart = s.lvalStart
  le : s'.lvalEnd = s.lvalEnd
  com : s'.comments = s.comments
  mag : s'.magicComments = s.magicComments
  st : ∃ l, s'.strterm = some (.string l) ∧ l.heredocEnd = none

theorem Wp.open {Q : Unit → Lexer → Prop} {f t p} (hq : ∀ s', Opened s s' → Q () s') : Wp (Lexer.newStrterm f t p none) Q s :=
  Wp.modS (hq _ ⟨rfl, rfl, rfl, rfl, rfl, _, rfl, rfl⟩)

theorem OpPost.opened {t : Tok} {s1 s2 s3 : Lexer} (ho : Opened s1 s2) (h : Loc s s1) (hg : Good s1.buffer) (hs : Same s2 s3)
    (ht : t ≠ .tNL) : OpPost s (.tok t) s3 := by
  obtain ⟨l, h1, h2⟩ := ho.st
  exact .str h hg ho.buf ho.ls ho.le h1 ho.com ho.mag h2 hs ht

theorem Wp.warnBalanced {Q : Tok → Lexer → Prop} {t o y c sp l} (hq : ∀ s', Same s s' → Q t s') :
    Wp (Lexer.warnBalanced t o y c sp l) Q s := by
  unfold Lexer.warnBalanced
  wstep
  · wstep; wstep; wstep; wstep; wstep
    exact hq _ (by same_tac)
  · wstep; exact hq _ (.refl _)

theorem Pu.opAsgn' (op) : Pu (do Lexer.setLval (ascs op); Lexer.setState EXPR_BEG) :=
  Pu.bind (Pu.setLval _) fun _ => Pu.setState _

theorem Wp.opAsgn {Q : Next → Lexer → Prop} {op} (hq : ∀ s', Same s s' → Q (.tok .tOP_ASGN) s') : Wp (Lexer.opAsgn op) Q s := by
  unfold Lexer.opAsgn
  wsteps
  exact ⟨_, _, rfl, hq _ (by same_tac)⟩

theorem Wp.done {Q : Next → Lexer → Prop} {t} (hq : Q (.tok t) s) : Wp (Lexer.done t) Q s := ⟨_, _, rfl, hq⟩

/-- Close `Small`. -/
syntax "small_tac" : tactic
macro_rules | `(tactic| small_tac) => `(tactic| first
  | assumption
  | (refine Small.loc ?_ (by loc_tac : Loc s _); small_tac)
  | fail "Small")

/-- Close `0 < pcur`. -/
macro "pos_tac" : tactic => `(tactic| exact Mid.pos (by mid_tac))

/-- Close `t ≠ tNL`. -/
macro "tnl_tac" : tactic => `(tactic| first
  | decide
  | assumption
  | (repeat' split) <;> decide)

/-- One step through an operator. -/
macro "ostep" : tactic => `(tactic| first
  | ((with_reducible refine Wp.warnBalanced ?_); intro _ _)
  | ((with_reducible refine Wp.opAsgn ?_); intro _ _)
  | with_reducible refine Wp.done ?_
  | wstep
  | ((with_reducible refine Wp.pu (Pu.modS ?_) ?_); (· intro _; first | exact ⟨rfl, rfl, rfl, rfl, rfl, rfl⟩ | (split <;> exact ⟨rfl, rfl, rfl, rfl, rfl, rfl⟩)); intro _ _ _)
  | ((with_reducible refine Wp.currentLocShort ?_ ?_ ?_ ?_); (· good_tac); (· small_tac); (· pos_tac); intro _)
  | ((with_reducible refine Wp.open ?_); intro _ _)
  | ((with_reducible refine OpPost.loc ?_ ?_ ?_); (· loc_tac); (· good_tac); (· tnl_tac))
  | ((with_reducible refine OpPost.opened (by assumption) ?_ ?_ ?_ ?_); (· loc_tac); (· good_tac); (· same_tac); (· tnl_tac)))

theorem lexStar_wp {sp l} (hm : Mid s.buffer) : Wp (lexStar sp l) (OpPost s) s := by
  unfold lexStar
  repeat' ostep

theorem lexBang_wp (hm : Mid s.buffer) : Wp lexBang (OpPost s) s := by
  unfold lexBang
  repeat' ostep

theorem lexEqOp_wp (hm : Mid s.buffer) : Wp lexEqOp (OpPost s) s := by
  unfold lexEqOp
  repeat' ostep

theorem lexGt_wp (hm : Mid s.buffer) : Wp lexGt (OpPost s) s := by
  unfold lexGt
  repeat' ostep

theorem lexAmp_wp {sp l} (hm : Mid s.buffer) : Wp (lexAmp sp l) (OpPost s) s := by
  unfold lexAmp
  repeat' ostep

theorem lexCaret_wp (hm : Mid s.buffer) : Wp lexCaret (OpPost s) s := by
  unfold lexCaret
  repeat' ostep

theorem lexSemi_wp (hm : Mid s.buffer) : Wp lexSemi (OpPost s) s := by
  unfold lexSemi
  repeat' ostep

theorem lexComma_wp (hm : Mid s.buffer) : Wp lexComma (OpPost s) s := by
  unfold lexComma
  repeat' ostep

theorem lexTilde_wp (hm : Mid s.buffer) : Wp lexTilde (OpPost s) s := by
  unfold lexTilde
  repeat' ostep

theorem lexClose_wp {st t} (hm : Mid s.buffer) (ht : t ≠ .tNL) : Wp (lexClose st t) (OpPost s) s := by
  unfold lexClose
  repeat' ostep

theorem lexRcurly_wp (hm : Mid s.buffer) : Wp lexRcurly (OpPost s) s := by
  unfold lexRcurly lexClose
  repeat' ostep

theorem lexLparen_wp {sp} (hm : Mid s.buffer) : Wp (lexLparen sp) (OpPost s) s := by
  unfold lexLparen openNest
  repeat' ostep

theorem lexLbrack_wp {sp} (hm : Mid s.buffer) : Wp (lexLbrack sp) (OpPost s) s := by
  unfold lexLbrack openNest
  repeat' ostep

theorem lexLcurly_wp (hm : Mid s.buffer) : Wp lexLcurly (OpPost s) s := by
  unfold lexLcurly openNest
  repeat' ostep

theorem lexLtOp_wp {c sp l p} (hr : Rd p c s) : Wp (lexLtOp c sp l) (OpPost p) s := by
  unfold lexLtOp
  repeat' ostep

theorem lexQuote_wp {f q cmd} (hm : Mid s.buffer) : Wp (lexQuote f q cmd) (OpPost s) s := by
  unfold lexQuote
  wstep; wstep
  rename_i st s1 h1
  refine Wp.bind ?_
  refine Wp.open ?_
  intro s2 ho
  have hp : 0 < s2.buffer.pcur := by rw [ho.buf]; exact (h1.mid hm).pos
  refine Wp.bind (Wp.pcurSub (by omega) ?_)
  refine Wp.bind (Wp.setPtok (by omega) (by omega) ?_)
  intro s3 h3 h4 h5
  obtain ⟨l, h6, h7⟩ := ho.st
  refine Wp.done ⟨_, rfl, by decide, .inr ⟨?_, ?_, ?_, ?_, .inr ⟨l, h3.2.1.trans h6, h7⟩⟩, ?_, ?_⟩
  · have := h3.1
    rw [ho.buf, h1.1] at this
    exact this
  · exact h4.good (by rw [ho.buf]; exact h1.good hm.toGood)
  · exact h3.2.2.1.trans (ho.ls.trans h1.2.2.1)
  · exact h3.2.2.2.1.trans (ho.le.trans h1.2.2.2.1)
  · exact h3.2.2.2.2.1.trans (ho.com.trans h1.2.2.2.2.1)
  · exact h3.2.2.2.2.2.trans (ho.mag.trans h1.2.2.2.2.2)

theorem lexBacktick_wp {cmd} (hm : Mid s.buffer) : Wp (lexBacktick cmd) (OpPost s) s := by
  unfold lexBacktick
  repeat' ostep

theorem lexColon_wp {sp l} (hm : Mid s.buffer) : Wp (lexColon sp l) (OpPost s) s := by
  unfold lexColon
  repeat' ostep

theorem lexSlash_wp {sp l} (hm : Mid s.buffer) : Wp (lexSlash sp l) (OpPost s) s := by
  unfold lexSlash
  repeat' ostep

theorem lexPipe_wp {l} (hm : Mid s.buffer) : Wp (lexPipe l) (OpPost s) s := by
  unfold lexPipe
  repeat' ostep
  rename_i c1 s1 h1 hc1 _ s2 h2 c2 s3 h3 hc2 s4 h4 h5 h6 h7 h8 h9 _
  refine Wp.pushback_again h1 h2 h3 h4 h6 h7 (x := some 0) ?_ ?_
  · cases c1 with
    | none => simp [isC] at hc1
    | some _ => rfl
  · intro s5 h10 h11 h12 h13
    repeat' ostep

theorem Wp.unaryHere {Q : Bool → Lexer → Prop} {op c sp} (hg : Good s.buffer) (hz : Small s.buffer) (hp : 0 < s.buffer.pcur)
    (hq : ∀ r s', Same s s' → Q r s') : Wp (Lexer.unaryHere op c sp) Q s := by
  unfold Lexer.unaryHere
  wstep; wstep
  rename_i h1
  refine Wp.ite (fun _ => ?_) (fun _ => ?_)
  · exact Wp.pure (hq _ _ h1)
  · wstep; wstep
    rename_i h2
    have h3 := h1.trans h2
    refine Wp.ite (fun _ => ?_) (fun _ => ?_)
    · refine Wp.bind (Wp.currentLocShort (by rw [h3.1]; exact hg) (by rw [h3.1]; exact hz) (by rw [h3.1]; exact hp) ?_)
      intro l
      wstep; wstep; wstep
      exact hq _ _ (by same_tac)
    · exact Wp.pure (hq _ _ h3)

/-- A number. -/
theorem NPost.op {p s' : Lexer} {t : Tok} (h : Loc s p) (hn : NPost p t s') (ht : TN t) : OpPost s (.tok t) s' :=
  .loc (h.trans hn.1) hn.2 ht

theorem lexPlus_wp {sp l} (hm : Mid s.buffer) (hz : Small s.buffer) : Wp (lexPlus sp l) (OpPost s) s := by
  unfold lexPlus
  wstep
  wstep
  rename_i c s1 h1
  wstep
  wstep
  rename_i st s2 h2
  have hz2 : Small s2.buffer := hz.loc (by loc_tac)
  have hp2 : 0 < s2.buffer.pcur := by rw [h2.1]; exact h1.pos
  repeat' first | ostep | ((with_reducible refine Wp.unaryHere ?_ (by assumption) (by assumption) ?_); (· good_tac); intro _ _ _)
  refine ((parseNumeric_wp (by assumption) (.inr (.inr rfl))).ret Ret.parseNumeric).mono ?_
  rintro t s' ⟨h, h'⟩
  exact Wp.pure (NPost.op (by loc_tac) h h')

theorem lexMinus_wp {sp l} (hm : Mid s.buffer) (hz : Small s.buffer) : Wp (lexMinus sp l) (OpPost s) s := by
  unfold lexMinus
  wstep
  wstep
  rename_i c s1 h1
  wstep
  wstep
  rename_i st s2 h2
  have hz2 : Small s2.buffer := hz.loc (by loc_tac)
  have hp2 : 0 < s2.buffer.pcur := by rw [h2.1]; exact h1.pos
  repeat' first | ostep | ((with_reducible refine Wp.unaryHere ?_ (by assumption) (by assumption) ?_); (· good_tac); intro _ _ _)

theorem lexDot3_wp {i l} (hg : Good s.buffer) : Wp (lexDot3 i l) (OpPost s) s := by
  unfold lexDot3
  repeat' ostep

end Verif.Lexer
