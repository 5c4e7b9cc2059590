import Verif.Lemmas.LexStep
/-! The tactics that walk through a lexer function. -/
namespace Verif.Lexer

/-- Close a goal `c ≠ some 10` or `c ≠ none` from what the branches taken say about `c`. -/
macro "char_tac" : tactic => `(tactic| first
  | assumption
  | (intro hchar; subst hchar; contradiction)
  | (intro hchar; simp_all (config := { decide := true }) only []; done)
  | (intro hchar; cases hchar; done)
  | fail "char")

/-- Close `Mid`. -/
syntax "mid_tac" : tactic
macro_rules | `(tactic| mid_tac) => `(tactic| first
  | assumption
  | (refine Rd.mid (by assumption) ?_; char_tac)
  | (refine Same.mid (by assumption) ?_; mid_tac)
  | (refine BSame.mid (by assumption) ?_; mid_tac)
  | fail "Mid")

/-- Close `Good`. -/
syntax "good_tac" : tactic
macro_rules | `(tactic| good_tac) => `(tactic| first
  | assumption
  | exact Rd.good (by assumption)
  | exact Mid.toGood (by assumption)
  | (refine Same.good (by assumption) ?_; good_tac)
  | (refine BSame.good (by assumption) ?_; good_tac)
  | (refine Mid.toGood ?_; mid_tac)
  | fail "Good")

/-- Close `Loc`. -/
syntax "loc_tac" : tactic
macro_rules | `(tactic| loc_tac) => `(tactic| first
  | exact Loc.refl _
  | assumption
  | (refine Loc.trans ?_ (Rd.loc (by assumption)); loc_tac)
  | (refine Loc.trans ?_ (Same.loc (by assumption)); loc_tac)
  | (refine Loc.trans ?_ (by assumption); loc_tac)
  | fail "Loc")

/-- Close `Same`. -/
syntax "same_tac" : tactic
macro_rules | `(tactic| same_tac) => `(tactic| first
  | exact Same.refl _
  | assumption
  | (refine Same.trans ?_ (by assumption); same_tac)
  | fail "Same")

/-- `pushback` after steps that only changed unobserved fields. -/
theorem Wp.pushback_same {Q : Unit → Lexer → Prop} {s0 s1 s2 : Lexer} {c : MB} (h : Rd s0 c s1) (h2 : Same s1 s2)
    (hq : ∀ s3, Loc s0 s3 → Mid s3.buffer → s3.buffer.pcur = s0.buffer.pcur → s3.buffer.ptok = s0.buffer.ptok →
      s3.buffer.eofp = s1.buffer.eofp → s3.tokenbuf = s2.tokenbuf → Q () s3) : Wp (Lexer.pushback c) Q s2 := by
  refine Wp.pushback h (by rw [h2.1]; exact .refl _) (by rw [h2.1]) (by rw [h2.1]) (by rw [h2.1]; exact id) h2.2 ?_
  intro s3 h1 h3 h4 h5 h6 h7
  exact hq s3 h1 h3 h4 h5 (by rw [h7, h2.1]) (by rw [h6])

/-- Pushing back a character after a later one was read and pushed back. -/
theorem Wp.pushback_again {Q : Unit → Lexer → Prop} {p s s1 s2 s3 : Lexer} {c c1 x : MB} (h : Rd p c s) (hs : Same s s1)
    (h1 : Rd s1 c1 s2) (h3 : Loc s1 s3) (hp : s3.buffer.pcur = s1.buffer.pcur) (ht : s3.buffer.ptok = s1.buffer.ptok)
    (hx : x.isSome = c.isSome)
    (hq : ∀ s4, Loc p s4 → Mid s4.buffer → s4.buffer.pcur = p.buffer.pcur → s4.buffer.ptok = p.buffer.ptok → Q () s4) :
    Wp (Lexer.pushback x) Q s3 := by
  have hpb : ∀ x y : MB, x.isSome = y.isSome → Lexer.pushback x = Lexer.pushback y := by
    intro x y hxy; cases x <;> cases y <;> first | rfl | simp at hxy
  rw [hpb x c hx]
  have hh := h3.1.same
  have := hs.1
  refine Wp.pushback h (s2 := s3) (by rw [← this]; exact hh) (by rw [hp, this]) (by rw [ht, this])
    (by rw [← this]; exact h3.1.eof) (hs.2.trans h3.2) ?_
  intro s4 h5 h6 h7 h8 _ _
  exact hq s4 h5 h6 h7 h8

theorem fuel_ok {b b' : Buffer} (hg : Good b') (e : b'.input = b.input) : b'.R + 64 ≤ 64 * (b.d.bytes.length + 1) := by
  have := hg.R_le
  simp only [Buffer.d, e] at this ⊢
  exact this

/-- A token found within the line, or the end of input. -/
def LPost (b : Lexer) (t : Tok) (s' : Lexer) : Prop := t = .END_OF_INPUT ∨ (Loc b s' ∧ Good s'.buffer)

theorem LPost.mono {a b s' : Lexer} {t : Tok} (h : Loc a b) (hp : LPost b t s') : LPost a t s' :=
  hp.imp id fun h' => ⟨h.trans h'.1, h'.2⟩

/-- One step. -/
syntax "wstep" : tactic
macro_rules | `(tactic| wstep) => `(tactic| first
  | with_reducible refine Wp.pure ?_
  | with_reducible refine Wp.bind ?_
  | with_reducible refine Wp.map ?_
  | ((with_reducible refine Wp.ite ?_ ?_) <;> intro)
  | with_reducible refine Wp.getS ?_
  | with_reducible refine Wp.getB ?_
  | with_reducible refine Wp.pcur ?_
  | with_reducible refine Wp.fuel ?_
  | ((with_reducible refine Wp.nextc ?_ ?_); (· mid_tac); intro _ _ _)
  | ((with_reducible refine Wp.pushback_same (by assumption) ?_ ?_); (· same_tac); intro _ _ _ _ _ _ _)
  | ((with_reducible refine Wp.pu (Pu.setState _) ?_); intro _ _ _)
  | ((with_reducible refine Wp.pu (Pu.setLval _) ?_); intro _ _ _)
  | ((with_reducible refine Wp.pu Pu.setYylvalName ?_); intro _ _ _)
  | ((with_reducible refine Wp.pu (Pu.tokadd _) ?_); intro _ _ _)
  | ((with_reducible refine Wp.pu (Pu.emit _ _ _) ?_); intro _ _ _)
  | ((with_reducible refine Wp.pu (Pu.warn _ _) ?_); intro _ _ _)
  | ((with_reducible refine Wp.pu (Pu.compileError _ _) ?_); intro _ _ _)
  | ((with_reducible refine Wp.pu Pu.currentLoc ?_); intro _ _ _)
  | ((with_reducible refine Wp.pu Pu.getState ?_); intro _ _ _)
  | ((with_reducible refine Wp.pu Pu.toklen ?_); intro _ _ _)
  | ((with_reducible refine Wp.pu Pu.takeTok ?_); intro _ _ _)
  | ((with_reducible refine Wp.pu (Pu.charAt _) ?_); intro _ _ _)
  | ((with_reducible refine Wp.pu Pu.isLambdaBeginning ?_); intro _ _ _)
  | ((with_reducible refine Wp.pu (Pu.isLvarDefined _) ?_); intro _ _ _)
  | ((with_reducible refine Wp.pu (Pu.spacearg _ _) ?_); intro _ _ _)
  | ((with_reducible refine Wp.pu (Pu.yyerror0 _) ?_); intro _ _ _)
  | ((with_reducible refine Wp.pu (Pu.warnBalanced _ _ _ _ _ _) ?_); intro _ _ _)
  | ((with_reducible refine Wp.pu (Pu.argAmbiguous _ _) ?_); intro _ _ _)
  | ((with_reducible refine Wp.pu (Pu.setStateAfterOp _) ?_); intro _ _ _)
  | ((with_reducible refine Wp.pu (Pu.warnSpaceChar _ _) ?_); intro _ _ _)
  | ((with_reducible refine Wp.pu Pu.normalNewline ?_); intro _ _ _)
  | ((with_reducible refine Wp.newtok ?_); intro _ _ _ _ _)
  | ((with_reducible refine Wp.tokaddMB ?_ ?_); (· char_tac); intro _ _)
  | ((with_reducible refine Wp.peek ?_ ?_); (· good_tac); intro _ _)
  | ((with_reducible refine Wp.isLabelSuffix ?_ ?_); (· good_tac); intro _ _)
  | fail "no step")

/-- As many steps as possible. -/
macro "wsteps" : tactic => `(tactic| repeat' wstep)

end Verif.Lexer
