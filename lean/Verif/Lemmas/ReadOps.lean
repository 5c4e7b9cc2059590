import Verif.Lemmas.ReadText
import Verif.Spec.Words
/-! The text of operators is ASCII. -/
namespace Verif.Lexer
open Spec

/-- Types of tokens that are not names. -/
def notName (t : Tok) : Bool := t != .tIDENTIFIER && t != .tLABEL && t != .tNTH_REF && t != .tLABEL_END && t != .tREGEXP_END
/-- Words, except a line break, whose value is fixed, and the end of the input. -/
def plainWord (t : Tok) : Bool := t.isWord && t != .END_OF_INPUT && t != .tNL
/-- A finished token: if it is a word then it is ASCII, and it is not a name. -/
def Wd (t : Tok) (s' : Lexer) : Prop := notName t = true ∧ (plainWord t = true → AsciiB (Val s'))
/-- One pass of the loop. -/
def OpN (r : Next) (s' : Lexer) : Prop := match r with
  | .tok t => Wd t s'
  | .retry _ => LvA s'
  | .ident => False

section
variable {α β : Type} {s : Lexer} {Q : α → Lexer → Prop}
theorem Pc.map {x : LexM β} {f : β → α} (h : Pc x (fun b s' => Q (f b) s') s) : Pc (f <$> x) Q s := by
  intro a s' e
  change StateT.map f x s = _ at e
  simp only [StateT.map, Bind.bind, Except.bind] at e
  cases hx : x s with
  | error p => rw [hx] at e; simp at e
  | ok r =>
    rw [hx] at e
    obtain ⟨b, s1⟩ := r
    cases e
    exact h b s1 hx
theorem Pc.nuT {D : Bytes} {k : Nat} {x : LexM α} (h : Tx D k s) (hx : Nu x) (hq : ∀ a s', Tx D k s' → Q a s') : Pc x Q s :=
  fun a s' e => hq a s' (h.nt (hx s a s' e))
theorem Pc.nuR {D : Bytes} {k : Nat} {c : MB} {x : LexM α} (h : Rx D k c s) (hx : Nu x) (hq : ∀ a s', Rx D k c s' → Q a s') : Pc x Q s :=
  fun a s' e => hq a s' (h.nt (hx s a s' e))
theorem Pc.nuF {D : Bytes} {x : LexM α} (h : Fx D s) (hx : Nu x) (hq : ∀ a s', Fx D s' → Q a s') : Pc x Q s :=
  fun a s' e => hq a s' (h.nt (hx s a s' e))
end
section
variable {D : Bytes} {k : Nat} {c : MB} {s : Lexer}
theorem warnBalanced_ret {t o y c sp l} : Ret (fun r => r = t) (Lexer.warnBalanced t o y c sp l) := by
  unfold Lexer.warnBalanced
  exact Ret.ite (fun _ => Ret.bind fun _ => Ret.bind fun _ => Ret.pure rfl) fun _ => Ret.pure rfl
theorem Pc.warnBalancedT {Q : Tok → Lexer → Prop} {t o y c sp l} (h : Tx D k s) (hq : ∀ s', Tx D k s' → Q t s') : Pc (Lexer.warnBalanced t o y c sp l) Q s := by
  intro a s' e
  have := warnBalanced_ret s a s' e
  subst this
  exact hq _ (h.nt (Nu.warnBalanced s _ s' e))
theorem Pc.setLvalT {Q : Unit → Lexer → Prop} {v : Bytes} (h : Tx D k s) (h1 : v ≠ []) (h2 : AsciiB v) (hq : ∀ s', Tx D k s' → Q () s') :
    Pc (Lexer.setLval v) Q s := Pc.modS (hq _ (h.set h1 h2))
theorem Pc.opAsgnT {Q : Next → Lexer → Prop} {op : String} (h : Tx D k s) (h1 : ascs op ≠ []) (h2 : AsciiB (ascs op))
    (hq : ∀ s', Tx D k s' → Q (.tok .tOP_ASGN) s') : Pc (Lexer.opAsgn op) Q s := by
  unfold Lexer.opAsgn
  refine Pc.bind (Pc.setLvalT h h1 h2 fun s1 k1 => Pc.bind (Pc.nuT k1 Nu.setState fun _ s2 k2 => ?_))
  intro a s' e; cases e; exact hq _ k2
end

theorem MAsc.isC {c : MB} {d : Char} (h : _root_.Verif.isC c d = true) (hd : d.toNat < 128) : MAsc c := by
  intro ch e
  have := isC_some h
  rw [this] at e; cases e
  simp only [asc, UInt8.toNat_ofNat']
  omega
theorem isC_ne10 {c : MB} {d : Char} (h : _root_.Verif.isC c d = true) (hd : asc d ≠ 10) : c ≠ some 10 := by
  rw [isC_some h]; simpa using hd

/-- Everything read so far is ASCII. -/
macro "tx_tac" : tactic => `(tactic| first
  | assumption
  | exact Rx.go (by assumption) (MAsc.isC (by assumption) (by decide)) (isC_ne10 (by assumption) (by decide)))
/-- The same at the end of a token. -/
macro "fx_tac" : tactic => `(tactic| first
  | assumption
  | exact Tx.toFx (by assumption)
  | exact Rx.fx (by assumption) (MAsc.isC (by assumption) (by decide)))
/-- A finished token. -/
macro "fin_tac" : tactic => `(tactic| first
  | exact ⟨by decide, fun h => absurd h (by decide)⟩
  | exact ⟨by decide, fun _ => Fx.val (by fx_tac)⟩)
/-- One step of an operator. -/
macro "astep" : tactic => `(tactic| first
  | with_reducible exact Pc.fail
  | with_reducible refine Pc.bind ?_
  | with_reducible refine Pc.map ?_
  | ((with_reducible refine Pc.ite (fun h => ?_) fun h => ?_) <;> (try simp only [Bool.and_eq_true, Bool.not_eq_true', Bool.not_eq_false] at h) <;> (try obtain ⟨_, h⟩ := h))
  | ((with_reducible refine Pc.nextcT (by tx_tac) ?_); intro c s h)
  | ((with_reducible refine Pc.pushbackT (by assumption) ?_); intro s h)
  | ((with_reducible refine Pc.pushbackByteT (by tx_tac) ?_); intro s h)
  | ((with_reducible refine Pc.warnBalancedT (by tx_tac) ?_); intro s h)
  | ((with_reducible refine Pc.setLvalT (by tx_tac) (by decide) (by unfold AsciiB; decide) ?_); intro s h)
  | ((with_reducible refine Pc.opAsgnT (by tx_tac) (by decide) (by unfold AsciiB; decide) ?_); intro s h)
  | ((with_reducible refine Pc.pure ?_); first | fin_tac | (split <;> fin_tac) | skip)
  | ((with_reducible refine Pc.nuT (by assumption) (by nu1; done) ?_); intro a s h)
  | ((with_reducible refine Pc.nuR (by assumption) (by nu1; done) ?_); intro a s h)
  | ((with_reducible refine Pc.nuF (by assumption) (by nu1; done) ?_); intro a s h)
  | fin_tac
  | dsimp only)

section
variable {D : Bytes} {k : Nat} {s : Lexer}
theorem lexStar_pc {b l} (h : Tx D k s) : Pc (lexStar b l) OpN s := by
  unfold Lexer.lexStar Lexer.done; repeat' astep
theorem lexBang_pc (h : Tx D k s) : Pc (lexBang) OpN s := by
  unfold Lexer.lexBang Lexer.done; repeat' astep
theorem lexEqOp_pc (h : Tx D k s) : Pc (lexEqOp) OpN s := by
  unfold Lexer.lexEqOp Lexer.done; repeat' astep
theorem lexLtOp_pc {c b l} (h : Rx D k c s) : Pc (lexLtOp c b l) OpN s := by
  unfold Lexer.lexLtOp Lexer.done; repeat' astep
theorem lexGt_pc (h : Tx D k s) : Pc lexGt OpN s := by
  unfold Lexer.lexGt Lexer.done; repeat' astep
theorem lexBacktick_pc {b} (h : Tx D k s) : Pc (lexBacktick b) OpN s := by
  unfold Lexer.lexBacktick Lexer.done; repeat' astep
theorem lexAmp_pc {b l} (h : Tx D k s) : Pc (lexAmp b l) OpN s := by
  unfold Lexer.lexAmp Lexer.done; repeat' astep
theorem lexPipe_pc {l} (h : Tx D k s) : Pc (lexPipe l) OpN s := by
  unfold Lexer.lexPipe Lexer.done; repeat' astep
theorem lexMinus_pc {b l} (h : Tx D k s) : Pc (lexMinus b l) OpN s := by
  unfold Lexer.lexMinus Lexer.done; repeat' astep
theorem lexDot3_pc {b l} (h : Tx D k s) : Pc (lexDot3 b l) OpN s := by
  unfold Lexer.lexDot3 Lexer.done; repeat' astep
theorem lexRcurly_pc (h : Tx D k s) : Pc lexRcurly OpN s := by
  unfold Lexer.lexRcurly Lexer.lexClose Lexer.done; repeat' astep
theorem lexColon_pc {b l} (h : Tx D k s) : Pc (lexColon b l) OpN s := by
  unfold Lexer.lexColon Lexer.done; repeat' astep
theorem lexSlash_pc {b l} (h : Tx D k s) : Pc (lexSlash b l) OpN s := by
  unfold Lexer.lexSlash Lexer.done; repeat' astep
theorem lexCaret_pc (h : Tx D k s) : Pc lexCaret OpN s := by
  unfold Lexer.lexCaret Lexer.done; repeat' astep
theorem lexSemi_pc (h : Tx D k s) : Pc lexSemi OpN s := by
  unfold Lexer.lexSemi Lexer.done; repeat' astep
theorem lexComma_pc (h : Tx D k s) : Pc lexComma OpN s := by
  unfold Lexer.lexComma Lexer.done; repeat' astep
theorem lexTilde_pc (h : Tx D k s) : Pc lexTilde OpN s := by
  unfold Lexer.lexTilde Lexer.done; repeat' astep
theorem lexLparen_pc {b} (h : Tx D k s) : Pc (lexLparen b) OpN s := by
  unfold Lexer.lexLparen Lexer.done; repeat' astep
theorem lexLbrack_pc {b} (h : Tx D k s) : Pc (lexLbrack b) OpN s := by
  unfold Lexer.lexLbrack Lexer.done; repeat' astep
theorem lexLcurly_pc (h : Tx D k s) : Pc lexLcurly OpN s := by
  unfold Lexer.lexLcurly Lexer.done; repeat' astep
  all_goals repeat' first | fin_tac | split
theorem lexClose_pc {st t} (h : Tx D k s) (ht : notName t = true) : Pc (lexClose st t) OpN s := by
  unfold Lexer.lexClose Lexer.done
  refine Pc.bind (Pc.nuT h (by nu1; done) fun _ s k => Pc.pure ⟨ht, fun _ => k.toFx.val⟩)
theorem Pc.ofRet {α : Type} {x : LexM α} {P : α → Prop} {Q : α → Lexer → Prop} {s : Lexer} (h : Ret P x) (hq : ∀ a s', P a → Q a s') : Pc x Q s :=
  fun a s' e => hq a s' (h s a s' e)
theorem lexQuote_pc {f q b} : Pc (lexQuote f q b) OpN s := by
  refine Pc.ofRet (P := fun r => r = .tok .tSTRING_BEG) ?_ fun a s' e => ?_
  · unfold Lexer.lexQuote Lexer.done
    exact Ret.bind fun _ => Ret.bind fun _ => Ret.bind fun _ => Ret.bind fun _ => Ret.pure rfl
  · subst e; fin_tac
theorem lexBackslash_pc (h : Tx D k s) : Pc lexBackslash OpN s := by
  unfold Lexer.lexBackslash Lexer.done
  refine Pc.bind (Pc.nextcT h fun c s1 h1 => ?_)
  have key : ∀ {d : UInt8} {t : Tok}, d.toNat < 128 → (c == some d) = true → notName t = true → Wd t s1 := by
    intro d t hd e ht
    refine ⟨ht, fun _ => Fx.val (h1.fx ?_)⟩
    rw [eq_of_beq e]
    intro ch hc; cases hc; exact hd
  refine Pc.ite (fun _ => Pc.pure h1.lv) fun _ => Pc.ite (fun hc => ?_) fun _ => Pc.ite (fun _ => ?_) fun _ => ?_
  · repeat' astep
  · exact Pc.ite (fun e => Pc.pure (key (by decide) e rfl)) fun _ => Pc.ite (fun e => Pc.pure (key (by decide) e rfl)) fun _ =>
      Pc.ite (fun e => Pc.pure (key (by decide) e rfl)) fun _ => Pc.ite (fun e => Pc.pure (key (by decide) e rfl)) fun _ => Pc.fail
  · repeat' astep
end
end Verif.Lexer
