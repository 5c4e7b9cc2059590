import Verif.Lemmas.LexQuiet
/-! Only the newline code returns the token `tNL`. -/
namespace Verif.Lexer
section
variable {α β : Type} {P : α → Prop}

/-- Every result of `x` has the property `P`. -/
def Ret (P : α → Prop) (x : LexM α) : Prop := ∀ s a s', x s = .ok (a, s') → P a

theorem Ret.pure {a : α} (h : P a) : Ret P (Pure.pure a : LexM α) := by intro s b s' e; cases e; exact h
theorem Ret.bindP {P' : β → Prop} {x : LexM β} {f : β → LexM α} (h : Ret P' x) (h' : ∀ b, P' b → Ret P (f b)) :
    Ret P (x >>= f) := by
  intro s a s' e
  change StateT.bind x f s = _ at e
  simp only [StateT.bind, Bind.bind, Except.bind] at e
  cases hx : x s with
  | error p => rw [hx] at e; simp at e
  | ok r => rw [hx] at e; exact h' r.1 (h s r.1 r.2 hx) r.2 a s' e
theorem Ret.bind {x : LexM β} {f : β → LexM α} (h' : ∀ b, Ret P (f b)) : Ret P (x >>= f) :=
  .bindP (P' := fun _ => True) (fun _ _ _ _ => trivial) fun b _ => h' b
theorem Ret.bindPure {b : β} {f : β → LexM α} (h' : Ret P (f b)) : Ret P (Pure.pure b >>= f) := h'
theorem Ret.ite {c : Prop} [Decidable c] {x y : LexM α} (h1 : c → Ret P x) (h2 : ¬c → Ret P y) : Ret P (if c then x else y) := by
  split
  · exact h1 ‹_›
  · exact h2 ‹_›
theorem Ret.fail (p : Panic) : Ret P (fail p : LexM α) := by intro s a s' e; simp [Lexer.fail] at e
theorem Ret.map {x : LexM β} {f : β → α} (h : Ret (fun b => P (f b)) x) : Ret P (f <$> x) := by
  intro s a s' e
  change StateT.map f x s = _ at e
  simp only [StateT.map, Bind.bind, Except.bind] at e
  cases hx : x s with
  | error p => rw [hx] at e; simp at e
  | ok r =>
    rw [hx] at e
    cases e
    exact h s r.1 r.2 hx
theorem Wp.ret {Q : α → Lexer → Prop} {x : LexM α} {s : Lexer} (h : Wp x Q s) (hr : Ret P x) : Wp x (fun a s' => Q a s' ∧ P a) s := by
  obtain ⟨a, s', e, hq⟩ := h
  exact ⟨a, s', e, hq, hr _ _ _ e⟩
end

/-- Not a newline. -/
abbrev TN (t : Tok) : Prop := t ≠ .tNL
/-- Not a newline, if a token. -/
def OctN : OctRes → Prop
  | .tok t => TN t
  | .cont .. => True
/-- Not a newline, if a token. -/
def OptN : Option Tok → Prop
  | some t => TN t
  | none => True
/-- Not a newline, if a token. -/
def SumN {β : Type} : Tok ⊕ β → Prop
  | .inl t => TN t
  | .inr _ => True

/-- Close `t ≠ tNL`. -/
macro "tn_tac" : tactic => `(tactic| first
  | assumption
  | decide
  | trivial
  | (show TN _; first | assumption | decide)
  | ((repeat' split) <;> first | assumption | decide | trivial))

/-- One step. -/
syntax "ret1" : tactic
set_option hygiene false in
macro_rules | `(tactic| ret1) => `(tactic| first
  | ((with_reducible refine Ret.pure ?_); tn_tac)
  | with_reducible exact Ret.fail _
  | with_reducible exact Ret.setNumberLiteral (by decide)
  | with_reducible exact Ret.setIntegerLiteral
  | with_reducible exact Ret.trailingUc
  | with_reducible exact Ret.noDigits
  | with_reducible exact Ret.parseNumericFooter
  | with_reducible exact Ret.decodeNum
  | with_reducible exact Ret.prefixed
  | with_reducible exact Ret.parseOctal
  | with_reducible exact Ret.numLoop
  | with_reducible exact Ret.afterZero
  | with_reducible exact Ret.zeroOctal
  | with_reducible exact Ret.zeroLiteral
  | with_reducible exact Ret.parseNumeric
  | with_reducible exact Ret.warnBalanced (by decide)
  | with_reducible exact Ret.identSuffix
  | ((with_reducible refine Ret.identName ?_); tn_tac)
  | with_reducible exact Ret.gvarName
  | with_reducible exact Ret.qmarkTernary
  | with_reducible exact Ret.qmarkChar
  | with_reducible exact Ret.qmarkName
  | with_reducible exact Ret.qmarkEscape
  | with_reducible exact Ret.percentUnknown
  | with_reducible exact Ret.percentUnterminated
  | with_reducible exact Ret.percentOpen
  | with_reducible exact Ret.percentQuotation
  | with_reducible exact Ret.peekVariableName
  | with_reducible exact Ret.stringTerm
  | with_reducible exact Ret.stringContent
  | with_reducible exact Ret.heredocStart (by first | decide | (split <;> decide))
  | with_reducible exact Ret.hereDocumentError
  | with_reducible exact Ret.hereDocumentRestore
  | with_reducible exact Ret.heredocFlushStr
  | with_reducible exact Ret.heredocFlush
  | with_reducible exact Ret.hereRawLoop
  | with_reducible exact Ret.hereExpandLoop
  | with_reducible exact Ret.hereFinish
  | with_reducible exact Ret.hereBody
  | ((with_reducible refine Ret.bindP Ret.parseOctal ?_); intro _ _)
  | ((with_reducible refine Ret.bindP Ret.trailingUc ?_); intro _ _)
  | ((with_reducible refine Ret.bindP Ret.setIntegerLiteral ?_); intro _ _)
  | ((with_reducible refine Ret.bindP Ret.identSuffix ?_); intro _ _)
  | ((with_reducible refine Ret.bindP Ret.peekVariableName ?_); intro _ _)
  | ((with_reducible refine Ret.bindP (Ret.heredocStart (by first | decide | (split <;> decide))) ?_); intro _ _)
  | ((with_reducible refine Ret.bindP Ret.hereDocumentError ?_); intro _ _)
  | ((with_reducible refine Ret.bindP Ret.hereDocumentRestore ?_); intro _ _)
  | ((with_reducible refine Ret.bindP Ret.heredocFlushStr ?_); intro _ _)
  | ((with_reducible refine Ret.bindP Ret.heredocFlush ?_); intro _ _)
  | ((with_reducible refine Ret.bindP Ret.hereRawLoop ?_); intro _ _)
  | ((with_reducible refine Ret.bindP Ret.hereExpandLoop ?_); intro _ _)
  | with_reducible refine Ret.bindPure ?_
  | ((with_reducible refine Ret.bind ?_); intro _)
  | ((with_reducible refine Ret.ite ?_ ?_) <;> intro _)
  | split
  | fail "ret1")

theorem Ret.setNumberLiteral {v t su} (h : TN t) : Ret TN (setNumberLiteral v t su) := by
  unfold Lexer.setNumberLiteral; repeat' ret1
theorem Ret.setIntegerLiteral {v su} : Ret TN (setIntegerLiteral v su) := by
  unfold Lexer.setIntegerLiteral; repeat' ret1
theorem Ret.trailingUc {n} : Ret TN (trailingUc n) := by unfold Lexer.trailingUc; repeat' ret1
theorem Ret.noDigits : Ret TN noDigits := by unfold Lexer.noDigits; repeat' ret1
theorem Ret.parseNumericFooter {a b} : Ret TN (parseNumericFooter a b) := by unfold Lexer.parseNumericFooter; repeat' ret1
theorem Ret.decodeNum {a b c d} : Ret TN (decodeNum a b c d) := by unfold Lexer.decodeNum; repeat' ret1
theorem Ret.prefixed {a b c} : Ret TN (prefixed a b c) := by unfold Lexer.prefixed; repeat' ret1
theorem Ret.parseOctal {a b c} : Ret OctN (parseOctal a b c) := by unfold Lexer.parseOctal; repeat' ret1
theorem Ret.numLoop' : ∀ n {a b c d e}, Ret TN (numLoop n a b c d e) := by
  intro n
  induction n with
  | zero => intros; exact Ret.fail _
  | succ n ih =>
    intro a b c d e
    unfold Lexer.numLoop
    (repeat' ret1) <;> apply ih
theorem Ret.numLoop {n a b c d e} : Ret TN (numLoop n a b c d e) := Ret.numLoop' n
theorem Ret.afterZero {a b} : Ret TN (afterZero a b) := by unfold Lexer.afterZero; repeat' ret1
theorem Ret.zeroOctal {a b c} : Ret TN (zeroOctal a b c) := by unfold Lexer.zeroOctal; repeat' ret1
theorem Ret.zeroLiteral : Ret TN zeroLiteral := by unfold Lexer.zeroLiteral; repeat' ret1
theorem Ret.parseNumeric {a} : Ret TN (parseNumeric a) := by unfold Lexer.parseNumeric; repeat' ret1
theorem Ret.warnBalanced {t o y c sp l} (h : TN t) : Ret TN (warnBalanced t o y c sp l) := by
  unfold Lexer.warnBalanced; repeat' ret1
theorem Ret.identSuffix {c} : Ret TN (identSuffix c) := by unfold Lexer.identSuffix; repeat' ret1
theorem Ret.identName {x l r c} (h : TN r) : Ret TN (identName x l r c) := by
  unfold Lexer.identName
  repeat' ret1
/-- A keyword or none. -/
def KwN (r : Option ReservedWord) : Prop := ∀ w, r = some w → TN w.id ∧ TN w.modifierId
theorem Ret.identKeyword {w} (h : TN w.id ∧ TN w.modifierId) : Ret TN (identKeyword w) := by
  unfold Lexer.identKeyword
  obtain ⟨h1, h2⟩ := h
  repeat' ret1
theorem Ret.reserved {tok : Bytes} : Ret KwN (Lexer.liftB fun _ => reservedWord tok) := by
  intro s a s' e w hw
  obtain ⟨r, hr, hspec⟩ := C18_lookup tok
  simp only [Lexer.liftB, Bind.bind, Except.bind, Pure.pure, Except.pure, hr] at e
  cases e
  exact (by decide +kernel : ∀ w ∈ reservedWordsList, TN w.id ∧ TN w.modifierId) w ((hspec w).1 hw).1
theorem Ret.parseIdent {x c cmd} : Ret TN (parseIdent x c cmd) := by
  have fin : ∀ l r kw, TN r → KwN kw → Ret TN (match kw with
      | some kw => Lexer.identKeyword kw
      | none => Lexer.identName x l r cmd) := by
    intro l r kw h1 h2
    cases kw with
    | some w => exact Ret.identKeyword (h2 w rfl)
    | none => exact Ret.identName h1
  unfold Lexer.parseIdent
  refine Ret.bind fun _ => Ret.bind fun _ => Ret.bind fun _ => ?_
  split
  · exact Ret.pure (by decide)
  · refine Ret.bindP Ret.identSuffix fun r hr => ?_
    have body : ∀ label l, Ret TN (do
        if label = true then
          Lexer.setState (EXPR_ARG ||| EXPR_LABELED)
          let _ ← Lexer.nextc
          Lexer.setYylvalName
          Pure.pure Tok.tLABEL
        else
          let kw ← if !(← Lexer.getState).isSome EXPR_DOT then do
              let tok ← Lexer.getS (·.tokenbuf)
              Lexer.liftB fun _ => reservedWord tok
            else Pure.pure none
          match kw with
          | some kw => Lexer.identKeyword kw
          | none => Lexer.identName x l r cmd) := by
      intro label l
      refine Ret.ite (fun _ => ?_) (fun _ => ?_)
      · repeat' ret1
      · refine Ret.bind fun _ => ?_
        refine Ret.ite (fun _ => ?_) (fun _ => ?_)
        · refine Ret.bind fun _ => ?_
          exact Ret.bindP Ret.reserved fun _ h => fin _ _ _ hr h
        · exact fin _ _ none hr (by intro w h; cases h)
    refine Ret.bind fun _ => ?_
    refine Ret.ite (fun _ => ?_) (fun _ => ?_)
    · refine Ret.bind fun _ => body _ _
    · exact body false _
theorem Ret.gvarName {c} : Ret TN (gvarName c) := by unfold Lexer.gvarName; repeat' ret1
theorem Ret.parseGvar {l} : Ret TN (parseGvar l) := by unfold Lexer.parseGvar; repeat' ret1
theorem Ret.parseAtmark {l} : Ret TN (parseAtmark l) := by unfold Lexer.parseAtmark; repeat' ret1
theorem Ret.qmarkTernary {c} : Ret TN (qmarkTernary c) := by unfold Lexer.qmarkTernary; repeat' ret1
theorem Ret.qmarkChar : Ret TN qmarkChar := by unfold Lexer.qmarkChar; repeat' ret1
theorem Ret.qmarkName {a b} : Ret TN (qmarkName a b) := by unfold Lexer.qmarkName; repeat' ret1
theorem Ret.qmarkEscape : Ret TN qmarkEscape := by unfold Lexer.qmarkEscape; repeat' ret1
theorem Ret.parseQmark {a} : Ret TN (parseQmark a) := by unfold Lexer.parseQmark; repeat' ret1
theorem Ret.percentUnknown {a} : Ret TN (percentUnknown a) := by unfold Lexer.percentUnknown; repeat' ret1
theorem Ret.percentUnterminated : Ret TN percentUnterminated := by unfold Lexer.percentUnterminated; repeat' ret1
theorem Ret.percentOpen {a b c} : Ret TN (percentOpen a b c) := by
  unfold Lexer.percentOpen; dsimp only; repeat' ret1
theorem Ret.percentQuotation {a b} : Ret TN (percentQuotation a b) := by unfold Lexer.percentQuotation; repeat' ret1
theorem Ret.parsePercent {a b} : Ret TN (parsePercent a b) := by unfold Lexer.parsePercent; repeat' ret1
theorem Ret.peekVariableName : Ret OptN peekVariableName := by
  unfold Lexer.peekVariableName
  repeat' ret1
  all_goals
    refine Ret.pure ?_
    dsimp only
    split
    · show TN _; decide
    · trivial
theorem Ret.stringTerm {a b} : Ret TN (stringTerm a b) := by unfold Lexer.stringTerm; repeat' ret1
theorem Ret.stringContent {a b c d} : Ret TN (stringContent a b c d) := by unfold Lexer.stringContent; repeat' ret1
theorem Ret.parseString {a} : Ret TN (parseString a) := by unfold Lexer.parseString; repeat' ret1
theorem Ret.heredocStart {t a b c d} (h : TN t) : Ret TN (heredocStart t a b c d) := by unfold Lexer.heredocStart; repeat' ret1
theorem Ret.heredocIdentifier : Ret OptN heredocIdentifier := by unfold Lexer.heredocIdentifier; repeat' ret1
theorem Ret.hereDocumentError {a b c} : Ret TN (hereDocumentError a b c) := by unfold Lexer.hereDocumentError; repeat' ret1
theorem Ret.hereDocumentRestore {a} : Ret TN (hereDocumentRestore a) := by unfold Lexer.hereDocumentRestore; repeat' ret1
theorem Ret.heredocFlushStr {a} : Ret TN (heredocFlushStr a) := by unfold Lexer.heredocFlushStr; repeat' ret1
theorem Ret.heredocFlush : Ret TN heredocFlush := by unfold Lexer.heredocFlush; repeat' ret1
theorem Ret.hereRawLoop' {h e l i} : ∀ n {str}, Ret SumN (hereRawLoop h e l i n str) := by
  intro n
  induction n with
  | zero => intros; exact Ret.fail _
  | succ n ih =>
    intro str
    unfold Lexer.hereRawLoop
    (repeat' ret1) <;> apply ih
theorem Ret.hereRawLoop {h e l i n str} : Ret SumN (hereRawLoop h e l i n str) := Ret.hereRawLoop' n
theorem Ret.hereExpandLoop' {h e l i} : ∀ n {str}, Ret SumN (hereExpandLoop h e l i n str) := by
  intro n
  induction n with
  | zero => intros; exact Ret.fail _
  | succ n ih =>
    intro str
    unfold Lexer.hereExpandLoop
    (repeat' ret1); apply ih
theorem Ret.hereExpandLoop {h e l i n str} : Ret SumN (hereExpandLoop h e l i n str) := Ret.hereExpandLoop' n
theorem Ret.hereFinish {a b c} : Ret TN (hereFinish a b c) := by unfold Lexer.hereFinish; repeat' ret1
theorem Ret.hereBody {a b c d e} : Ret TN (hereBody a b c d e) := by unfold Lexer.hereBody; dsimp only; repeat' ret1
theorem Ret.hereDocument {a} : Ret TN (hereDocument a) := by unfold Lexer.hereDocument; repeat' ret1

end Verif.Lexer
