import Verif.Lemmas.LexRet
/-! Only `parse_numeric` returns the tokens of numbers. -/
namespace Verif.Lexer

/-- Not a number. -/
abbrev NoNum (t : Tok) : Prop := t ∉ [Tok.tINTEGER, .tFLOAT, .tRATIONAL, .tIMAGINARY]
/-- Not a number, if a token. -/
def OptNN : Option Tok → Prop
  | some t => NoNum t
  | none => True
/-- Not a number, if a token. -/
def SumNN {β : Type} : Tok ⊕ β → Prop
  | .inl t => NoNum t
  | .inr _ => True

/-- Close `t` is not a number. -/
macro "nn_tac" : tactic => `(tactic| first
  | assumption
  | decide
  | trivial
  | (show NoNum _; first | assumption | decide)
  | ((repeat' split) <;> first | assumption | decide | trivial))

/-- One step. -/
syntax "retn1" : tactic
set_option hygiene false in
macro_rules | `(tactic| retn1) => `(tactic| first
  | ((with_reducible refine Ret.pure ?_); nn_tac)
  | with_reducible exact Ret.fail _
  | with_reducible exact RetNum.warnBalanced (by decide)
  | with_reducible exact RetNum.identSuffix
  | ((with_reducible refine RetNum.identName ?_); nn_tac)
  | with_reducible exact RetNum.gvarName
  | with_reducible exact RetNum.qmarkTernary
  | with_reducible exact RetNum.qmarkChar
  | with_reducible exact RetNum.qmarkName
  | with_reducible exact RetNum.qmarkEscape
  | with_reducible exact RetNum.percentUnknown
  | with_reducible exact RetNum.percentUnterminated
  | with_reducible exact RetNum.percentOpen
  | with_reducible exact RetNum.percentQuotation
  | with_reducible exact RetNum.peekVariableName
  | with_reducible exact RetNum.stringTerm
  | with_reducible exact RetNum.stringContent
  | with_reducible exact RetNum.heredocStart (by first | decide | (split <;> decide))
  | with_reducible exact RetNum.hereDocumentError
  | with_reducible exact RetNum.hereDocumentRestore
  | with_reducible exact RetNum.heredocFlushStr
  | with_reducible exact RetNum.heredocFlush
  | with_reducible exact RetNum.hereRawLoop
  | with_reducible exact RetNum.hereExpandLoop
  | with_reducible exact RetNum.hereFinish
  | with_reducible exact RetNum.hereBody
  | ((with_reducible refine Ret.bindP RetNum.identSuffix ?_); intro _ _)
  | ((with_reducible refine Ret.bindP RetNum.peekVariableName ?_); intro _ _)
  | ((with_reducible refine Ret.bindP (RetNum.heredocStart (by first | decide | (split <;> decide))) ?_); intro _ _)
  | ((with_reducible refine Ret.bindP RetNum.hereDocumentError ?_); intro _ _)
  | ((with_reducible refine Ret.bindP RetNum.hereDocumentRestore ?_); intro _ _)
  | ((with_reducible refine Ret.bindP RetNum.heredocFlushStr ?_); intro _ _)
  | ((with_reducible refine Ret.bindP RetNum.heredocFlush ?_); intro _ _)
  | ((with_reducible refine Ret.bindP RetNum.hereRawLoop ?_); intro _ _)
  | ((with_reducible refine Ret.bindP RetNum.hereExpandLoop ?_); intro _ _)
  | with_reducible refine Ret.bindPure ?_
  | ((with_reducible refine Ret.bind ?_); intro _)
  | ((with_reducible refine Ret.ite ?_ ?_) <;> intro _)
  | split
  | fail "retn1")

theorem RetNum.warnBalanced {t o y c sp l} (h : NoNum t) : Ret NoNum (warnBalanced t o y c sp l) := by
  unfold Lexer.warnBalanced; repeat' retn1
theorem RetNum.identSuffix {c} : Ret NoNum (identSuffix c) := by unfold Lexer.identSuffix; repeat' retn1
theorem RetNum.identName {x l r c} (h : NoNum r) : Ret NoNum (identName x l r c) := by
  unfold Lexer.identName
  repeat' retn1
/-- A keyword or none. -/
def KwNN (r : Option ReservedWord) : Prop := ∀ w, r = some w → NoNum w.id ∧ NoNum w.modifierId
theorem RetNum.identKeyword {w} (h : NoNum w.id ∧ NoNum w.modifierId) : Ret NoNum (identKeyword w) := by
  unfold Lexer.identKeyword
  obtain ⟨h1, h2⟩ := h
  repeat' retn1
theorem RetNum.reserved {tok : Bytes} : Ret KwNN (Lexer.liftB fun _ => reservedWord tok) := by
  intro s a s' e w hw
  obtain ⟨r, hr, hspec⟩ := C18_lookup tok
  simp only [Lexer.liftB, Bind.bind, Except.bind, Pure.pure, Except.pure, hr] at e
  cases e
  exact (by decide +kernel : ∀ w ∈ reservedWordsList, NoNum w.id ∧ NoNum w.modifierId) w ((hspec w).1 hw).1
theorem RetNum.parseIdent {x c cmd} : Ret NoNum (parseIdent x c cmd) := by
  have fin : ∀ l r kw, NoNum r → KwNN kw → Ret NoNum (match kw with
      | some kw => Lexer.identKeyword kw
      | none => Lexer.identName x l r cmd) := by
    intro l r kw h1 h2
    cases kw with
    | some w => exact RetNum.identKeyword (h2 w rfl)
    | none => exact RetNum.identName h1
  unfold Lexer.parseIdent
  refine Ret.bind fun _ => Ret.bind fun _ => Ret.bind fun _ => ?_
  split
  · exact Ret.pure (by decide)
  · refine Ret.bindP RetNum.identSuffix fun r hr => ?_
    have body : ∀ label l, Ret NoNum (do
        if label = true then
          Lexer.setState (EXPR_ARG ||| EXPR_LABELED)
          let _ ← Lexer.nextc
          Lexer.setYylvalName
          Pure.pure Tok.tLABEL
        else
          let kw ← if !(← Lexer.getState).isSome EXPR_DOT then do
              let tok ← Lexer.getS (·.tokenbuf)
              Lexer.liftB fun _ => reservedWord tok
            else Pure.pure none
          match kw with
          | some kw => Lexer.identKeyword kw
          | none => Lexer.identName x l r cmd) := by
      intro label l
      refine Ret.ite (fun _ => ?_) (fun _ => ?_)
      · repeat' retn1
      · refine Ret.bind fun _ => ?_
        refine Ret.ite (fun _ => ?_) (fun _ => ?_)
        · refine Ret.bind fun _ => ?_
          exact Ret.bindP RetNum.reserved fun _ h => fin _ _ _ hr h
        · exact fin _ _ none hr (by intro w h; cases h)
    refine Ret.bind fun _ => ?_
    refine Ret.ite (fun _ => ?_) (fun _ => ?_)
    · refine Ret.bind fun _ => body _ _
    · exact body false _
theorem RetNum.gvarName {c} : Ret NoNum (gvarName c) := by unfold Lexer.gvarName; repeat' retn1
theorem RetNum.parseGvar {l} : Ret NoNum (parseGvar l) := by unfold Lexer.parseGvar; repeat' retn1
theorem RetNum.parseAtmark {l} : Ret NoNum (parseAtmark l) := by unfold Lexer.parseAtmark; repeat' retn1
theorem RetNum.qmarkTernary {c} : Ret NoNum (qmarkTernary c) := by unfold Lexer.qmarkTernary; repeat' retn1
theorem RetNum.qmarkChar : Ret NoNum qmarkChar := by unfold Lexer.qmarkChar; repeat' retn1
theorem RetNum.qmarkName {a b} : Ret NoNum (qmarkName a b) := by unfold Lexer.qmarkName; repeat' retn1
theorem RetNum.qmarkEscape : Ret NoNum qmarkEscape := by unfold Lexer.qmarkEscape; repeat' retn1
theorem RetNum.parseQmark {a} : Ret NoNum (parseQmark a) := by unfold Lexer.parseQmark; repeat' retn1
theorem RetNum.percentUnknown {a} : Ret NoNum (percentUnknown a) := by unfold Lexer.percentUnknown; repeat' retn1
theorem RetNum.percentUnterminated : Ret NoNum percentUnterminated := by unfold Lexer.percentUnterminated; repeat' retn1
theorem RetNum.percentOpen {a b c} : Ret NoNum (percentOpen a b c) := by
  unfold Lexer.percentOpen; dsimp only; repeat' retn1
theorem RetNum.percentQuotation {a b} : Ret NoNum (percentQuotation a b) := by unfold Lexer.percentQuotation; repeat' retn1
theorem RetNum.parsePercent {a b} : Ret NoNum (parsePercent a b) := by unfold Lexer.parsePercent; repeat' retn1
theorem RetNum.peekVariableName : Ret OptNN peekVariableName := by
  unfold Lexer.peekVariableName
  repeat' retn1
  all_goals
    refine Ret.pure ?_
    dsimp only
    split
    · show NoNum _; decide
    · trivial
theorem RetNum.stringTerm {a b} : Ret NoNum (stringTerm a b) := by unfold Lexer.stringTerm; repeat' retn1
theorem RetNum.stringContent {a b c d} : Ret NoNum (stringContent a b c d) := by unfold Lexer.stringContent; repeat' retn1
theorem RetNum.parseString {a} : Ret NoNum (parseString a) := by unfold Lexer.parseString; repeat' retn1
theorem RetNum.heredocStart {t a b c d} (h : NoNum t) : Ret NoNum (heredocStart t a b c d) := by unfold Lexer.heredocStart; repeat' retn1
theorem RetNum.heredocIdentifier : Ret OptNN heredocIdentifier := by unfold Lexer.heredocIdentifier; repeat' retn1
theorem RetNum.hereDocumentError {a b c} : Ret NoNum (hereDocumentError a b c) := by unfold Lexer.hereDocumentError; repeat' retn1
theorem RetNum.hereDocumentRestore {a} : Ret NoNum (hereDocumentRestore a) := by unfold Lexer.hereDocumentRestore; repeat' retn1
theorem RetNum.heredocFlushStr {a} : Ret NoNum (heredocFlushStr a) := by unfold Lexer.heredocFlushStr; repeat' retn1
theorem RetNum.heredocFlush : Ret NoNum heredocFlush := by unfold Lexer.heredocFlush; repeat' retn1
theorem RetNum.hereRawLoop' {h e l i} : ∀ n {str}, Ret SumNN (hereRawLoop h e l i n str) := by
  intro n
  induction n with
  | zero => intros; exact Ret.fail _
  | succ n ih =>
    intro str
    unfold Lexer.hereRawLoop
    (repeat' retn1) <;> apply ih
theorem RetNum.hereRawLoop {h e l i n str} : Ret SumNN (hereRawLoop h e l i n str) := RetNum.hereRawLoop' n
theorem RetNum.hereExpandLoop' {h e l i} : ∀ n {str}, Ret SumNN (hereExpandLoop h e l i n str) := by
  intro n
  induction n with
  | zero => intros; exact Ret.fail _
  | succ n ih =>
    intro str
    unfold Lexer.hereExpandLoop
    (repeat' retn1); apply ih
theorem RetNum.hereExpandLoop {h e l i n str} : Ret SumNN (hereExpandLoop h e l i n str) := RetNum.hereExpandLoop' n
theorem RetNum.hereFinish {a b c} : Ret NoNum (hereFinish a b c) := by unfold Lexer.hereFinish; repeat' retn1
theorem RetNum.hereBody {a b c d e} : Ret NoNum (hereBody a b c d e) := by unfold Lexer.hereBody; dsimp only; repeat' retn1
theorem RetNum.hereDocument {a} : Ret NoNum (hereDocument a) := by unfold Lexer.hereDocument; repeat' retn1



/-- Not a number, if a token. -/
def NextNN : Next → Prop
  | .tok t => NoNum t
  | _ => True

theorem RetNum.normalNewline : Ret NoNum normalNewline := by unfold Lexer.normalNewline; repeat' retn1
theorem RetNum.done {t} (h : NoNum t) : Ret NextNN (done t) := by unfold Lexer.done; exact Ret.pure h
theorem RetNum.tok {x : LexM Tok} (h : Ret NoNum x) : Ret NextNN (x >>= fun t => Pure.pure (Next.tok t)) :=
  Ret.bindP h fun _ h => Ret.pure h

/-- One step of the functions of the main loop. -/
syntax "nextn1" : tactic
macro_rules | `(tactic| nextn1) => `(tactic| first
  | ((with_reducible refine RetNum.done ?_); nn_tac)
  | with_reducible refine RetNum.tok (RetNum.warnBalanced (by decide))
  | with_reducible refine RetNum.tok RetNum.normalNewline
  | with_reducible refine Ret.bindP (RetNum.warnBalanced (by decide)) (fun _ _ => ?_)
  | with_reducible refine Ret.bindP RetNum.heredocIdentifier (fun _ _ => ?_)
  | (refine Ret.pure ?_; trivial)
  | with_reducible refine Ret.bindPure ?_
  | ((with_reducible refine Ret.bind ?_); intro _)
  | ((with_reducible refine Ret.ite ?_ ?_) <;> intro _)
  | with_reducible exact Ret.fail _
  | split
  | dsimp only
  | fail "nextn1")
theorem RetNum.opAsgn {a0} : Ret NextNN (opAsgn a0) := by unfold Lexer.opAsgn; repeat' nextn1
macro_rules | `(tactic| nextn1) => `(tactic| with_reducible exact RetNum.opAsgn)
theorem RetNum.newlineLoop : ∀ {n a}, Ret NextNN (newlineLoop n a) := by
  intro n
  induction n with
  | zero => intro a; exact Ret.fail _
  | succ n ih => intro a; unfold Lexer.newlineLoop; repeat' first | with_reducible exact ih | nextn1
macro_rules | `(tactic| nextn1) => `(tactic| with_reducible exact RetNum.newlineLoop)
theorem RetNum.lexNewline {a0 a1} : Ret NextNN (lexNewline a0 a1) := by unfold Lexer.lexNewline; repeat' nextn1
macro_rules | `(tactic| nextn1) => `(tactic| with_reducible exact RetNum.lexNewline)
theorem RetNum.lexComment {a0 a1 a2} : Ret NextNN (lexComment a0 a1 a2) := by unfold Lexer.lexComment; repeat' nextn1
macro_rules | `(tactic| nextn1) => `(tactic| with_reducible exact RetNum.lexComment)
theorem RetNum.lexStar {a0 a1} : Ret NextNN (lexStar a0 a1) := by unfold Lexer.lexStar; repeat' nextn1
macro_rules | `(tactic| nextn1) => `(tactic| with_reducible exact RetNum.lexStar)
theorem RetNum.lexBang : Ret NextNN (lexBang) := by unfold Lexer.lexBang; repeat' nextn1
macro_rules | `(tactic| nextn1) => `(tactic| with_reducible exact RetNum.lexBang)
theorem RetNum.lexEqOp : Ret NextNN (lexEqOp) := by unfold Lexer.lexEqOp; repeat' nextn1
macro_rules | `(tactic| nextn1) => `(tactic| with_reducible exact RetNum.lexEqOp)
theorem RetNum.lexEq {a0} : Ret NextNN (lexEq a0) := by unfold Lexer.lexEq; repeat' nextn1
macro_rules | `(tactic| nextn1) => `(tactic| with_reducible exact RetNum.lexEq)
theorem RetNum.lexLtOp {a0 a1 a2} : Ret NextNN (lexLtOp a0 a1 a2) := by unfold Lexer.lexLtOp; repeat' nextn1
macro_rules | `(tactic| nextn1) => `(tactic| with_reducible exact RetNum.lexLtOp)
theorem RetNum.lexLt {a0 a1} : Ret NextNN (lexLt a0 a1) := by unfold Lexer.lexLt; repeat' nextn1
macro_rules | `(tactic| nextn1) => `(tactic| with_reducible exact RetNum.lexLt)
theorem RetNum.lexGt : Ret NextNN (lexGt) := by unfold Lexer.lexGt; repeat' nextn1
macro_rules | `(tactic| nextn1) => `(tactic| with_reducible exact RetNum.lexGt)
theorem RetNum.lexQuote {a0 a1 a2} : Ret NextNN (lexQuote a0 a1 a2) := by unfold Lexer.lexQuote; repeat' nextn1
macro_rules | `(tactic| nextn1) => `(tactic| with_reducible exact RetNum.lexQuote)
theorem RetNum.lexBacktick {a0} : Ret NextNN (lexBacktick a0) := by unfold Lexer.lexBacktick; repeat' nextn1
macro_rules | `(tactic| nextn1) => `(tactic| with_reducible exact RetNum.lexBacktick)
theorem RetNum.lexAmp {a0 a1} : Ret NextNN (lexAmp a0 a1) := by unfold Lexer.lexAmp; repeat' nextn1
macro_rules | `(tactic| nextn1) => `(tactic| with_reducible exact RetNum.lexAmp)
theorem RetNum.lexPipe {a0} : Ret NextNN (lexPipe a0) := by unfold Lexer.lexPipe; repeat' nextn1
macro_rules | `(tactic| nextn1) => `(tactic| with_reducible exact RetNum.lexPipe)
theorem RetNum.lexMinus {a0 a1} : Ret NextNN (lexMinus a0 a1) := by unfold Lexer.lexMinus; repeat' nextn1
macro_rules | `(tactic| nextn1) => `(tactic| with_reducible exact RetNum.lexMinus)
theorem RetNum.lexDot3 {a0 a1} : Ret NextNN (lexDot3 a0 a1) := by unfold Lexer.lexDot3; repeat' nextn1
macro_rules | `(tactic| nextn1) => `(tactic| with_reducible exact RetNum.lexDot3)
theorem RetNum.lexDotDigit {a0} : Ret NextNN (lexDotDigit a0) := by unfold Lexer.lexDotDigit; repeat' nextn1
macro_rules | `(tactic| nextn1) => `(tactic| with_reducible exact RetNum.lexDotDigit)
theorem RetNum.lexDot {a0 a1} : Ret NextNN (lexDot a0 a1) := by unfold Lexer.lexDot; repeat' nextn1
macro_rules | `(tactic| nextn1) => `(tactic| with_reducible exact RetNum.lexDot)
theorem RetNum.lexClose {a b} (h : NoNum b) : Ret NextNN (lexClose a b) := by unfold Lexer.lexClose; repeat' nextn1
macro_rules | `(tactic| nextn1) => `(tactic| with_reducible exact RetNum.lexClose (by decide))
theorem RetNum.lexRcurly : Ret NextNN (lexRcurly) := by unfold Lexer.lexRcurly; repeat' nextn1
macro_rules | `(tactic| nextn1) => `(tactic| with_reducible exact RetNum.lexRcurly)
theorem RetNum.lexColon {a0 a1} : Ret NextNN (lexColon a0 a1) := by unfold Lexer.lexColon; repeat' nextn1
macro_rules | `(tactic| nextn1) => `(tactic| with_reducible exact RetNum.lexColon)
theorem RetNum.lexSlash {a0 a1} : Ret NextNN (lexSlash a0 a1) := by unfold Lexer.lexSlash; repeat' nextn1
macro_rules | `(tactic| nextn1) => `(tactic| with_reducible exact RetNum.lexSlash)
theorem RetNum.lexCaret : Ret NextNN (lexCaret) := by unfold Lexer.lexCaret; repeat' nextn1
macro_rules | `(tactic| nextn1) => `(tactic| with_reducible exact RetNum.lexCaret)
theorem RetNum.lexSemi : Ret NextNN (lexSemi) := by unfold Lexer.lexSemi; repeat' nextn1
macro_rules | `(tactic| nextn1) => `(tactic| with_reducible exact RetNum.lexSemi)
theorem RetNum.lexComma : Ret NextNN (lexComma) := by unfold Lexer.lexComma; repeat' nextn1
macro_rules | `(tactic| nextn1) => `(tactic| with_reducible exact RetNum.lexComma)
theorem RetNum.lexTilde : Ret NextNN (lexTilde) := by unfold Lexer.lexTilde; repeat' nextn1
macro_rules | `(tactic| nextn1) => `(tactic| with_reducible exact RetNum.lexTilde)
theorem RetNum.lexLparen {a0} : Ret NextNN (lexLparen a0) := by unfold Lexer.lexLparen; repeat' nextn1
macro_rules | `(tactic| nextn1) => `(tactic| with_reducible exact RetNum.lexLparen)
theorem RetNum.lexLbrack {a0} : Ret NextNN (lexLbrack a0) := by unfold Lexer.lexLbrack; repeat' nextn1
macro_rules | `(tactic| nextn1) => `(tactic| with_reducible exact RetNum.lexLbrack)
theorem RetNum.lexLcurly : Ret NextNN (lexLcurly) := by unfold Lexer.lexLcurly; repeat' nextn1
macro_rules | `(tactic| nextn1) => `(tactic| with_reducible exact RetNum.lexLcurly)
theorem RetNum.lexBackslash : Ret NextNN (lexBackslash) := by unfold Lexer.lexBackslash; repeat' nextn1
macro_rules | `(tactic| nextn1) => `(tactic| with_reducible exact RetNum.lexBackslash)
theorem RetNum.lexUnderscore : Ret NextNN (lexUnderscore) := by unfold Lexer.lexUnderscore; repeat' nextn1
macro_rules | `(tactic| nextn1) => `(tactic| with_reducible exact RetNum.lexUnderscore)
theorem RetNum.lexOther {a0 a1} : Ret NextNN (lexOther a0 a1) := by unfold Lexer.lexOther; repeat' nextn1
macro_rules | `(tactic| nextn1) => `(tactic| with_reducible exact RetNum.lexOther)
theorem RetNum.lexCr : Ret NextNN (lexCr) := by unfold Lexer.lexCr; repeat' nextn1
macro_rules | `(tactic| nextn1) => `(tactic| with_reducible exact RetNum.lexCr)

end Verif.Lexer
