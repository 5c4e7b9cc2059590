import Verif.Props.Expansion
import Verif.Lemmas.LexOpTable
import Verif.Lemmas.LexOpName
/-!
C59: operators and punctuation are read by the longest match, as the tables of `Verif/Spec/Operators.lean` say.
-/
namespace Verif.Props
open Verif.Lexer
open OpSpec

/-- The next call of the lexer gives the operator `op` after the blanks: the token has the type `t`, its value is its text, it covers exactly
its text, `rest` follows, and the state afterwards fits; no more than warnings are reported. -/
def ReadsOperator (x : Ext) (s : Lexer) (blanks : Bytes) (op : String) (t : Tok) (pl : Place) (rest : Bytes) : Prop :=
  let p := s.buffer.pcur + blanks.length
  ∃ s', yylex x s = .ok (⟨t, ascs op, ⟨p, p + op.length⟩⟩, s') ∧ s'.buffer.pcur = p + op.length ∧ s'.buffer.d.bytes = s.buffer.d.bytes ∧
    collapse (s.buffer.d.bytes.drop s'.buffer.pcur) = rest ∧ pl.Is s'.lexState ∧ s'.strterm = none ∧ Seq s'.buffer ∧
    ∃ ds, s'.diagnostics = s.diagnostics ++ ds ∧ ∀ d ∈ ds, d.level = .warning

theorem readsOperator_of {x : Ext} {s : Lexer} {bs blanks rest : Bytes} {op : String} {t : Tok} {pl : Place} (hbs : s.buffer.d.bytes = bs) (hlen : (ascs op).length = op.length)
    (h : Wp (yylex x) (OpToken bs (ascs op) rest t pl (s.buffer.pcur + blanks.length) s) s) : ReadsOperator x s blanks op t pl rest := by
  obtain ⟨r, s', e, rfl, h1, h2, h3, -, -, h4, h5⟩ := h
  rw [hlen] at e h2
  exact ⟨s', e, h2, by rw [h1.d, hbs], by rw [hbs]; exact h1.txt, h5, h3, h1.seq, h4⟩

/-- **C59, after an operand.** In every state outside of literals that the parser can drive the lexer to and in which an operand was just read:
if the text from the cursor on is an operator of the table, after blanks, and no longer operator stands there, then the next token is that
operator, with the type of the table. -/
theorem C59_infix {name : String} {bs : Bytes} {dec : Option DecoderFn} {s0 s : Lexer} {x : Ext} {ts : List Token} {held : List StrTerm}
    (ha : Admissible name bs dec s0) (h : Driven x s0 ts s held) (hst : s.strterm = none) (hseq : Seq s.buffer) (hop : AfterOperand s.lexState)
    {op : String} {t : Tok} {pl : Place} (ho : (op, t, pl) ∈ infixes) {blanks rest : Bytes} (hb : ∀ c ∈ blanks, Blank c)
    (ht : collapse (bs.drop s.buffer.pcur) = blanks ++ (ascs op ++ rest)) (hl : Longest op rest)
    (hu : UsualInfix op rest s.lexState (s.context.get .inArgdef)) : ReadsOperator x s blanks op t pl rest := by
  have hi := Driven.inv ha.inv h
  exact readsOperator_of hi.bytes (by simp [ascs, String.length_toList]) (yylex_infix (o := (op, t, pl)) ⟨hseq, hi.bytes, ht⟩ (.of hb) ho hop hl hu hst hi.inv.ls hi.inv.le)

/-- **C59, after a name.** Likewise after a name that may be a command, with what is taken for its first argument there excepted. -/
theorem C59_argument {name : String} {bs : Bytes} {dec : Option DecoderFn} {s0 s : Lexer} {x : Ext} {ts : List Token} {held : List StrTerm}
    (ha : Admissible name bs dec s0) (h : Driven x s0 ts s held) (hst : s.strterm = none) (hseq : Seq s.buffer) (hop : AfterName s.lexState)
    {op : String} {t : Tok} {pl : Place} (ho : (op, t, pl) ∈ infixes) {blanks rest : Bytes} (hb : ∀ c ∈ blanks, Blank c)
    (ht : collapse (bs.drop s.buffer.pcur) = blanks ++ (ascs op ++ rest)) (hl : Longest op rest)
    (hu : UsualArgument op blanks rest (s.context.get .inArgdef)) : ReadsOperator x s blanks op t pl rest := by
  have hi := Driven.inv ha.inv h
  exact readsOperator_of hi.bytes (by simp [ascs, String.length_toList]) (yylex_argument (o := (op, t, pl)) ⟨hseq, hi.bytes, ht⟩ hb ho hop hl hu hst hi.inv.ls hi.inv.le)

/-- **C59, before an operand.** Likewise where an operand is expected, with the table of operators that stand before their operand. -/
theorem C59_prefix {name : String} {bs : Bytes} {dec : Option DecoderFn} {s0 s : Lexer} {x : Ext} {ts : List Token} {held : List StrTerm}
    (ha : Admissible name bs dec s0) (h : Driven x s0 ts s held) (hst : s.strterm = none) (hseq : Seq s.buffer) (hop : BeforeOperand s.lexState)
    {op : String} {t : Tok} {pl : Place} (ho : (op, t, pl) ∈ prefixes) {blanks rest : Bytes} (hb : ∀ c ∈ blanks, Blank c)
    (ht : collapse (bs.drop s.buffer.pcur) = blanks ++ (ascs op ++ rest)) (hl : Longest op rest)
    (hu : UsualPrefix op rest (s.context.get .inArgdef) (s.lparBeg + 1 == s.parenNest)) : ReadsOperator x s blanks op t pl rest := by
  have hi := Driven.inv ha.inv h
  exact readsOperator_of hi.bytes (by simp [ascs, String.length_toList]) (yylex_prefix (o := (op, t, pl)) ⟨hseq, hi.bytes, ht⟩ (.of hb) ho hop hl hu hst hi.inv.ls hi.inv.le)

/-- **C59, names of methods.** Likewise where the name of a method is expected, after a dot or after `def`, `alias`, `undef` and the colon of a symbol,
with the table of operators that are names. -/
theorem C59_method_name {name : String} {bs : Bytes} {dec : Option DecoderFn} {s0 s : Lexer} {x : Ext} {ts : List Token} {held : List StrTerm}
    (ha : Admissible name bs dec s0) (h : Driven x s0 ts s held) (hst : s.strterm = none) (hseq : Seq s.buffer) (hop : BeforeName s.lexState)
    {op : String} {t : Tok} (ho : (op, t) ∈ methodNames) {blanks rest : Bytes} (hb : ∀ c ∈ blanks, Blank c)
    (ht : collapse (bs.drop s.buffer.pcur) = blanks ++ (ascs op ++ rest)) (hl : LongestName op rest)
    (hu : UsualName op rest s.lexState) : ReadsOperator x s blanks op t .argument rest := by
  have hi := Driven.inv ha.inv h
  exact readsOperator_of hi.bytes (by simp [ascs, String.length_toList]) (yylex_methodName (o := (op, t)) ⟨hseq, hi.bytes, ht⟩ (.of hb) ho hop hl hu hst hi.inv.ls hi.inv.le)

/-- **C59, the exception.** `!@` and `~@` are other ways to write the names `!` and `~`, but the value of the token, and so the name in the tree, has
the `@`. -/
theorem C59_not_for_at_names {name : String} {bs : Bytes} {dec : Option DecoderFn} {s0 s : Lexer} {x : Ext} {ts : List Token} {held : List StrTerm}
    (ha : Admissible name bs dec s0) (h : Driven x s0 ts s held) (hst : s.strterm = none) (hseq : Seq s.buffer) (hop : BeforeName s.lexState)
    {blanks rest : Bytes} (hb : ∀ c ∈ blanks, Blank c) :
    (collapse (bs.drop s.buffer.pcur) = blanks ++ (ascs "!@" ++ rest) → ReadsOperator x s blanks "!@" .tBANG .argument rest) ∧
    (collapse (bs.drop s.buffer.pcur) = blanks ++ (ascs "~@" ++ rest) → ReadsOperator x s blanks "~@" .tTILDE .argument rest) := by
  have hi := Driven.inv ha.inv h
  exact ⟨fun ht => readsOperator_of hi.bytes (by decide) (yylex_atName (c := asc '!') (by decide) ⟨hseq, hi.bytes, ht⟩ (.of hb) hop hst hi.inv.ls hi.inv.le),
    fun ht => readsOperator_of hi.bytes (by decide) (yylex_atName (c := asc '~') (by decide) ⟨hseq, hi.bytes, ht⟩ (.of hb) hop hst hi.inv.ls hi.inv.le)⟩

/-- **C59, minus before a number.** Where an operand is expected, a minus before a digit is the sign of a number. -/
theorem C59_minus {name : String} {bs : Bytes} {dec : Option DecoderFn} {s0 s : Lexer} {x : Ext} {ts : List Token} {held : List StrTerm}
    (ha : Admissible name bs dec s0) (h : Driven x s0 ts s held) (hst : s.strterm = none) (hseq : Seq s.buffer) (hop : BeforeOperand s.lexState)
    {d : UInt8} (hd : Digit d) {blanks rest : Bytes} (hb : ∀ c ∈ blanks, Blank c)
    (ht : collapse (bs.drop s.buffer.pcur) = blanks ++ (asc '-' :: d :: rest)) : ReadsOperator x s blanks "-" .tUMINUS_NUM .operand (d :: rest) := by
  have hi := Driven.inv ha.inv h
  exact readsOperator_of hi.bytes (by decide) (yylex_minus_num ⟨hseq, hi.bytes, ht⟩ (.of hb) hop hd hst hi.inv.ls hi.inv.le)

theorem longest_iff {op : String} {rest : Bytes} : Longest op rest ↔ infixes.all (fun o => !(ascs o.1).isPrefixOf (ascs op ++ rest) || decide (o.1.length ≤ op.length)) = true := by
  simp only [Longest, List.all_eq_true, Bool.or_eq_true, Bool.not_eq_true', decide_eq_true_eq]
  constructor
  · intro h o ho
    by_cases hp : ascs o.1 <+: ascs op ++ rest
    · exact .inr (h o ho hp)
    · exact .inl (by rw [← Bool.not_eq_true, List.isPrefixOf_iff_prefix]; exact hp)
  · intro h o ho hp
    rcases h o ho with h1 | h1
    · rw [← Bool.not_eq_true, List.isPrefixOf_iff_prefix] at h1
      exact absurd hp h1
    · exact h1

def operator1 : Lexer := startOf (ascs "1 **=-2") (by decide +kernel)

/-- `1 **=-2` after the number: the operator is `**=`, not `*` nor `**`. -/
example : ReadsOperator asciiExt (after operator1) (ascs " ") "**=" .tOP_ASGN .operand (ascs "-2") := by
  have ha : Admissible "(eval)" (ascs "1 **=-2") none operator1 := ⟨startOf_new _ _, by decide, by simp⟩
  obtain ⟨ts, hdr⟩ : ∃ ts, Driven asciiExt operator1 ts (after operator1) [] := driven_after .start (t := .tINTEGER) (by decide +kernel) (by decide)
  have hi := Driven.inv ha.inv hdr
  exact C59_infix ha hdr (by decide +kernel) ⟨hi.inv.good, by decide +kernel, by decide +kernel, by decide +kernel⟩ ⟨by decide +kernel, by decide +kernel⟩
    (by decide) (fun c hc => .inl (by simpa [ascs] using hc)) (by decide +kernel) (longest_iff.2 (by decide +kernel))
    ⟨fun e => absurd e (by decide), by decide, by decide, by decide +kernel⟩

/-- ... and after the operator: the minus is the sign of a number. -/
example : ReadsOperator asciiExt (after (after operator1)) [] "-" .tUMINUS_NUM .operand (ascs "2") := by
  have ha : Admissible "(eval)" (ascs "1 **=-2") none operator1 := ⟨startOf_new _ _, by decide, by simp⟩
  obtain ⟨ts, hdr⟩ : ∃ ts, Driven asciiExt operator1 ts (after operator1) [] := driven_after .start (t := .tINTEGER) (by decide +kernel) (by decide)
  obtain ⟨ts, hdr⟩ : ∃ ts, Driven asciiExt operator1 ts (after (after operator1)) [] := driven_after hdr (t := .tOP_ASGN) (by decide +kernel) (by decide)
  have hi := Driven.inv ha.inv hdr
  exact C59_minus (d := asc '2') ha hdr (by decide +kernel) ⟨hi.inv.good, by decide +kernel, by decide +kernel, by decide +kernel⟩ ⟨by decide +kernel, by decide +kernel⟩
    (by unfold Digit; decide) (by simp) (by decide +kernel)

def operator2 : Lexer := startOf (ascs "3 & &.x") (by decide +kernel)

/-- `3 & &.x` after the first ampersand, where an operand is expected: `&.` would be longer than the prefix `&`, so that the theorem says nothing here;
of the first ampersand it says that it is the binary operator. -/
example : ReadsOperator asciiExt (after operator2) (ascs " ") "&" .tAMPER2 .operand (ascs " &.x") ∧ ¬ Longest "&" (ascs ".x") := by
  have ha : Admissible "(eval)" (ascs "3 & &.x") none operator2 := ⟨startOf_new _ _, by decide, by simp⟩
  obtain ⟨ts, hdr⟩ : ∃ ts, Driven asciiExt operator2 ts (after operator2) [] := driven_after .start (t := .tINTEGER) (by decide +kernel) (by decide)
  have hi := Driven.inv ha.inv hdr
  refine ⟨C59_infix ha hdr (by decide +kernel) ⟨hi.inv.good, by decide +kernel, by decide +kernel, by decide +kernel⟩ ⟨by decide +kernel, by decide +kernel⟩
    (by decide) (fun c hc => .inl (by simpa [ascs] using hc)) (by decide +kernel) (longest_iff.2 (by decide +kernel))
    ⟨fun e => absurd e (by decide), by decide, by decide, by decide +kernel⟩, ?_⟩
  rw [longest_iff]; decide +kernel

def operator3 : Lexer := startOf (ascs "(*!x)") (by decide +kernel)

/-- `(*!x)` after the parenthesis: the star is a splat. -/
example : ReadsOperator asciiExt (after operator3) [] "*" .tSTAR .operand (ascs "!x)") := by
  have ha : Admissible "(eval)" (ascs "(*!x)") none operator3 := ⟨startOf_new _ _, by decide, by simp⟩
  obtain ⟨ts, hdr⟩ : ∃ ts, Driven asciiExt operator3 ts (after operator3) [] := driven_after .start (t := .tLPAREN) (by decide +kernel) (by decide)
  have hi := Driven.inv ha.inv hdr
  exact C59_prefix ha hdr (by decide +kernel) ⟨hi.inv.good, by decide +kernel, by decide +kernel, by decide +kernel⟩ ⟨by decide +kernel, by decide +kernel⟩
    (by decide) (by simp) (by decide +kernel) (longest_iff.2 (by decide +kernel)) ⟨fun e => absurd e (by decide), by decide⟩

def operator4 : Lexer := startOf (ascs "p -1 - x[0]") (by decide +kernel)

/-- `p -1 - x[0]` after the name: the minus is followed by a digit, and the theorem says nothing; after `-1` it is the binary operator. -/
example : ¬ UsualArgument "-" (ascs " ") (ascs "1 - x[0]") false := by
  intro h
  obtain ⟨c, h1, h2⟩ := h.unary (by decide) (by decide)
  obtain rfl : asc '1' = c := by simpa [ascs] using h1
  revert h2; unfold White; decide

/-- ... and after `x`, the bracket is that of an index. -/
example : ReadsOperator asciiExt (after (after (after (after (after operator4))))) [] "[" .tLBRACK2 .operand (ascs "0]") := by
  have ha : Admissible "(eval)" (ascs "p -1 - x[0]") none operator4 := ⟨startOf_new _ _, by decide, by simp⟩
  obtain ⟨ts, hdr⟩ : ∃ ts, Driven asciiExt operator4 ts (after operator4) [] := driven_after .start (t := .tIDENTIFIER) (by decide +kernel) (by decide)
  obtain ⟨ts, hdr⟩ : ∃ ts, Driven asciiExt operator4 ts (after (after operator4)) [] := driven_after hdr (t := .tUMINUS_NUM) (by decide +kernel) (by decide)
  obtain ⟨ts, hdr⟩ : ∃ ts, Driven asciiExt operator4 ts (after (after (after operator4))) [] := driven_after hdr (t := .tINTEGER) (by decide +kernel) (by decide)
  obtain ⟨ts, hdr⟩ : ∃ ts, Driven asciiExt operator4 ts (after (after (after (after operator4)))) [] := driven_after hdr (t := .tMINUS) (by decide +kernel) (by decide)
  obtain ⟨ts, hdr⟩ : ∃ ts, Driven asciiExt operator4 ts (after (after (after (after (after operator4))))) [] := driven_after hdr (t := .tIDENTIFIER) (by decide +kernel) (by decide)
  have hi := Driven.inv ha.inv hdr
  exact C59_argument ha hdr (by decide +kernel) ⟨hi.inv.good, by decide +kernel, by decide +kernel, by decide +kernel⟩ ⟨by decide +kernel, by decide +kernel⟩
    (by decide) (by simp) (by decide +kernel) (longest_iff.2 (by decide +kernel))
    ⟨fun e => absurd rfl e, fun e => absurd rfl e, by decide, fun e => absurd e (by decide), fun e => absurd e (by decide), fun e => absurd e (by decide), by decide +kernel⟩

theorem longestName_iff {op : String} {rest : Bytes} : LongestName op rest ↔
    (infixes.map Prod.fst ++ methodNames.map Prod.fst ++ ["!@", "~@"]).all (fun o => !(ascs o).isPrefixOf (ascs op ++ rest) || decide (o.length ≤ op.length)) = true := by
  simp only [LongestName, List.all_eq_true, Bool.or_eq_true, Bool.not_eq_true', decide_eq_true_eq]
  constructor
  · intro h o ho
    by_cases hp : ascs o <+: ascs op ++ rest
    · exact .inr (h o ho hp)
    · exact .inl (by rw [← Bool.not_eq_true, List.isPrefixOf_iff_prefix]; exact hp)
  · intro h o ho hp
    rcases h o ho with h1 | h1
    · rw [← Bool.not_eq_true, List.isPrefixOf_iff_prefix] at h1
      exact absurd hp h1
    · exact h1

def operator5 : Lexer := startOf (ascs "1.[]=(2)") (by decide +kernel)

/-- `1.[]=(2)` after the dot: the name is `[]=`. -/
example : ReadsOperator asciiExt (after (after operator5)) [] "[]=" .tASET .argument (ascs "(2)") := by
  have ha : Admissible "(eval)" (ascs "1.[]=(2)") none operator5 := ⟨startOf_new _ _, by decide, by simp⟩
  obtain ⟨ts, hdr⟩ : ∃ ts, Driven asciiExt operator5 ts (after operator5) [] := driven_after .start (t := .tINTEGER) (by decide +kernel) (by decide)
  obtain ⟨ts, hdr⟩ : ∃ ts, Driven asciiExt operator5 ts (after (after operator5)) [] := driven_after hdr (t := .tDOT) (by decide +kernel) (by decide)
  have hi := Driven.inv ha.inv hdr
  exact C59_method_name ha hdr (by decide +kernel) ⟨hi.inv.good, by decide +kernel, by decide +kernel, by decide +kernel⟩ ⟨by decide +kernel, by decide +kernel⟩
    (by decide) (by simp) (by decide +kernel) (longestName_iff.2 (by decide +kernel)) ⟨by decide +kernel, fun e => absurd e (by decide)⟩

def operator6 : Lexer := startOf (ascs "def !@; end") (by decide +kernel)

/-- `def !@; end`: the name of the method has the `@`. -/
example : ReadsOperator asciiExt (after operator6) (ascs " ") "!@" .tBANG .argument (ascs "; end") := by
  have ha : Admissible "(eval)" (ascs "def !@; end") none operator6 := ⟨startOf_new _ _, by decide, by simp⟩
  obtain ⟨ts, hdr⟩ : ∃ ts, Driven asciiExt operator6 ts (after operator6) [] := driven_after .start (t := .kDEF) (by decide +kernel) (by decide)
  have hi := Driven.inv ha.inv hdr
  exact (C59_not_for_at_names ha hdr (by decide +kernel) ⟨hi.inv.good, by decide +kernel, by decide +kernel, by decide +kernel⟩ ⟨by decide +kernel, by decide +kernel⟩
    (fun c hc => .inl (by simpa [ascs] using hc))).1 (by decide +kernel)

end Verif.Props
