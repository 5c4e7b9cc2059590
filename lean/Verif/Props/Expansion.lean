import Verif.Lemmas.LexDenotes
import Verif.Props.Strings
/-! Property theorems C58 (escape sequences of literals). -/
namespace Verif.Props
open Verif Verif.Lexer Verif.QuoteSpec Verif.EscapeSpec

/-- The tokens of a body: one with the value, none if there is no text. -/
def bodyTokens (body v : Bytes) : List (Tok × Bytes) := if body = [] then [] else [(.tSTRING_CONTENT, v)]

/-- The tokens of a literal with escape sequences, from inside it. -/
theorem expanded_read {x : Ext} {bs body rest v : Bytes} {q : StringLiteral} {s : Lexer} (hl : Lit bs q (body ++ q.term :: rest) s)
    (hf : Expands q.func q.term q.paren) (ht : hasF q.func STR_FUNC_TERM = false) (hli : hasF q.func STR_FUNC_LIST = false)
    (hn : q.nest = 0) (hpa : q.paren ≠ some q.term) (hc : Denotes misread q.term q.paren 0 (body ++ q.term :: rest) v (q.term :: rest)) :
    ∃ ts s', Reads x s ts s' ∧ ts.map view = bodyTokens body v ++ [(closeTok q.func rest, [])] ∧
      Tiles s.buffer.pcur ts s'.buffer.pcur ∧ s'.buffer.d.bytes = bs ∧
      collapse (bs.drop s'.buffer.pcur) = (if closeTok q.func rest = .tLABEL_END then rest.tail else rest) ∧ s'.strterm = none ∧ s'.diagnostics = s.diagnostics := by
  -- the end
  have fin : ∀ s1, Lit bs q (q.term :: rest) s1 → s1.diagnostics = s.diagnostics → ∃ t s', yylex x s1 = .ok (t, s') ∧ view t = (closeTok q.func rest, []) ∧
      t.loc = ⟨s1.buffer.pcur, s'.buffer.pcur⟩ ∧ s'.buffer.d.bytes = bs ∧
      collapse (bs.drop s'.buffer.pcur) = (if closeTok q.func rest = .tLABEL_END then rest.tail else rest) ∧ s'.strterm = none ∧ s'.diagnostics = s.diagnostics := by
    intro s1 hl1 hd1
    cases hlab : (hasF q.func STR_FUNC_LABEL && colonNext rest) with
    | false =>
      obtain ⟨t, s', e, h1, h2, -⟩ := yylex_close (x := x) hl1 hf.r hf.nl ht hli hf.w hn hlab
      have hct : closeTok q.func rest = .tSTRING_END := by unfold closeTok; rw [hlab]; rfl
      rw [hct]
      exact ⟨t, s', e, by rw [h1]; rfl, by rw [h1], h2.at'.d, by rw [h2.at'.txt]; rfl, h2.st, h2.diag.trans hd1⟩
    | true =>
      obtain ⟨t, s', e, h1, h2, -⟩ := yylex_close_label (x := x) hl1 hf.r hf.nl ht hli hf.w hn hlab
      have hct : closeTok q.func rest = .tLABEL_END := by unfold closeTok; rw [hlab]; rfl
      rw [hct]
      exact ⟨t, s', e, by rw [h1]; rfl, by rw [h1], h2.at'.d, by rw [h2.at'.txt]; rfl, h2.st, h2.diag.trans hd1⟩
  cases body with
  | nil =>
    obtain ⟨t, s', e, h1, h2, h3⟩ := fin s hl rfl
    exact ⟨[t], s', .cons e .nil, by simp [h1, bodyTokens], .cons h2 .nil, h3⟩
  | cons c body =>
    have hct : c ≠ q.term := by
      rintro rfl
      generalize hfull : q.term :: body ++ q.term :: rest = full at hc
      generalize hr : q.term :: rest = r at hc
      cases hc with
      | stop =>
        have := congrArg List.length hfull
        rw [← hr] at this
        simp at this
        omega
      | up he =>
        simp only [List.cons_append, List.cons.injEq] at hfull
        rw [← hfull.1] at he
        exact hpa he.symm
      | plain _ h =>
        simp only [List.cons_append, List.cons.injEq] at hfull
        exact h hfull.1.symm
      | escape =>
        simp only [List.cons_append, List.cons.injEq] at hfull
        exact hf.bs hfull.1
    obtain ⟨t, s1, e, h1, h2, h3, -⟩ := yylex_expanded (x := x) hl hf ht hli hn hct hc (by simp)
    obtain ⟨t', s', e', h4, h5, h6⟩ := fin s1 h2 h3
    refine ⟨[t, t'], s', .cons e (.cons e' .nil), ?_, .cons (by rw [h1]) (.cons h5 .nil), h6⟩
    simp only [List.map_cons, List.map_nil, h4, h1, bodyTokens]
    rfl

theorem expands_double (l : Bool) : Expands (doubleQuoted l).func (asc '"') none := by
  cases l <;> refine ⟨?_, ?_, ?_, ?_, ?_, ?_, ?_, ?_, ?_, ?_⟩ <;> decide

theorem expands_of {d : UInt8} (hd : Delimiter d) : Expands str_dquote (closeOf d) (openerOf d) := by
  have k := byte_forall (p := fun d => Delimiter d → closeOf d ≠ 10 ∧ Digits.hex (closeOf d) = none ∧ closeOf d ≠ asc '\\' ∧
    openerOf d ≠ some (asc '\\') ∧ openerOf d ≠ some (asc '#')) (by decide +kernel) d hd
  obtain ⟨k1, k2, k3, k4, k5⟩ := k
  refine ⟨?_, ?_, ?_, ?_, ?_, k1, k2, k3, k4, k5⟩ <;> decide

/-- **C58, double quotes.** In every state outside of literals that the parser can drive the lexer to, if the text from the cursor on is a
literal in double quotes whose text denotes `v`, without interpolation, then the tokens are its start, one content token with exactly `v` (none
if there is no text) and its end, which is the end of a label if a label is possible and a colon follows; nothing is reported. Missing: a
backslash in front of `8` or `9` (see `C58_negation`). -/
theorem C58_double_quoted_partial {name : String} {bs : Bytes} {dec : Option DecoderFn} {s0 s : Lexer} {x : Ext} {ts : List Token} {held : List StrTerm}
    (ha : Admissible name bs dec s0) (h : Driven x s0 ts s held) (hst : s.strterm = none) (hseq : Seq s.buffer) {blanks body v rest : Bytes}
    (hb : ∀ c ∈ blanks, Blank c) (ht : collapse (bs.drop s.buffer.pcur) = blanks ++ asc '"' :: (body ++ asc '"' :: rest))
    (hc : Denotes (ascs "89") (asc '"') none 0 (body ++ asc '"' :: rest) v (asc '"' :: rest)) :
    let label := s.lexState.isLabelPossible s.commandStart && decide (rest.head? = some (asc ':') ∧ rest.tail.head? ≠ some (asc ':'))
    Gives x s blanks.length ((.tSTRING_BEG, []) :: bodyTokens body v ++ [(if label then .tLABEL_END else .tSTRING_END, [])]) (if label then rest.tail else rest) := by
  have hi := Driven.inv ha.inv h
  have hbs := hi.bytes
  obtain ⟨t, s1, e, h1, h2, h3, h4⟩ := yylex_open_double (x := x) ⟨hseq, hbs, ht⟩ hb hst hi.inv.ls hi.inv.le
  have hf : (doubleQuoted (s.lexState.isLabelPossible s.commandStart)).func = str_dquote ||| (if s.lexState.isLabelPossible s.commandStart then str_label else 0) := rfl
  obtain ⟨ts', s', g1, g2, g3, g4, g5, g6, g7⟩ := expanded_read (x := x) (body := body) (rest := rest) (v := v) h2 (expands_double _)
    (by rw [hf]; cases s.lexState.isLabelPossible s.commandStart <;> decide) (by rw [hf]; cases s.lexState.isLabelPossible s.commandStart <;> decide)
    rfl (by simp [doubleQuoted]) hc
  have hlab : hasF (doubleQuoted (s.lexState.isLabelPossible s.commandStart)).func STR_FUNC_LABEL = s.lexState.isLabelPossible s.commandStart := by
    rw [hf]; cases s.lexState.isLabelPossible s.commandStart <;> decide
  have hct : closeTok (doubleQuoted (s.lexState.isLabelPossible s.commandStart)).func rest =
      if s.lexState.isLabelPossible s.commandStart && colonNext rest then .tLABEL_END else .tSTRING_END := by
    unfold closeTok; rw [hlab]
  rw [hct] at g2 g5
  refine ⟨t :: ts', s', .cons e g1, ?_, .cons (by rw [h1]) (by rw [← h3]; exact g3), by rw [g4, hbs], ?_, g6, g7.trans h4⟩
  · simp only [List.map_cons, g2, h1]
    rfl
  · rw [hbs, g5]
    show _ = if (s.lexState.isLabelPossible s.commandStart && colonNext rest) = true then rest.tail else rest
    cases (s.lexState.isLabelPossible s.commandStart && colonNext rest) <;> rfl

/-- **C58, `%Q` and `%x`.** Where an operand is expected, with any ASCII punctuation as delimiter; brackets nest. -/
theorem C58_percent_partial {name : String} {bs : Bytes} {dec : Option DecoderFn} {s0 s : Lexer} {x : Ext} {ts : List Token} {held : List StrTerm}
    (ha : Admissible name bs dec s0) (h : Driven x s0 ts s held) (hst : s.strterm = none) (hseq : Seq s.buffer) (hbeg : s.lexState.isBeg = true)
    {k : UInt8} {t : Tok} (hk : (k, t) = (asc 'Q', Tok.tSTRING_BEG) ∨ (k, t) = (asc 'x', Tok.tXSTRING_BEG)) {d : UInt8} (hd : Delimiter d) {blanks body v rest : Bytes}
    (hb : ∀ c ∈ blanks, Blank c) (ht : collapse (bs.drop s.buffer.pcur) = blanks ++ asc '%' :: k :: d :: (body ++ closeOf d :: rest))
    (hc : Denotes (ascs "89") (closeOf d) (openerOf d) 0 (body ++ closeOf d :: rest) v (closeOf d :: rest)) :
    Gives x s blanks.length ((t, []) :: bodyTokens body v ++ [(.tSTRING_END, [])]) rest := by
  have hi := Driven.inv ha.inv h
  have hbs := hi.bytes
  have hne : openerOf d ≠ some (closeOf d) := byte_forall (p := fun d => openerOf d ≠ some (closeOf d)) (by decide +kernel) d
  have hk' : PercentKind k str_dquote t := by
    rcases hk with h | h <;> (simp only [Prod.mk.injEq] at h; obtain ⟨rfl, rfl⟩ := h)
    · exact .Q
    · exact .x
  obtain ⟨tok, s1, e, h1, h2, h3, h4⟩ := yylex_open_percent (x := x) hk' hd ⟨hseq, hbs, ht⟩ hb hbeg hst hi.inv.ls hi.inv.le
  obtain ⟨ts', s', g1, g2, g3, g4, g5, g6, g7⟩ := expanded_read (x := x) (body := body) (rest := rest) (v := v) h2 (expands_of hd) (by dsimp only; decide) (by dsimp only; decide) rfl hne hc
  have hct : closeTok str_dquote rest = .tSTRING_END := by
    unfold closeTok; rw [show hasF str_dquote STR_FUNC_LABEL = false by decide]; rfl
  dsimp only at g2 g5
  rw [hct] at g2 g5
  refine ⟨tok :: ts', s', .cons e g1, ?_, .cons (by rw [h1]) (by rw [← h3]; exact g3), by rw [g4, hbs], ?_, g6, g7.trans h4⟩
  · simp only [List.map_cons, g2, h1]
    rcases hk with h | h <;> (simp only [Prod.mk.injEq] at h; obtain ⟨rfl, rfl⟩ := h) <;> rfl
  · rw [hbs, g5]; rfl

/-- **C58, `%` without a letter.** -/
theorem C58_bare_partial {name : String} {bs : Bytes} {dec : Option DecoderFn} {s0 s : Lexer} {x : Ext} {ts : List Token} {held : List StrTerm}
    (ha : Admissible name bs dec s0) (h : Driven x s0 ts s held) (hst : s.strterm = none) (hseq : Seq s.buffer) (hbeg : s.lexState.isBeg = true)
    {d : UInt8} (hd : Delimiter d) {blanks body v rest : Bytes}
    (hb : ∀ c ∈ blanks, Blank c) (ht : collapse (bs.drop s.buffer.pcur) = blanks ++ asc '%' :: d :: (body ++ closeOf d :: rest))
    (hc : Denotes (ascs "89") (closeOf d) (openerOf d) 0 (body ++ closeOf d :: rest) v (closeOf d :: rest)) :
    Gives x s blanks.length ((.tSTRING_BEG, []) :: bodyTokens body v ++ [(.tSTRING_END, [])]) rest := by
  have hi := Driven.inv ha.inv h
  have hbs := hi.bytes
  have hne : openerOf d ≠ some (closeOf d) := byte_forall (p := fun d => openerOf d ≠ some (closeOf d)) (by decide +kernel) d
  obtain ⟨tok, s1, e, h1, h2, h3, h4⟩ := yylex_open_bare (x := x) hd ⟨hseq, hbs, ht⟩ hb hbeg hst hi.inv.ls hi.inv.le
  obtain ⟨ts', s', g1, g2, g3, g4, g5, g6, g7⟩ := expanded_read (x := x) (body := body) (rest := rest) (v := v) h2 (expands_of hd) (by dsimp only; decide) (by dsimp only; decide) rfl hne hc
  have hct : closeTok str_dquote rest = .tSTRING_END := by
    unfold closeTok; rw [show hasF str_dquote STR_FUNC_LABEL = false by decide]; rfl
  dsimp only at g2 g5
  rw [hct] at g2 g5
  refine ⟨tok :: ts', s', .cons e g1, ?_, .cons (by rw [h1]) (by rw [← h3]; exact g3), by rw [g4, hbs], ?_, g6, g7.trans h4⟩
  · simp only [List.map_cons, g2, h1]
    rfl
  · rw [hbs, g5]; rfl

/-- **C58, backticks**, where they do not name a method. -/
theorem C58_backtick_partial {name : String} {bs : Bytes} {dec : Option DecoderFn} {s0 s : Lexer} {x : Ext} {ts : List Token} {held : List StrTerm}
    (ha : Admissible name bs dec s0) (h : Driven x s0 ts s held) (hst : s.strterm = none) (hseq : Seq s.buffer)
    (hfn : s.lexState.isSome EXPR_FNAME = false) (hdot : s.lexState.isSome EXPR_DOT = false) {blanks body v rest : Bytes}
    (hb : ∀ c ∈ blanks, Blank c) (ht : collapse (bs.drop s.buffer.pcur) = blanks ++ asc '`' :: (body ++ asc '`' :: rest))
    (hc : Denotes (ascs "89") (asc '`') none 0 (body ++ asc '`' :: rest) v (asc '`' :: rest)) :
    Gives x s blanks.length ((.tXSTRING_BEG, []) :: bodyTokens body v ++ [(.tSTRING_END, [])]) rest := by
  have hi := Driven.inv ha.inv h
  have hbs := hi.bytes
  obtain ⟨tok, s1, e, h1, h2, h3, h4⟩ := yylex_open_backtick (x := x) ⟨hseq, hbs, ht⟩ hb hfn hdot hst hi.inv.ls hi.inv.le
  obtain ⟨ts', s', g1, g2, g3, g4, g5, g6, g7⟩ := expanded_read (x := x) (body := body) (rest := rest) (v := v) h2 (expands_of (d := asc '`') (by decide)) (by decide) (by decide) rfl (by decide) hc
  have hct : closeTok str_xquote rest = .tSTRING_END := by
    unfold closeTok; rw [show hasF str_xquote STR_FUNC_LABEL = false by decide]; rfl
  dsimp only at g2 g5
  rw [hct] at g2 g5
  refine ⟨tok :: ts', s', .cons e g1, ?_, .cons (by rw [h1]) (by rw [← h3]; exact g3), by rw [g4, hbs], ?_, g6, g7.trans h4⟩
  · simp only [List.map_cons, g2, h1]
    rfl
  · rw [hbs, g5]; rfl

/-- `` `ls \x41 # `` with a final number sign. -/
example : Gives asciiExt (startOf (ascs "`\\x41#`;") (by decide +kernel)) 0 [(.tXSTRING_BEG, []), (.tSTRING_CONTENT, ascs "A#"), (.tSTRING_END, [])] (ascs ";") := by
  refine C58_backtick_partial (blanks := []) (body := ascs "\\x41#") (v := ascs "A#") (rest := ascs ";") (name := "(eval)")
    ⟨startOf_new _ _, by decide, by simp⟩ .start (by decide +kernel) (seq_start _) (by decide +kernel) (by decide +kernel) (by simp) (by decide +kernel) ?_
  refine .escape (w := ascs "A") (text' := ascs "#`;") (.byte (.hex (ds := ascs "41") ⟨by decide, by decide, by decide, .inl (by decide)⟩)) ?_
  exact .plain (by simp) (by decide) (by decide) (fun _ d h => by simp [ascs] at h; subst h; decide) (.stop (by simp))

/-- `%<\s\e>` -/
example : Gives asciiExt (startOf (ascs "%<\\s\\e>") (by decide +kernel)) 0 [(.tSTRING_BEG, []), (.tSTRING_CONTENT, [32, 27]), (.tSTRING_END, [])] [] := by
  refine C58_bare_partial (d := asc '<') (blanks := []) (body := ascs "\\s\\e") (v := [32, 27]) (rest := []) (name := "(eval)")
    ⟨startOf_new _ _, by decide, by simp⟩ .start (by decide +kernel) (seq_start _) (by decide +kernel) (by decide) (by simp) (by decide +kernel) ?_
  exact .escape (w := [32]) (.byte (.letter (by decide))) (.escape (w := [27]) (.byte (.letter (by decide))) (.stop (by decide)))

def expanded1 : Lexer := startOf (ascs "{ \"a\\t\\C-\\M-x\\101#" ++ [0xC3, 0xA9] ++ ascs "\": 1}") (by decide +kernel)

/-- `{ "a\t\C-\M-x\101#é": 1}` after the brace: a letter, both prefixes, an octal number, a number sign. -/
example : Gives asciiExt (after expanded1) 1
    [(.tSTRING_BEG, []), (.tSTRING_CONTENT, ascs "a\t" ++ [0x98] ++ ascs "A#" ++ [0xC3, 0xA9]), (.tLABEL_END, [])] (ascs " 1}") := by
  have ha : Admissible "(eval)" (ascs "{ \"a\\t\\C-\\M-x\\101#" ++ [0xC3, 0xA9] ++ ascs "\": 1}") none
    expanded1 := ⟨startOf_new _ _, by decide, by simp⟩
  obtain ⟨ts, hdr⟩ : ∃ ts, Driven asciiExt expanded1 ts
    (after expanded1) [] := driven_after .start (t := .tLBRACE) (by decide +kernel) (by decide)
  have hi := Driven.inv ha.inv hdr
  have hd : Denotes (ascs "89") (asc '"') none 0 (ascs "a\\t\\C-\\M-x\\101#" ++ [0xC3, 0xA9] ++ asc '"' :: ascs ": 1}") (ascs "a\t" ++ [0x98] ++ ascs "A#" ++ [0xC3, 0xA9])
      (asc '"' :: ascs ": 1}") := by
    refine .plain (by simp) (by decide) (by decide) (fun e => absurd e (by decide)) ?_
    refine .escape (w := [9]) (.byte (.letter (by decide))) ?_
    refine .escape (w := [0x98]) (.byte (.controlOf (p := ascs "C-") (v := 0xf8) (by decide) (by decide) (.alt (c := asc 'x') (by decide) (by decide)))) ?_
    refine .escape (w := [65]) (.byte (.octal (ds := ascs "101") ⟨by decide, by decide, by decide, .inl (by decide)⟩)) ?_
    refine .plain (by simp) (by decide) (by decide) (fun _ d h => by simp at h; subst h; decide) ?_
    refine .plain (by simp) (by decide) (by decide) (fun e => absurd e (by decide)) ?_
    refine .plain (by simp) (by decide) (by decide) (fun e => absurd e (by decide)) ?_
    exact .stop (by simp)
  have := C58_double_quoted_partial (blanks := ascs " ") (rest := ascs ": 1}") ha hdr (by decide +kernel)
    ⟨hi.inv.good, by decide +kernel, by decide +kernel, by decide +kernel⟩ (fun c hc => .inl (by simpa [ascs] using hc)) (by decide +kernel) hd
  have hl : ((after expanded1).lexState.isLabelPossible
      (after expanded1).commandStart &&
      decide ((ascs ": 1}").head? = some (asc ':') ∧ (ascs ": 1}").tail.head? ≠ some (asc ':'))) = true := by decide +kernel
  dsimp only at this
  rw [hl] at this
  exact this

/-- `%Q(({)\<line end>\u{41 e9}\u0042)` -/
example : Gives asciiExt (startOf (ascs "%Q(({)\\\n\\u{41 e9}\\u0042)") (by decide +kernel)) 0
    [(.tSTRING_BEG, []), (.tSTRING_CONTENT, ascs "({)A" ++ [0xC3, 0xA9] ++ ascs "B"), (.tSTRING_END, [])] [] := by
  refine C58_percent_partial (k := asc 'Q') (d := asc '(') (blanks := []) (body := ascs "({)\\\n\\u{41 e9}\\u0042") (v := ascs "({)A" ++ [0xC3, 0xA9] ++ ascs "B") (rest := []) (name := "(eval)")
    ⟨startOf_new _ _, by decide, by simp⟩ .start (by decide +kernel) (seq_start _) (by decide +kernel) (.inl rfl) (by decide)
    (by simp) (by decide +kernel) ?_
  refine .up rfl (.plain (by decide) (by decide) (by decide) (fun e => absurd e (by decide)) (.down (by decide) ?_))
  refine .escape (w := []) .join ?_
  refine .escape (w := ascs "A" ++ [0xC3, 0xA9]) (text' := ascs "\\u0042)") (.codes (sp := []) (text := ascs "41 e9}\\u0042)") (ns := [0x41, 0xe9]) (by simp)
    (.cons (ds := ascs "41") (sp := ascs " ") (by decide) (by decide) (by decide) (by decide) (fun c h => .inl (by simp [ascs] at h; rw [h]; rfl)) (by decide)
      (.last (ds := ascs "e9") (sp := []) (by decide) (by decide) (by decide) (by decide) (by simp)))) ?_
  exact .escape (w := ascs "B") (text' := ascs ")") (.four (ds := ascs "0042") (by decide) (by decide) (by decide)) (.stop (by decide))

/-- **C58, negation.** A backslash in front of `8` or `9` should be dropped (they are no octal digits and have no meaning), but it gives a
byte 0 in front of the digit; nothing is reported. -/
theorem C58_negation :
    Denotes [] (asc '"') none 0 (ascs "\\8\"") (ascs "8") (ascs "\"") ∧
    valued (ascs "\"\\8\"") = .ok [(.tSTRING_BEG, ascs "\"", 0, 1), (.tSTRING_CONTENT, 0 :: ascs "8", 1, 3), (.tSTRING_END, ascs "\"", 3, 4)] ∧
    reports (ascs "\"\\8\"") = .ok 0 := by
  refine ⟨?_, by decide +kernel, by decide +kernel⟩
  exact .escape (w := [asc '8']) (.byte (.itself ⟨by decide, by decide, by decide, by simp⟩)) (.stop (by simp))

/-! ### Writing a value -/

/-- The digits of a byte. -/
def hexOf (c : UInt8) : Bytes := [(ascs "0123456789ABCDEF").getD (c.toNat / 16) 0, (ascs "0123456789ABCDEF").getD (c.toNat % 16) 0]

/-- Writing a value between double quotes: printable ASCII as it is, but for quotes, backslashes and number signs, every other byte with its
two hexadecimal digits. -/
def dump (v : Bytes) : Bytes := v.flatMap fun c => if 32 ≤ c ∧ c ≤ 126 ∧ c ∉ ascs "\"\\#" then [c] else ascs "\\x" ++ hexOf c

theorem dump_denotes (v : Bytes) : Denotes (ascs "89") (asc '"') none 0 (dump v ++ [asc '"']) v [asc '"'] := by
  induction v with
  | nil => exact .stop (by simp)
  | cons c v ih =>
    have e : dump (c :: v) = (if 32 ≤ c ∧ c ≤ 126 ∧ c ∉ ascs "\"\\#" then [c] else ascs "\\x" ++ hexOf c) ++ dump v := by simp [dump]
    rw [e]
    split
    · rename_i h
      have hm : c ≠ asc '"' ∧ c ≠ asc '\\' ∧ c ≠ asc '#' := by
        refine ⟨?_, ?_, ?_⟩ <;> (rintro rfl; exact absurd h.2.2 (by decide))
      exact .plain (by simp) hm.1 hm.2.1 (fun e => absurd e hm.2.2) ih
    · have k := byte_forall (p := fun c => (∀ d ∈ hexOf c, (EscapeSpec.hex d).isSome = true) ∧ UInt8.ofNat (value 16 EscapeSpec.hex (hexOf c)) = c) (by decide +kernel) c
      have hb : Byte (ascs "89") false false (asc 'x' :: (hexOf c ++ (dump v ++ [asc '"']))) c (dump v ++ [asc '"']) := by
        have := Byte.hex (without := ascs "89") (m := false) (k := false) (ds := hexOf c) (rest := dump v ++ [asc '"']) ⟨k.1, by simp [hexOf], by simp [hexOf], .inl (by simp [hexOf])⟩
        rwa [k.2] at this
      have := Denotes.escape (depth := 0) (close := asc '"') (opener := none) (.byte hb) ih
      have e2 : (ascs "\\x" ++ hexOf c ++ dump v ++ [asc '"'] : Bytes) = asc '\\' :: asc 'x' :: (hexOf c ++ (dump v ++ [asc '"'])) := by
        simp [ascs]
      rw [e2]
      exact this

theorem collapse_no_cr {w : Bytes} (h : ∀ c ∈ w, c ≠ 13) : collapse w = w := by
  induction w with
  | nil => simp [collapse]
  | cons c w ih =>
    rw [collapse.eq_2 c w fun r h1 _ => h c (by simp) h1, ih fun c hc => h c (by simp [hc])]

theorem dump_no_cr (v : Bytes) : ∀ c ∈ dump v, c ≠ 13 := by
  intro c hc
  simp only [dump, List.mem_flatMap] at hc
  obtain ⟨d, -, hd⟩ := hc
  split at hd
  · rename_i h
    simp only [List.mem_singleton] at hd
    subst hd
    rintro rfl
    exact absurd h.1 (by decide)
  · exact byte_forall (p := fun d => ∀ c ∈ ascs "\\x" ++ hexOf d, c ≠ 13) (by decide +kernel) d c hd

/-- **C58, round trip.** Any bytes, written between double quotes with hexadecimal escapes, come back from a new lexer as the value of one
content token. -/
theorem C58_roundtrip {name : String} {v : Bytes} {x : Ext} {s0 : Lexer}
    (h0 : Lexer.new name (asc '"' :: (dump v ++ [asc '"'])) none = .ok s0) (hsmall : (asc '"' :: (dump v ++ [asc '"'])).length < 2 ^ 31) :
    Gives x s0 0 ((.tSTRING_BEG, []) :: contentTokens v ++ [(.tSTRING_END, [])]) [] := by
  have ha : Admissible name (asc '"' :: (dump v ++ [asc '"'])) none s0 := ⟨h0, hsmall, by simp⟩
  obtain ⟨b, eb, hf⟩ := new_fresh name (asc '"' :: (dump v ++ [asc '"'])) none
  have hs : s0.buffer = b ∧ s0.strterm = none := by
    simp only [Lexer.new, eb, Bind.bind, Except.bind, Pure.pure, Except.pure, Except.ok.injEq] at h0
    rw [← h0]; exact ⟨rfl, rfl⟩
  have hpc : s0.buffer.pcur = 0 := by
    rw [hs.1, hf.pos]
    rcases hf.bom with h | h
    · exact h.1
    · exact absurd h.2 (by rintro ⟨w, hw⟩; simp only [List.cons_append, List.cons.injEq] at hw; exact absurd hw.1 (by decide))
  have := C58_double_quoted_partial (x := x) (blanks := []) (body := dump v) (v := v) (rest := []) ha .start hs.2 (by rw [hs.1]; exact fresh_seq hf) (by simp)
    (by
      rw [hpc]
      refine collapse_no_cr fun c hc => ?_
      simp only [List.drop_zero, List.mem_cons, List.mem_append, List.not_mem_nil, or_false] at hc
      rcases hc with rfl | hc | rfl
      · decide
      · exact dump_no_cr v c hc
      · decide) (dump_denotes v)
  have hb : bodyTokens (dump v) v = contentTokens v := by
    unfold bodyTokens contentTokens
    cases v with
    | nil => rfl
    | cons c v =>
      rw [if_neg, if_neg (by simp)]
      have e : dump (c :: v) = (if 32 ≤ c ∧ c ≤ 126 ∧ c ∉ ascs "\"\\#" then [c] else ascs "\\x" ++ hexOf c) ++ dump v := by simp [dump]
      rw [e]
      split <;> simp [ascs]
  simpa [hb] using this

/-- Bytes that are not a text: a quote, a line feed, CR LF, a backslash and a lone byte 255. -/
example : Gives asciiExt (startOf (asc '"' :: (dump (ascs "a\"#{1}\\" ++ [10, 13, 10, 0xFF]) ++ [asc '"'])) (by decide +kernel)) 0
    [(.tSTRING_BEG, []), (.tSTRING_CONTENT, ascs "a\"#{1}\\" ++ [10, 13, 10, 0xFF]), (.tSTRING_END, [])] [] :=
  C58_roundtrip (v := ascs "a\"#{1}\\" ++ [10, 13, 10, 0xFF]) (name := "(eval)") (startOf_new _ _) (by decide)

end Verif.Props
