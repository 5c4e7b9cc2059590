import Verif.Lemmas.LexQuoted
import Verif.Props.Numbers
/-! Property theorems C42, C46 (content of literals without interpolation). -/
namespace Verif.Props
open Verif Verif.Lexer

/-- **C42, negation.** Tokens of a valid UTF-8 source can carry invalid content without a diagnostic: a backslash before a non-ASCII
character in single quotes doubles its first byte, and the first byte of a non-ASCII character is taken for the delimiter after `%q`. -/
theorem C42_negation :
    (Utf8.valid (ascs "'\\" ++ [0xC3, 0xA9] ++ ascs "'") = true ∧
      valued (ascs "'\\" ++ [0xC3, 0xA9] ++ ascs "'") =
        .ok [(.tSTRING_BEG, ascs "'", 0, 1), (.tSTRING_CONTENT, [0x5C, 0xC3, 0x5C, 0xC3, 0xA9], 1, 4), (.tSTRING_END, ascs "'", 4, 5)] ∧
      reports (ascs "'\\" ++ [0xC3, 0xA9] ++ ascs "'") = .ok 0 ∧ Utf8.valid [0x5C, 0xC3, 0x5C, 0xC3, 0xA9] = false) ∧
    (Utf8.valid (ascs "%q" ++ [0xC3, 0xA9] ++ ascs "a" ++ [0xC3, 0xA9]) = true ∧
      (valued (ascs "%q" ++ [0xC3, 0xA9] ++ ascs "a" ++ [0xC3, 0xA9])).toOption.map (List.take 2) =
        some [(.tSTRING_BEG, ascs "%q" ++ [0xC3], 0, 3), (.tSTRING_CONTENT, [0xA9, 0x61], 3, 5)] ∧ Utf8.valid [0xA9, 0x61] = false) := by
  refine ⟨⟨?_, ?_, ?_, ?_⟩, ?_, ?_, ?_⟩ <;> decide +kernel

/-- **C42** for literals with an ASCII delimiter, in sources where no backslash stands before a non-ASCII character: starting at a
character boundary, the content given to the parser is valid UTF-8, in every state the parser can drive the lexer to. -/
theorem C42_content_partial {name : String} {bs : Bytes} {dec : Option DecoderFn} {s0 s : Lexer} {x : Ext} {ts : List Token} {held : List StrTerm}
    (ha : Admissible name bs dec s0) (h : Driven x s0 ts s held) (hv : Utf8.valid bs = true) (hp : PlainEscapes bs)
    {q : StringLiteral} (hq : s.strterm = some (.string q)) (hne : hasF q.func STR_FUNC_EXPAND = false) (hnr : hasF q.func STR_FUNC_REGEXP = false)
    (ht : q.term < 128) (hb : s.buffer.nextline = 0 → Utf8.valid (bs.drop s.buffer.pcur) = true) {t : Token} {s' : Lexer}
    (e : yylex x s = .ok (t, s')) (hc : t.tokenType = .tSTRING_CONTENT) : Utf8.valid t.tokenValue = true := by
  have hi := Driven.inv ha.inv h
  exact yylex_content (x := x) hv hp hne hnr ht hi.inv.good hi.bytes hq hb t s' e hc

def quoted0 : Lexer := startOf (ascs "'" ++ [0xC3, 0xA9] ++ ascs "\\'b'") (by decide +kernel)

/-- `'é\'b'` meets the hypotheses; its content is `é'b`. -/
example : Admissible "(eval)" (ascs "'" ++ [0xC3, 0xA9] ++ ascs "\\'b'") none quoted0 ∧ (∃ ts, Driven asciiExt quoted0 ts (after quoted0) []) ∧
    PlainEscapes (ascs "'" ++ [0xC3, 0xA9] ++ ascs "\\'b'") ∧
    (after quoted0).strterm = some (.string ⟨0, str_squote, none, asc '\'', none⟩) ∧
    Utf8.valid ((ascs "'" ++ [0xC3, 0xA9] ++ ascs "\\'b'").drop (after quoted0).buffer.pcur) = true ∧
    (yylex asciiExt (after quoted0)).toOption.map (fun r => (r.1.tokenType, r.1.tokenValue)) = some (.tSTRING_CONTENT, [0xC3, 0xA9] ++ ascs "'b") := by
  refine ⟨⟨startOf_new _ _, by decide, by simp⟩, driven_after .start (t := .tSTRING_BEG) (by decide +kernel) (by decide), ?_,
    by decide +kernel, by decide +kernel, by decide +kernel⟩
  intro i h1 c h2
  have hl := (List.getElem?_eq_some_iff.1 h2).1
  have key : ∀ i < 6, (ascs "'" ++ [0xC3, 0xA9] ++ ascs "\\'b'")[i]? = some (asc '\\') → ((ascs "'" ++ [0xC3, 0xA9] ++ ascs "\\'b'")[i + 1]?.all (· < 128)) = true := by
    decide +kernel
  have := key i (by have : (ascs "'" ++ [0xC3, 0xA9] ++ ascs "\\'b'").length = 7 := by decide
                    omega) h1
  rw [h2] at this; simpa using this

/-! ### Exact contents -/
open Verif.QuoteSpec

/-- Reading tokens one after another. -/
inductive Reads (x : Ext) : Lexer → List Token → Lexer → Prop
  | nil {s} : Reads x s [] s
  | cons {s s1 s2 t ts} : yylex x s = .ok (t, s1) → Reads x s1 ts s2 → Reads x s (t :: ts) s2

/-- Tokens that cover the bytes from `p` to `q` without a gap. -/
inductive Tiles : Nat → List Token → Nat → Prop
  | nil {p} : Tiles p [] p
  | cons {p q r t ts} : t.loc = ⟨p, q⟩ → Tiles q ts r → Tiles p (t :: ts) r

/-- The kind of a token and, for content, its value. -/
def view (t : Token) : Tok × Bytes := (t.tokenType, if t.tokenType = .tSTRING_CONTENT then t.tokenValue else [])

theorem content_ne {close : UInt8} {opener : Option UInt8} {words : Bool} {depth n : Nat} {c : UInt8} {text v rest : Bytes}
    (h : content close opener words depth (c :: text) = some (v, n, rest)) (h1 : ¬ (c = close ∧ depth = 0)) (h2 : ¬ (words = true ∧ Space c)) : v ≠ [] := by
  have k : ∀ {w : Bytes} {r : Option (Bytes × Nat × Bytes)}, w ≠ [] → add w r = some (v, n, rest) → v ≠ [] := by
    intro w r hw h
    obtain ⟨v', -, rfl⟩ := add_some h
    simp [hw]
  rw [content_cons] at h
  split at h
  · exact k (by simp) h
  split at h
  · rename_i e
    rw [if_neg (fun h => h1 ⟨e, h⟩)] at h
    exact k (by simp) h
  split at h
  · cases text with
    | nil => cases h
    | cons d text =>
      dsimp only at h
      split at h <;> exact k (by simp) h
  · exact k (by simp) h

theorem content_stops {close : UInt8} {opener : Option UInt8} {words : Bool} : ∀ (k : Nat) {depth n : Nat} {text v rest : Bytes}, text.length ≤ k →
    content close opener words depth text = some (v, n, rest) → ∃ c r, rest = c :: r ∧ ((c = close ∧ n = 0) ∨ (words = true ∧ Space c)) := by
  intro k
  induction k with
  | zero =>
    intro depth n text v rest hk h
    cases text with
    | nil => simp [content] at h
    | cons c t => simp at hk
  | succ k ih =>
    intro depth n text v rest hk h
    have step : ∀ {d : Nat} {w t : Bytes}, t.length ≤ k → add w (content close opener words d t) = some (v, n, rest) →
        ∃ c r, rest = c :: r ∧ ((c = close ∧ n = 0) ∨ (words = true ∧ Space c)) := by
      intro d w t h1 h2
      obtain ⟨v', h3, -⟩ := add_some h2
      exact ih h1 h3
    cases text with
    | nil => simp [content] at h
    | cons c t =>
      simp only [List.length_cons] at hk
      rw [content_cons] at h
      split at h
      · exact step (by omega) h
      split at h
      · rename_i e
        split at h
        · simp only [Option.some.injEq, Prod.mk.injEq] at h
          exact ⟨c, t, h.2.2.symm, .inl ⟨e, h.2.1.symm⟩⟩
        · exact step (by omega) h
      split at h
      · cases t with
        | nil => cases h
        | cons d t =>
          simp only [List.length_cons] at hk
          dsimp only at h
          split at h <;> exact step (by omega) h
      split at h
      · rename_i e
        simp only [Option.some.injEq, Prod.mk.injEq] at h
        exact ⟨c, t, h.2.2.symm, .inr e⟩
      · exact step (by omega) h

/-- The tokens of a literal in a row, from inside it. -/
theorem plain_read {x : Ext} {bs body rest v : Bytes} {q : StringLiteral} {s : Lexer} (hl : Lit bs q (body ++ q.term :: rest) s)
    (hf : Delim q.func q.term q.paren) (ht : hasF q.func STR_FUNC_TERM = false) (hli : hasF q.func STR_FUNC_LIST = false)
    (hw : hasF q.func STR_FUNC_QWORDS = false) (hn : q.nest = 0) (hpa : q.paren ≠ some q.term)
    (hc : content q.term q.paren false 0 (body ++ q.term :: rest) = some (v, 0, q.term :: rest)) (hp : AsciiEscapes body) :
    ∃ ts s', Reads x s ts s' ∧ ts.map view = (if v = [] then [] else [(.tSTRING_CONTENT, v)]) ++ [(closeTok q.func rest, [])] ∧
      Tiles s.buffer.pcur ts s'.buffer.pcur ∧ s'.buffer.d.bytes = bs ∧
      collapse (bs.drop s'.buffer.pcur) = (if closeTok q.func rest = .tLABEL_END then rest.tail else rest) ∧ s'.strterm = none ∧ s'.diagnostics = s.diagnostics := by
  -- the end
  have fin : ∀ s1, Lit bs q (q.term :: rest) s1 → s1.diagnostics = s.diagnostics → ∃ t s', yylex x s1 = .ok (t, s') ∧ view t = (closeTok q.func rest, []) ∧
      t.loc = ⟨s1.buffer.pcur, s'.buffer.pcur⟩ ∧ s'.buffer.d.bytes = bs ∧
      collapse (bs.drop s'.buffer.pcur) = (if closeTok q.func rest = .tLABEL_END then rest.tail else rest) ∧ s'.strterm = none ∧ s'.diagnostics = s.diagnostics := by
    intro s1 hl1 hd1
    cases hlab : (hasF q.func STR_FUNC_LABEL && colonNext rest) with
    | false =>
      obtain ⟨t, s', e, h1, h2, -⟩ := yylex_close (x := x) hl1 hf.r hf.nl ht hli hw hn hlab
      have hct : closeTok q.func rest = .tSTRING_END := by unfold closeTok; rw [hlab]; rfl
      rw [hct]
      exact ⟨t, s', e, by rw [h1]; rfl, by rw [h1], h2.at'.d, by rw [h2.at'.txt]; rfl, h2.st, h2.diag.trans hd1⟩
    | true =>
      obtain ⟨t, s', e, h1, h2, -⟩ := yylex_close_label (x := x) hl1 hf.r hf.nl ht hli hw hn hlab
      have hct : closeTok q.func rest = .tLABEL_END := by unfold closeTok; rw [hlab]; rfl
      rw [hct]
      exact ⟨t, s', e, by rw [h1]; rfl, by rw [h1], h2.at'.d, by rw [h2.at'.txt]; rfl, h2.st, h2.diag.trans hd1⟩
  cases hb : body ++ q.term :: rest with
  | nil => simp at hb
  | cons c text =>
    by_cases hct : c = q.term
    · have hc' := hc
      rw [hb, content_cons, if_neg, if_pos hct, if_pos rfl] at hc'
      · simp only [Option.some.injEq, Prod.mk.injEq, true_and] at hc'
        obtain ⟨rfl, hc'⟩ := hc'
        obtain ⟨t, s', e, h1, h2, h3⟩ := fin s (by rw [← hc', ← hb]; exact hl) rfl
        exact ⟨[t], s', .cons e .nil, by simp [h1], .cons h2 .nil, h3⟩
      · intro e
        exact hpa (by rw [← e, hct])
    · rw [hb] at hl hc
      have hc2 : content q.term q.paren (hasF q.func STR_FUNC_QWORDS) q.nest (c :: text) = some (v, 0, q.term :: rest) := by rw [hw, hn]; exact hc
      obtain ⟨t, s1, e, h1, h2, h3, -⟩ := yylex_quoted (x := x) hl hf ht hli (fun h => hct h.1) (by rw [hw]; simp) hc2 (fun used hu => by
        rw [← hb] at hu
        rw [← List.append_cancel_right hu]; exact hp)
      have hq : ({ q with nest := 0 } : StringLiteral) = q := by rw [← hn]
      rw [hq] at h2
      obtain ⟨t', s', e', h4, h5, h6⟩ := fin s1 h2 h3
      have hv : v ≠ [] := content_ne hc (fun h => hct h.1) (by simp)
      refine ⟨[t, t'], s', .cons e (.cons e' .nil), ?_, .cons (by rw [h1]) (.cons h5 .nil), h6⟩
      rw [if_neg hv]
      simp only [List.map_cons, List.map_nil, h4, h1]
      rfl

theorem spaces_escapes {sp w : Bytes} (hs : ∀ c ∈ sp, Space c) (h : AsciiEscapes (sp ++ w)) : AsciiEscapes w := by
  induction sp with
  | nil => exact h
  | cons c sp ih =>
    refine ih (fun d hd => hs d (.tail _ hd)) (AsciiEscapes.tail (c := c) (by simpa using h) ?_)
    rintro rfl
    exact absurd (hs _ (.head _)) (by decide)

theorem words_suffix {close : UInt8} {opener : Option UInt8} {depth : Nat} {text : Bytes} {vs : List Bytes} {rest : Bytes} (h : Words close opener depth text vs rest) :
    ∃ body, text = body ++ close :: rest := by
  induction h with
  | stop => exact ⟨_, rfl⟩
  | word _ _ _ hc _ ih =>
    rename_i sp _ _ _ _ _ _ _ _ _ _
    obtain ⟨used, h1⟩ := content_suffix _ (Nat.le_refl _) hc
    obtain ⟨body, h2⟩ := ih
    exact ⟨sp ++ (used ++ body), by rw [h1, h2]; simp⟩

/-- What the parser sees of a list of words. -/
def wordTokens (vs : List Bytes) : List (Tok × Bytes) := (.tSPACE, []) :: vs.flatMap fun v => [(.tSTRING_CONTENT, v), (.tSPACE, [])]

theorem words_read {x : Ext} {bs : Bytes} {close : UInt8} {opener : Option UInt8} {depth : Nat} {text : Bytes} {vs : List Bytes} {rest : Bytes}
    (hd : Delim STR_FUNC_QWORDS close opener) (hcl : ¬ Space close) (h : Words close opener depth text vs rest) :
    ∀ {q : StringLiteral} {s : Lexer} {body : Bytes}, q.term = close → q.paren = opener → q.nest = depth → q.heredocEnd = none → Lit bs q text s →
    (q.func = str_sword ∨ (q.func = STR_FUNC_QWORDS ∧ ∃ c r, text = c :: r ∧ (Space c ∨ (c = close ∧ depth = 0)))) →
    text = body ++ close :: rest → AsciiEscapes body →
    ∃ ts s', Reads x s ts s' ∧ ts.map view = wordTokens vs ++ [(.tSTRING_END, [])] ∧
      Tiles s.buffer.pcur ts s'.buffer.pcur ∧ s'.buffer.d.bytes = bs ∧
      collapse (bs.drop s'.buffer.pcur) = rest ∧ s'.strterm = none ∧ s'.diagnostics = s.diagnostics := by
  induction h with
  | stop hs =>
    rename_i sp rest
    intro q s body h1 h2 h3 h4 hl hf _ _
    obtain ⟨t, s1, e, e1, e2, e3⟩ := yylex_space (x := x) hl (by
      rcases hf with hf | ⟨hf, -⟩
      · exact .inl hf
      · exact .inr ⟨hf, .inr ⟨h1.symm, h3⟩⟩) hs hcl
    rw [if_pos ⟨h1.symm, h3⟩] at e2
    obtain ⟨t', s2, e', f1, f2, -⟩ := yylex_words_end (x := x) e2 h4
    refine ⟨[t, t'], s2, .cons e (.cons e' .nil), ?_, .cons (by rw [e1]) (.cons (by rw [f1]) .nil), f2.at'.d, f2.at'.txt, f2.st, f2.diag.trans e3⟩
    rw [e1, f1]
    rfl
  | word hs hc hne hcon hw ih =>
    rename_i depth depth' sp text v rest' stop c vs
    intro q s body h1 h2 h3 h4 hl hf hb hp
    obtain ⟨used, hu⟩ := content_suffix _ (Nat.le_refl _) hcon
    obtain ⟨body', hb'⟩ := words_suffix hw
    have hbe : body = sp ++ (used ++ body') := by
      have : sp ++ (used ++ body') ++ close :: stop = body ++ close :: stop := by rw [← hb, hu, hb']; simp
      exact (List.append_cancel_right this).symm
    rw [hbe] at hp
    obtain ⟨hpu, hpb⟩ := content_aligned hd.bs hd.pbs _ (Nat.le_refl _) (by rw [← hu]; exact hcon) (spaces_escapes hs hp)
    obtain ⟨t, s1, e, e1, e2, e3⟩ := yylex_space (x := x) hl (by
      rcases hf with hf | ⟨hf, c', r', g1, g2⟩
      · exact .inl hf
      · refine .inr ⟨hf, ?_⟩
        cases sp with
        | nil =>
          simp only [List.nil_append, List.cons.injEq] at g1
          obtain ⟨rfl, -⟩ := g1
          rcases g2 with g2 | g2
          · exact absurd g2 hc
          · exact absurd g2 hne
        | cons _ _ => exact .inl (by simp)) hs hc
    rw [if_neg (by rw [h1, h3]; exact hne)] at e2
    have fq : (asWords q).func = STR_FUNC_QWORDS := rfl
    obtain ⟨t', s2, e', f1, f2, f3, -⟩ := yylex_quoted (x := x) (v := v) (n := depth') (rest := rest') e2
      (by rw [fq]; show Delim _ q.term q.paren; rw [h1, h2]; exact hd) (by rw [fq]; decide) (by rw [fq]; decide)
      (by show ¬ (c = q.term ∧ q.nest = 0); rw [h1, h3]; exact hne) (fun h => hc h.2)
      (by rw [fq]; show content q.term q.paren (hasF STR_FUNC_QWORDS STR_FUNC_QWORDS) q.nest _ = _; rw [h1, h2, h3]; exact hcon)
      (fun u hu' => by rw [hu] at hu'; rw [← List.append_cancel_right hu']; exact hpu)
    obtain ⟨c', r', hr, hst⟩ := content_stops _ (Nat.le_refl _) hcon
    obtain ⟨ts, s3, g1, g2, g3, g4, g5, g6, g7⟩ := ih (q := { asWords q with nest := depth' }) h1 h2 rfl h4 f2
      (.inr ⟨rfl, c', r', hr, by rcases hst with h | h; exacts [.inr h, .inl h.2]⟩) hb' hpb
    refine ⟨t :: t' :: ts, s3, .cons e (.cons e' g1), ?_, .cons (by rw [e1]) (.cons (by rw [f1]) g3), g4, g5, g6, g7.trans (f3.trans e3)⟩
    simp only [List.map_cons, g2]
    rw [e1, f1]
    rfl

theorem delim_squote (l : Bool) : Delim (singleQuoted l).func (asc '\'') none := by
  cases l <;> refine ⟨?_, ?_, ?_, ?_, ?_, ?_, ?_, ?_, ?_, ?_⟩ <;> decide

theorem delim_of {d : UInt8} {f : Nat} (hd : Delimiter d) (hf : f = str_squote ∨ f = str_ssym ∨ f = STR_FUNC_QWORDS) : Delim f (closeOf d) (openerOf d) := by
  have k := byte_forall (p := fun d => Delimiter d → closeOf d ≠ 10 ∧ closeOf d ≠ asc 'u' ∧ closeOf d ≠ asc '\\' ∧ openerOf d ≠ some 10 ∧
    openerOf d ≠ some (asc 'u') ∧ openerOf d ≠ some (asc '\\') ∧ closeOf d < 128) (by decide +kernel) d hd
  obtain ⟨k1, k2, k3, k4, k5, k6, k7⟩ := k
  refine ⟨?_, ?_, ?_, k1, k2, k3, k4, k5, k6, k7⟩ <;> (rcases hf with rfl | rfl | rfl <;> decide)

/-- What stands in front of the lexer and what it gives for it: from `text` on, after blanks, the tokens `seen` cover the text up to
`rest`; nothing is reported. -/
def Gives (x : Ext) (s : Lexer) (blanks : Nat) (seen : List (Tok × Bytes)) (rest : Bytes) : Prop :=
  ∃ ts s', Reads x s ts s' ∧ ts.map view = seen ∧ Tiles (s.buffer.pcur + blanks) ts s'.buffer.pcur ∧ s'.buffer.d.bytes = s.buffer.d.bytes ∧
    collapse (s.buffer.d.bytes.drop s'.buffer.pcur) = rest ∧ s'.strterm = none ∧ s'.diagnostics = s.diagnostics

/-- The tokens of content: none if it is empty. -/
def contentTokens (v : Bytes) : List (Tok × Bytes) := if v = [] then [] else [(.tSTRING_CONTENT, v)]

/-- **C46, single quotes.** In every state outside of literals that the parser can drive the lexer to, if the text from the cursor on is a
literal in single quotes with the value `v` then the tokens are its start, one content token with exactly `v` (none if `v` is empty) and its
end, which is the end of a label if a label is possible and a colon follows. -/
theorem C46_single_quoted {name : String} {bs : Bytes} {dec : Option DecoderFn} {s0 s : Lexer} {x : Ext} {ts : List Token} {held : List StrTerm}
    (ha : Admissible name bs dec s0) (h : Driven x s0 ts s held) (hst : s.strterm = none) (hseq : Seq s.buffer) {blanks body v rest : Bytes}
    (hb : ∀ c ∈ blanks, Blank c) (ht : collapse (bs.drop s.buffer.pcur) = blanks ++ asc '\'' :: (body ++ asc '\'' :: rest))
    (hc : content (asc '\'') none false 0 (body ++ asc '\'' :: rest) = some (v, 0, asc '\'' :: rest)) (hp : AsciiEscapes body) :
    let label := s.lexState.isLabelPossible s.commandStart && decide (rest.head? = some (asc ':') ∧ rest.tail.head? ≠ some (asc ':'))
    Gives x s blanks.length ((.tSTRING_BEG, []) :: contentTokens v ++ [(if label then .tLABEL_END else .tSTRING_END, [])]) (if label then rest.tail else rest) := by
  have hi := Driven.inv ha.inv h
  have hbs := hi.bytes
  obtain ⟨t, s1, e, h1, h2, h3, h4⟩ := yylex_open_quote (x := x) ⟨hseq, hbs, ht⟩ hb hst hi.inv.ls hi.inv.le
  have hf : (singleQuoted (s.lexState.isLabelPossible s.commandStart)).func = str_squote ||| (if s.lexState.isLabelPossible s.commandStart then str_label else 0) := rfl
  obtain ⟨ts', s', g1, g2, g3, g4, g5, g6, g7⟩ := plain_read (x := x) (body := body) (rest := rest) (v := v) h2 (delim_squote _)
    (by rw [hf]; cases s.lexState.isLabelPossible s.commandStart <;> decide) (by rw [hf]; cases s.lexState.isLabelPossible s.commandStart <;> decide)
    (by rw [hf]; cases s.lexState.isLabelPossible s.commandStart <;> decide) rfl (by simp [singleQuoted]) hc hp
  have hlab : hasF (singleQuoted (s.lexState.isLabelPossible s.commandStart)).func STR_FUNC_LABEL = s.lexState.isLabelPossible s.commandStart := by
    rw [hf]; cases s.lexState.isLabelPossible s.commandStart <;> decide
  have hct : closeTok (singleQuoted (s.lexState.isLabelPossible s.commandStart)).func rest =
      if s.lexState.isLabelPossible s.commandStart && colonNext rest then .tLABEL_END else .tSTRING_END := by
    unfold closeTok; rw [hlab]
  rw [hct] at g2 g5
  refine ⟨t :: ts', s', .cons e g1, ?_, .cons (by rw [h1]) (by rw [← h3]; exact g3), by rw [g4, hbs], ?_, g6, g7.trans h4⟩
  · simp only [List.map_cons, g2, h1]
    rfl
  · rw [hbs, g5]
    show _ = if (s.lexState.isLabelPossible s.commandStart && colonNext rest) = true then rest.tail else rest
    cases (s.lexState.isLabelPossible s.commandStart && colonNext rest) <;> rfl

/-- A state at the start of the source. -/
theorem seq_start {src : Bytes} (h : (Lexer.new "(eval)" src none).toOption.isSome = true) : Seq (startOf src h).buffer := by
  obtain ⟨b, eb, hf⟩ := new_fresh "(eval)" src none
  have h0 := startOf_new src h
  have hs : (startOf src h).buffer = b := by
    simp only [Lexer.new, eb, Bind.bind, Except.bind, Pure.pure, Except.pure, Except.ok.injEq] at h0
    rw [← h0]
  rw [hs]; exact fresh_seq hf

def quoted1 : Lexer := startOf (ascs "{ 'a\\'b': 1}") (by decide +kernel)

/-- `{ 'a\'b': 1}` after the brace: the value is `a'b`, the literal ends as a label. -/
example : Gives asciiExt (after quoted1) 1 [(.tSTRING_BEG, []), (.tSTRING_CONTENT, ascs "a'b"), (.tLABEL_END, [])] (ascs " 1}") := by
  have ha : Admissible "(eval)" (ascs "{ 'a\\'b': 1}") none quoted1 := ⟨startOf_new _ _, by decide, by simp⟩
  obtain ⟨ts, hdr⟩ : ∃ ts, Driven asciiExt quoted1 ts (after quoted1) [] := driven_after .start (t := .tLBRACE) (by decide +kernel) (by decide)
  have hi := Driven.inv ha.inv hdr
  have := C46_single_quoted (blanks := ascs " ") (body := ascs "a\\'b") (v := ascs "a'b") (rest := ascs ": 1}") ha hdr (by decide +kernel)
    ⟨hi.inv.good, by decide +kernel, by decide +kernel, by decide +kernel⟩ (fun c hc => .inl (by simpa [ascs] using hc)) (by decide +kernel) (by decide +kernel)
    (by simp [AsciiEscapes, ascs, asc])
  have hl : ((after quoted1).lexState.isLabelPossible (after quoted1).commandStart &&
      decide ((ascs ": 1}").head? = some (asc ':') ∧ (ascs ": 1}").tail.head? ≠ some (asc ':'))) = true := by decide +kernel
  dsimp only at this
  rw [hl] at this
  exact this

/-- **C46, `%q` and `%s`.** Where an operand is expected, with any ASCII punctuation as delimiter; brackets nest. -/
theorem C46_percent {name : String} {bs : Bytes} {dec : Option DecoderFn} {s0 s : Lexer} {x : Ext} {ts : List Token} {held : List StrTerm}
    (ha : Admissible name bs dec s0) (h : Driven x s0 ts s held) (hst : s.strterm = none) (hseq : Seq s.buffer) (hbeg : s.lexState.isBeg = true)
    {k : UInt8} {t : Tok} (hk : (k, t) = (asc 'q', Tok.tSTRING_BEG) ∨ (k, t) = (asc 's', Tok.tSYMBEG)) {d : UInt8} (hd : Delimiter d) {blanks body v rest : Bytes}
    (hb : ∀ c ∈ blanks, Blank c) (ht : collapse (bs.drop s.buffer.pcur) = blanks ++ asc '%' :: k :: d :: (body ++ closeOf d :: rest))
    (hc : content (closeOf d) (openerOf d) false 0 (body ++ closeOf d :: rest) = some (v, 0, closeOf d :: rest)) (hp : AsciiEscapes body) :
    Gives x s blanks.length ((t, []) :: contentTokens v ++ [(.tSTRING_END, [])]) rest := by
  have hi := Driven.inv ha.inv h
  have hbs := hi.bytes
  have hne : openerOf d ≠ some (closeOf d) := byte_forall (p := fun d => openerOf d ≠ some (closeOf d)) (by decide +kernel) d
  obtain ⟨f, hk', hf⟩ : ∃ f, PercentKind k f t ∧ (f = str_squote ∨ f = str_ssym) := by
    rcases hk with h | h <;> (simp only [Prod.mk.injEq] at h; obtain ⟨rfl, rfl⟩ := h)
    · exact ⟨_, .q, .inl rfl⟩
    · exact ⟨_, .s, .inr rfl⟩
  obtain ⟨tok, s1, e, h1, h2, h3, h4⟩ := yylex_open_percent (x := x) hk' hd ⟨hseq, hbs, ht⟩ hb hbeg hst hi.inv.ls hi.inv.le
  obtain ⟨ts', s', g1, g2, g3, g4, g5, g6, g7⟩ := plain_read (x := x) (body := body) (rest := rest) (v := v) h2 (delim_of hd (by rcases hf with h | h <;> simp [h]))
    (by dsimp only; rcases hf with rfl | rfl <;> decide) (by dsimp only; rcases hf with rfl | rfl <;> decide)
    (by dsimp only; rcases hf with rfl | rfl <;> decide) rfl hne hc hp
  have hct : closeTok f rest = .tSTRING_END := by
    unfold closeTok; rw [show hasF f STR_FUNC_LABEL = false by rcases hf with rfl | rfl <;> decide]; rfl
  dsimp only at g2 g5
  rw [hct] at g2 g5
  refine ⟨tok :: ts', s', .cons e g1, ?_, .cons (by rw [h1]) (by rw [← h3]; exact g3), by rw [g4, hbs], ?_, g6, g7.trans h4⟩
  · simp only [List.map_cons, g2, h1]
    rcases hk with h | h <;> (simp only [Prod.mk.injEq] at h; obtain ⟨rfl, rfl⟩ := h) <;> rfl
  · rw [hbs, g5]; rfl

/-- `%q(a(b)\)\n) x` -/
example : Gives asciiExt (startOf (ascs "%q(a(b)\\)\\n) x") (by decide +kernel)) 0
    [(.tSTRING_BEG, []), (.tSTRING_CONTENT, ascs "a(b))\\n"), (.tSTRING_END, [])] (ascs " x") :=
  C46_percent (k := asc 'q') (d := asc '(') (blanks := []) (body := ascs "a(b)\\)\\n") (v := ascs "a(b))\\n") (rest := ascs " x") (name := "(eval)")
    ⟨startOf_new _ _, by decide, by simp⟩ .start (by decide +kernel) (seq_start _) (by decide +kernel) (.inl rfl) (by decide)
    (by simp) (by decide +kernel) (by decide +kernel) (by simp [AsciiEscapes, ascs, asc])

/-- **C46, word lists.** `%w` and `%i` give exactly the words, with a separator before the first, between any two and after the last. -/
theorem C46_words {name : String} {bs : Bytes} {dec : Option DecoderFn} {s0 s : Lexer} {x : Ext} {ts : List Token} {held : List StrTerm}
    (ha : Admissible name bs dec s0) (h : Driven x s0 ts s held) (hst : s.strterm = none) (hseq : Seq s.buffer) (hbeg : s.lexState.isBeg = true)
    {k : UInt8} {t : Tok} (hk : (k, t) = (asc 'w', Tok.tQWORDS_BEG) ∨ (k, t) = (asc 'i', Tok.tQSYMBOLS_BEG)) {d : UInt8} (hd : Delimiter d)
    {blanks body rest : Bytes} {vs : List Bytes}
    (hb : ∀ c ∈ blanks, Blank c) (ht : collapse (bs.drop s.buffer.pcur) = blanks ++ asc '%' :: k :: d :: (body ++ closeOf d :: rest))
    (hw : Words (closeOf d) (openerOf d) 0 (body ++ closeOf d :: rest) vs rest) (hp : AsciiEscapes body) :
    Gives x s blanks.length ((t, []) :: (wordTokens vs ++ [(.tSTRING_END, [])])) rest := by
  have hi := Driven.inv ha.inv h
  have hbs := hi.bytes
  have hcl : ¬ Space (closeOf d) := byte_forall (p := fun d => Delimiter d → ¬ Space (closeOf d)) (by decide +kernel) d hd
  have hk' : PercentKind k str_sword t := by
    rcases hk with h | h <;> (simp only [Prod.mk.injEq] at h; obtain ⟨rfl, rfl⟩ := h)
    · exact .w
    · exact .i
  obtain ⟨tok, s1, e, h1, h2, h3, h4⟩ := yylex_open_percent (x := x) hk' hd ⟨hseq, hbs, ht⟩ hb hbeg hst hi.inv.ls hi.inv.le
  obtain ⟨ts', s', g1, g2, g3, g4, g5, g6, g7⟩ := words_read (x := x) (delim_of hd (.inr (.inr rfl))) hcl hw rfl rfl rfl rfl h2 (.inl rfl) rfl hp
  refine ⟨tok :: ts', s', .cons e g1, ?_, .cons (by rw [h1]) (by rw [← h3]; exact g3), by rw [g4, hbs], ?_, g6, g7.trans h4⟩
  · simp only [List.map_cons, g2, h1]
    rcases hk with h | h <;> (simp only [Prod.mk.injEq] at h; obtain ⟨rfl, rfl⟩ := h) <;> rfl
  · rw [hbs, g5]

/-- `%w(a\ b (c d)) x` -/
example : Gives asciiExt (startOf (ascs "%w(a\\ b (c d)) x") (by decide +kernel)) 0
    [(.tQWORDS_BEG, []), (.tSPACE, []), (.tSTRING_CONTENT, ascs "a b"), (.tSPACE, []), (.tSTRING_CONTENT, ascs "(c"), (.tSPACE, []),
      (.tSTRING_CONTENT, ascs "d)"), (.tSPACE, []), (.tSTRING_END, [])] (ascs " x") := by
  refine C46_words (k := asc 'w') (d := asc '(') (blanks := []) (body := ascs "a\\ b (c d)") (vs := [ascs "a b", ascs "(c", ascs "d)"]) (rest := ascs " x") (name := "(eval)")
    ⟨startOf_new _ _, by decide, by simp⟩ .start (by decide +kernel) (seq_start _) (by decide +kernel) (.inl rfl) (by decide)
    (by simp) (by decide +kernel) ?_ (by simp [AsciiEscapes, ascs, asc])
  refine .word (sp := []) (c := asc 'a') (text := ascs "\\ b (c d)) x") (depth' := 0) (rest := ascs " (c d)) x") ?_ ?_ ?_ ?_ ?_ <;> try decide +kernel
  refine .word (sp := ascs " ") (c := asc '(') (text := ascs "c d)) x") (depth' := 1) (rest := ascs " d)) x") ?_ ?_ ?_ ?_ ?_ <;> try decide +kernel
  refine .word (sp := ascs " ") (c := asc 'd') (text := ascs ")) x") (depth' := 0) (rest := ascs ") x") ?_ ?_ ?_ ?_ ?_ <;> try decide +kernel
  exact .stop (sp := []) (by simp)

theorem collapse_quote {v : Bytes} (h : ∀ i : Nat, v[i]? = some (13 : UInt8) → v[i + 1]? ≠ some (10 : UInt8)) : collapse (quote v ++ [asc '\'']) = quote v ++ [asc '\''] := by
  have step : ∀ {c : UInt8} {w : Bytes}, ¬ (c = 13 ∧ w.head? = some 10) → collapse (c :: w) = c :: collapse w := by
    intro c w hc
    exact collapse.eq_2 c w fun r h1 h2 => hc ⟨h1, by rw [h2]; rfl⟩
  induction v with
  | nil => decide
  | cons c v ih =>
    have ih := ih fun i h1 => by
      have := h (i + 1) (by rw [List.getElem?_cons_succ]; exact h1)
      rwa [List.getElem?_cons_succ] at this
    have e : quote (c :: v) = (if c = asc '\\' ∨ c = asc '\'' then [asc '\\', c] else [c]) ++ quote v := by simp [quote]
    rw [e]
    split
    · rename_i hc
      simp only [List.cons_append, List.nil_append]
      rw [step (by intro h; exact absurd h.1 (by decide)), step (by rintro ⟨rfl, -⟩; exact absurd hc (by decide)), ih]
    · simp only [List.cons_append, List.nil_append]
      rw [step, ih]
      rintro ⟨rfl, hh⟩
      have h0 := h 0 rfl
      cases v with
      | nil => exact absurd hh (by decide)
      | cons d v =>
        have e : quote (d :: v) = (if d = asc '\\' ∨ d = asc '\'' then [asc '\\', d] else [d]) ++ quote v := by simp [quote]
        rw [e] at hh
        split at hh
        · simp at hh; exact absurd hh (by decide)
        · simp at hh; simp [hh] at h0

/-- **C46, round trip.** Any bytes without CR LF, written between single quotes with backslashes in front of backslashes and
quotes, come back from a new lexer as the value of one content token. -/
theorem C46_roundtrip {name : String} {v : Bytes} {x : Ext} {s0 : Lexer} (hv : ∀ i : Nat, v[i]? = some (13 : UInt8) → v[i + 1]? ≠ some (10 : UInt8))
    (h0 : Lexer.new name (asc '\'' :: (quote v ++ [asc '\''])) none = .ok s0) (hsmall : (asc '\'' :: (quote v ++ [asc '\''])).length < 2 ^ 31) :
    Gives x s0 0 ((.tSTRING_BEG, []) :: contentTokens v ++ [(.tSTRING_END, [])]) [] := by
  have ha : Admissible name (asc '\'' :: (quote v ++ [asc '\''])) none s0 := ⟨h0, hsmall, by simp⟩
  obtain ⟨b, eb, hf⟩ := new_fresh name (asc '\'' :: (quote v ++ [asc '\''])) none
  have hs : s0.buffer = b ∧ s0.strterm = none := by
    simp only [Lexer.new, eb, Bind.bind, Except.bind, Pure.pure, Except.pure, Except.ok.injEq] at h0
    rw [← h0]; exact ⟨rfl, rfl⟩
  have hpc : s0.buffer.pcur = 0 := by
    rw [hs.1, hf.pos]
    rcases hf.bom with h | h
    · exact h.1
    · exact absurd h.2 (by rintro ⟨w, hw⟩; simp only [List.cons_append, List.cons.injEq] at hw; exact absurd hw.1 (by decide))
  have := C46_single_quoted (x := x) (blanks := []) (body := quote v) (v := v) (rest := []) ha .start hs.2 (by rw [hs.1]; exact fresh_seq hf) (by simp)
    (by
      rw [hpc]
      show collapse (asc '\'' :: (quote v ++ [asc '\''])) = _
      have : ∀ w : Bytes, collapse (asc '\'' :: w) = asc '\'' :: collapse w := fun w => by
        cases w <;> rfl
      rw [this, collapse_quote hv]; rfl)
    (content_quote v []) (quote_escapes v)
  simpa using this

/-- The bytes of `\é'` with a line feed. -/
example : Gives asciiExt (startOf (asc '\'' :: (quote ([0x5C, 0xC3, 0xA9, 10] ++ ascs "'") ++ [asc '\''])) (by decide +kernel)) 0
    [(.tSTRING_BEG, []), (.tSTRING_CONTENT, [0x5C, 0xC3, 0xA9, 10] ++ ascs "'"), (.tSTRING_END, [])] [] :=
  C46_roundtrip (v := [0x5C, 0xC3, 0xA9, 10] ++ ascs "'") (name := "(eval)") (fun i h => by
    have hl := (List.getElem?_eq_some_iff.1 h).1
    have key : ∀ i < 5, ([0x5C, 0xC3, 0xA9, 10] ++ ascs "'")[i]? ≠ some 13 := by decide
    exact absurd h (key i hl)) (startOf_new _ _) (by decide)

end Verif.Props
