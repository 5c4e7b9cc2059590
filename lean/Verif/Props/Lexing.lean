import Verif.Lemmas.LexRun
import Verif.Lemmas.LexStop
/-!
C19 (termination), C20 (no panic), C21 (token locations), C22 (comments), C23 (magic comments), C25 (the end of the script), C29 (recorded tokens).
`Driven x s0 ts s held` says that a parser which started with the lexer `s0` was given the tokens `ts` and may now ask for
another one, the lexer being in state `s`.
-/
namespace Verif.Props
open Spec

/-- The hypotheses about the input under which the lexer is claimed to run. -/
structure Admissible (name : String) (bs : Bytes) (dec : Option DecoderFn) (s0 : Lexer) : Prop where
  start : Lexer.new name bs dec = .ok s0
  /-- positions fit the signed 32-bit arithmetic of `Loc::adjust_end` -/
  small : bs.length < 2 ^ 31
  /-- re-encoding the source either fails or leaves the bytes as they are -/
  decoder : ∀ f, dec = some f → ∀ enc r, f enc bs = .ok r → r = bs

theorem Admissible.inv {name bs dec s0} (h : Admissible name bs dec s0) : Lexer.RunInv bs [] s0 [] := by
  obtain ⟨s, e, hi⟩ := Lexer.new_inv name bs dec h.decoder h.small
  rw [h.start] at e; cases e
  exact hi

/-- Every small input without a decoder is admissible. -/
theorem admissible_of_small (name : String) (bs : Bytes) (h : bs.length < 2 ^ 31) : ∃ s0, Admissible name bs none s0 := by
  obtain ⟨s, e, -⟩ := Lexer.new_inv name bs none (by simp) h
  exact ⟨s, e, h, by simp⟩

section
variable {name : String} {bs : Bytes} {dec : Option DecoderFn} {s0 : Lexer} {x : Ext} {ts : List Token} {s : Lexer} {held : List StrTerm}

/-- **C20.** Whatever the parser does between tokens, asking for the next token never panics (and takes a bounded number of steps:
running out of the step budget would be an error, too). -/
theorem C20_never_panics_partial (ha : Admissible name bs dec s0) (h : Driven x s0 ts s held) : ∃ t s', Lexer.yylex x s = .ok (t, s') := by
  obtain ⟨t, s', e, -⟩ := Lexer.yylex_wp (x := x) (Lexer.Driven.inv ha.inv h).inv
  exact ⟨t, s', e⟩

/-- **C19.** The parser is given at most 64 tokens per input byte before the end of input, whatever it does between tokens. -/
theorem C19_linear (ha : Admissible name bs dec s0) (h : Driven x s0 ts s held) : ts.length ≤ 64 * bs.length := by
  have := (Lexer.Driven.inv ha.inv h).meas
  omega

theorem tokenize_run (n : Nat) : ∀ (ts : List Token) (s : Lexer), Lexer.RunInv bs ts s [] → 64 * bs.length + 1 ≤ ts.length + n →
    ∃ r s', Lexer.tokenizeUntilEof x n s = .ok (r, s') ∧ ts.length + r.length ≤ 64 * bs.length := by
  induction n with
  | zero => intro ts s h hn; have := h.meas; omega
  | succ n ih =>
    intro ts s h hn
    show Lexer.Wp (Lexer.tokenizeUntilEof x (n + 1)) (fun r _ => ts.length + r.length ≤ 64 * bs.length) s
    unfold Lexer.tokenizeUntilEof
    obtain ⟨t, s', e, -⟩ := Lexer.yylex_wp (x := x) h.inv
    refine Lexer.Wp.bind ⟨t, s', e, ?_⟩
    refine Lexer.Wp.ite (fun _ => Lexer.Wp.pure (by have := h.meas; simp; omega)) fun he => Lexer.Wp.bind ?_
    obtain ⟨r, s'', e', h2⟩ := ih (ts ++ [t]) s' (h.token e he) (by simp; omega)
    refine ⟨r, s'', e', Lexer.Wp.pure ?_⟩
    simp only [List.length_append, List.length_cons, List.length_nil] at h2 ⊢
    omega

/-- **C19** (the lexer on its own). `tokenize_until_eof` ends for every input, after at most 64 tokens per byte, without panic. -/
theorem C19_tokenize_terminates (ha : Admissible name bs dec s0) :
    ∃ r s', Lexer.tokenizeUntilEof x (64 * bs.length + 1) s0 = .ok (r, s') ∧ r.length ≤ 64 * bs.length := by
  obtain ⟨r, s', e, h⟩ := tokenize_run (x := x) (64 * bs.length + 1) [] s0 ha.inv (by simp)
  exact ⟨r, s', e, by simpa using h⟩

/-- **C21** (partial). Every token other than the end of input lies inside the input, except while a heredoc is read: the token
that follows the report of an unterminated heredoc may be misplaced, and the end of a string content may lie one past the input.
Both exceptions are real, see `C21_negation`. Missing: the location of the end-of-input token. -/
theorem C21_locations_partial (ha : Admissible name bs dec s0) (h : Driven x s0 ts s held) {t : Token} {s' : Lexer}
    (e : Lexer.yylex x s = .ok (t, s')) (hne : t.tokenType ≠ .END_OF_INPUT) :
    (t.loc.begin ≤ t.loc.stop ∧ t.loc.stop ≤ bs.length) ∨
    ((∃ h, s.strterm = some (.heredoc h)) ∧
      ((∃ id l, s'.diagnostics.getLast? = some ⟨.error, .UnterminatedHeredoc id, l⟩) ∨
       (t.loc.begin ≤ t.loc.stop ∧ t.tokenType = .tSTRING_CONTENT ∧ t.loc.stop = bs.length + 1))) := by
  have hi := Lexer.Driven.inv ha.inv h
  obtain ⟨t', s'', e', hp⟩ := Lexer.yylex_wp (x := x) hi.inv
  rw [e] at e'; cases e'
  rcases hp.next with h1 | ⟨-, -, -, h1, -⟩
  · exact absurd h1 hne
  · unfold Lexer.LocOk at h1
    rw [hi.bytes] at h1
    exact h1

/-- **C22** (faithful records). Every comment recorded at any time, also by the call that returns the end of input, is a `#` comment
up to the end of its line or an embedded document from a `=begin` line to an `=end` line, and is classified accordingly. -/
theorem C22_comments (ha : Admissible name bs dec s0) (h : Driven x s0 ts s held) {t : Token} {s' : Lexer}
    (e : Lexer.yylex x s = .ok (t, s')) : ∀ c ∈ s'.comments, CommentOk bs c := by
  have hi := Lexer.Driven.inv ha.inv h
  obtain ⟨t', s'', e', hp⟩ := Lexer.yylex_wp (x := x) hi.inv
  rw [e] at e'; cases e'
  obtain ⟨⟨cs, h1, h2⟩, -⟩ := hp.com
  rw [h1]
  intro c hc
  rcases List.mem_append.1 hc with hc | hc
  · exact hi.com c hc
  · rw [← hi.bytes]; exact h2 c hc

/-- **C23.** Every magic comment recorded at any time has its key and its value, in this order, inside one `#` comment, and its kind
is the one the key stands for (`-` may be written for `_`). -/
theorem C23_magic_comments (ha : Admissible name bs dec s0) (h : Driven x s0 ts s held) {t : Token} {s' : Lexer}
    (e : Lexer.yylex x s = .ok (t, s')) : ∀ m ∈ s'.magicComments, MagicCommentOk bs m := by
  have hi := Lexer.Driven.inv ha.inv h
  obtain ⟨t', s'', e', hp⟩ := Lexer.yylex_wp (x := x) hi.inv
  rw [e] at e'; cases e'
  obtain ⟨-, cs, h1, h2⟩ := hp.com
  rw [h1]
  intro c hc
  rcases List.mem_append.1 hc with hc | hc
  · exact hi.mag c hc
  · rw [← hi.bytes]; exact h2 c hc

/-- Records are never removed or changed by reading a token. -/
theorem C22_records_grow (ha : Admissible name bs dec s0) (h : Driven x s0 ts s held) {t : Token} {s' : Lexer}
    (e : Lexer.yylex x s = .ok (t, s')) : s.comments <+: s'.comments ∧ s.magicComments <+: s'.magicComments := by
  have hi := Lexer.Driven.inv ha.inv h
  obtain ⟨t', s'', e', hp⟩ := Lexer.yylex_wp (x := x) hi.inv
  rw [e] at e'; cases e'
  obtain ⟨⟨cs, h1, -⟩, ms, h2, -⟩ := hp.com
  exact ⟨⟨cs, h1.symm⟩, ms, h2.symm⟩
end

/-! ### The end of the script -/

/-- Ask for `n` tokens, whatever they are. -/
def askMore (x : Ext) : Nat → LexM (List Token)
  | 0 => return []
  | n + 1 => do
    let t ← Lexer.yylex x
    return t :: (← askMore x n)

section
variable {name : String} {bs : Bytes} {dec : Option DecoderFn} {s0 : Lexer} {x : Ext} {ts : List Token} {s : Lexer} {held : List StrTerm}

theorem askMore_stopped (n : Nat) : ∀ s : Lexer, s.Stopped → Lexer.Wp (askMore x n)
    (fun r s' => r.length = n ∧ (∀ t ∈ r, t.tokenType = .END_OF_INPUT) ∧ Lexer.Silent s s') s := by
  induction n with
  | zero => intro s h; exact Lexer.Wp.pure ⟨rfl, by simp, ⟨rfl, rfl, rfl, rfl⟩⟩
  | succ n ih =>
    intro s h
    unfold askMore
    refine Lexer.Wp.bind ((Lexer.stopped_yylex h).mono ?_)
    rintro t s1 ⟨h1, h2, h3⟩
    refine Lexer.Wp.bind ((ih s1 h2).mono ?_)
    rintro r s2 ⟨h4, h5, h6⟩
    refine Lexer.Wp.pure ⟨by simp [h4], ?_, h6.input.trans h3.input, h6.comments.trans h3.comments,
      h6.magicComments.trans h3.magicComments, h6.diagnostics.trans h3.diagnostics⟩
    intro t' ht'
    rcases List.mem_cons.1 ht' with rfl | ht'
    · exact h1
    · exact h5 t' ht'

/-- **C25** (partial). Outside of string literals, when the next line to be read consists of `__END__`, the next token is the end of
input; nothing is recorded or reported, neither then nor by any later call, and every later call returns the end of input, too.
Missing: blank lines and comments before the `__END__` line that are skipped within the same call (`Lexer.yylexLoop_marker` is the same
statement for every pass of the retry loop, which skips them). -/
theorem C25_end_marker_partial (ha : Admissible name bs dec s0) (h : Driven x s0 ts s held) (hst : s.strterm = none) {p : Nat}
    (hl : s.buffer.AtLine p) (hm : EndMarker bs p) (n : Nat) :
    ∃ r s', askMore x (n + 1) s = .ok (r, s') ∧ r.length = n + 1 ∧ (∀ t ∈ r, t.tokenType = .END_OF_INPUT) ∧
      s'.comments = s.comments ∧ s'.magicComments = s.magicComments ∧ s'.diagnostics = s.diagnostics := by
  have hi := Lexer.Driven.inv ha.inv h
  suffices hw : Lexer.Wp (askMore x (n + 1)) (fun r s' => r.length = n + 1 ∧ (∀ t ∈ r, t.tokenType = .END_OF_INPUT) ∧
      s'.comments = s.comments ∧ s'.magicComments = s.magicComments ∧ s'.diagnostics = s.diagnostics) s from hw
  unfold askMore
  refine Lexer.Wp.bind ((Lexer.yylex_marker hi.inv hst hl (by rw [hi.bytes]; exact hm)).mono ?_)
  rintro t s1 ⟨h1, h2, h3⟩
  refine Lexer.Wp.bind ((askMore_stopped n s1 h2).mono ?_)
  rintro r s2 ⟨h4, h5, h6⟩
  refine Lexer.Wp.pure ⟨by simp [h4], ?_, h6.comments.trans h3.comments,
    h6.magicComments.trans h3.magicComments, h6.diagnostics.trans h3.diagnostics⟩
  intro t' ht'
  rcases List.mem_cons.1 ht' with rfl | ht'
  · exact h1
  · exact h5 t' ht'

/-- **C25** (end-of-script bytes). Outside of string literals a NUL, ^D or ^Z byte where a token could start is the end of input, too,
and nothing is recorded or reported. -/
theorem C25_script_end (ha : Admissible name bs dec s0) (h : Driven x s0 ts s held) (hst : s.strterm = none)
    (he : s.buffer.eofp = false) (hn : s.buffer.nextline = 0) (hlt : s.buffer.pcur < s.buffer.pend) {c : UInt8}
    (hb : bs[s.buffer.pcur]? = some c) (hc : c = 0 ∨ c = 4 ∨ c = 26) :
    ∃ t s', Lexer.yylex x s = .ok (t, s') ∧ t.tokenType = .END_OF_INPUT ∧
      s'.comments = s.comments ∧ s'.magicComments = s.magicComments ∧ s'.diagnostics = s.diagnostics := by
  have hi := Lexer.Driven.inv ha.inv h
  obtain ⟨t, s', e, h1, h2⟩ := Lexer.yylex_script_end (x := x) hi.inv hst he hn hlt (by rw [hi.bytes]; exact hb) hc
  exact ⟨t, s', e, h1, h2.comments, h2.magicComments, h2.diagnostics⟩
end

/-! ### Recorded tokens -/

theorem consume_record {x : Ext} {acts : List Token → Option Tok → Lexer → Option Lexer} (n : Nat) :
    ∀ (seen : List Token) (l : Lexer) (lt : Option Tok) (seen' : List Token) (p' : Parser),
    Parser.consume x acts n seen { lexer := l, tokens := seen, recordTokens := true, lastTokenType := lt } = .ok (seen', p') →
    p'.tokens = seen' ∧ Parser.consume x acts n seen { lexer := l, tokens := [], recordTokens := false, lastTokenType := lt } =
      .ok (seen', { p' with tokens := [], recordTokens := false }) := by
  induction n with
  | zero => intro _ _ _ _ _ h; cases h
  | succ n ih =>
    intro seen l lt seen' p' h
    unfold Parser.consume Parser.nextToken at h ⊢
    cases e : Lexer.yylex x l with
    | error e' => simp [e, Bind.bind, Except.bind] at h
    | ok r =>
      obtain ⟨t, l'⟩ := r
      simp only [e, Bind.bind, Except.bind, Pure.pure, Except.pure, if_true, Bool.false_eq_true, if_false] at h ⊢
      by_cases he : t.tokenType = .END_OF_INPUT
      · rw [if_pos he] at h ⊢
        cases h
        exact ⟨rfl, rfl⟩
      · rw [if_neg he] at h ⊢
        cases ha : acts (seen ++ [t]) (some t.tokenType) l' with
        | none =>
          rw [ha] at h
          cases h
          exact ⟨rfl, rfl⟩
        | some l2 =>
          rw [ha] at h
          exact ih _ _ _ _ _ h

/-- **C29.** With `record_tokens` the tokens of the result are the tokens the parser was given, in order; without it there are none,
and the parser is given the same tokens and ends with the same lexer state. `acts` is any behaviour of the grammar actions that
does not depend on the recorded tokens. -/
theorem C29_record_tokens {x : Ext} {acts : List Token → Option Tok → Lexer → Option Lexer} {name : String} {bs : Bytes}
    {dec : Option DecoderFn} {p : Parser} {n : Nat} {seen : List Token} {p' : Parser}
    (h0 : Parser.new name bs dec true = .ok p) (h : Parser.consume x acts n [] p = .ok (seen, p')) :
    p'.tokens = seen ∧ ∃ q q', Parser.new name bs dec false = .ok q ∧ Parser.consume x acts n [] q = .ok (seen, q') ∧
      q'.tokens = [] ∧ q'.lexer = p'.lexer := by
  unfold Parser.new at h0 ⊢
  cases e : Lexer.new name bs dec with
  | error e' => simp [e, Bind.bind, Except.bind] at h0
  | ok l =>
    simp only [e, Bind.bind, Except.bind, Pure.pure, Except.pure] at h0 ⊢
    cases h0
    obtain ⟨h1, h2⟩ := consume_record n [] l none seen p' h
    exact ⟨h1, _, _, rfl, h2, rfl, rfl⟩

/-! ### Concrete runs -/

/-- The `std` functions restricted to ASCII. -/
def asciiExt : Ext := ⟨fun n => if 97 ≤ n ∧ n ≤ 122 then [n - 32] else [n], fun n => 65 ≤ n ∧ n ≤ 90⟩

/-- Types and locations of the tokens of a source, and the comments. -/
def lexed (src : Bytes) (dec : Option DecoderFn := none) : Res (List (Tok × Nat × Nat) × List Comment × List MagicComment) := do
  let s ← Lexer.new "(eval)" src dec
  let (ts, s) ← Lexer.tokenizeUntilEof asciiExt (64 * src.length + 1) s
  return (ts.map fun t => (t.tokenType, t.loc.begin, t.loc.stop), s.comments, s.magicComments)

example : lexed (ascs "a = 1 # c\n") = .ok
    ([(.tIDENTIFIER, 0, 1), (.tEQL, 2, 3), (.tINTEGER, 4, 5), (.tNL, 9, 10)], [⟨⟨6, 10⟩, .inline⟩], []) := by decide +kernel

example : lexed (ascs "# warn-indent: true\n=begin\nx\n=end y\nb") = .ok
    ([(.tIDENTIFIER, 36, 37)], [⟨⟨0, 20⟩, .inline⟩, ⟨⟨20, 36⟩, .document⟩], [⟨.warnIndent, ⟨2, 13⟩, ⟨15, 19⟩⟩]) := by decide +kernel

/-- **C21**, the exceptions are real: an unterminated heredoc gives a token that ends before it starts, and a content may
end one past the input. -/
theorem C21_negation :
    lexed (ascs "<<A\n") = .ok ([(.tSTRING_BEG, 0, 3), (.tSTRING_END, 4, 3), (.tNL, 3, 4)], [], []) ∧
    lexed (ascs "<<A\nx\\\n") = .ok
      ([(.tSTRING_BEG, 0, 3), (.tSTRING_CONTENT, 4, 8), (.tSTRING_END, 7, 3), (.tNL, 3, 4)], [], []) := by
  constructor <;> decide +kernel

/-- **C20**, the hypothesis about the decoder is needed: a decoder that shortens the source makes the lexer index out of bounds. -/
theorem C20_shrinking_decoder_panics :
    lexed (ascs "# encoding: x\nfoo") (some fun _ _ => .ok []) = .error .index := by decide +kernel

/-- **C25**, the end-of-script bytes do not stop the lexer for good: a further call would continue behind them. -/
theorem C25_nul_not_sticky :
    ((do let s ← Lexer.new "(eval)" [0, 97] none
         let (ts, _) ← askMore asciiExt 2 s
         return ts.map fun t => (t.tokenType, t.loc.begin, t.loc.stop)) : Res _) =
      .ok [(.END_OF_INPUT, 0, 1), (.tIDENTIFIER, 1, 2)] := by decide +kernel

example : ((do let s ← Lexer.new "(eval)" (ascs "a\n__END__\nb") none
               let (ts, _) ← askMore asciiExt 5 s
               return ts.map fun t => (t.tokenType, t.loc.begin, t.loc.stop)) : Res _) =
      .ok [(.tIDENTIFIER, 0, 1), (.tNL, 1, 2), (.END_OF_INPUT, 2, 3), (.END_OF_INPUT, 3, 3), (.END_OF_INPUT, 3, 3)] := by decide +kernel

/-- **C23**, keys are compared case-sensitively: in upper case nothing is recorded. -/
theorem C23_negation_case :
    lexed (ascs "# FROZEN_STRING_LITERAL: true\n") = .ok ([], [⟨⟨0, 30⟩, .inline⟩], []) ∧
    lexed (ascs "# frozen_string_literal: true\n") =
      .ok ([], [⟨⟨0, 30⟩, .inline⟩], [⟨.frozenStringLiteral, ⟨2, 23⟩, ⟨25, 29⟩⟩]) := by
  constructor <;> decide +kernel

/-! ### A run in which the comments are not recorded in source order -/

/-- The lexer at the start of a source. -/
def startOf (src : Bytes) (h : (Lexer.new "(eval)" src none).toOption.isSome = true) : Lexer :=
  (Lexer.new "(eval)" src none).toOption.get h

/-- The type of the next token. -/
def nextType (s : Lexer) : Option Tok := (Lexer.yylex asciiExt s).toOption.map fun r => r.1.tokenType

/-- The lexer after the next token. -/
def after (s : Lexer) : Lexer := ((Lexer.yylex asciiExt s).toOption.map (·.2)).getD s

theorem driven_after {s0 s : Lexer} {ts : List Token} {held : List StrTerm} (h : Driven asciiExt s0 ts s held) {t : Tok}
    (ht : nextType s = some t) (hne : t ≠ .END_OF_INPUT) : ∃ ts', Driven asciiExt s0 ts' (after s) held := by
  unfold nextType at ht
  unfold after
  cases e : Lexer.yylex asciiExt s with
  | error e' => rw [e] at ht; cases ht
  | ok r =>
    obtain ⟨tok, s'⟩ := r
    rw [e] at ht
    simp only [Except.toOption, Option.map_some, Option.some.injEq] at ht
    refine ⟨_, .token h e (by rw [ht]; exact hne)⟩

/-- src/parser/parse.y:5759-5779: the actions after `tSTRING_DBEG`. -/
def openCode (s : Lexer) : Lexer :=
  { s with strterm := none, lexState := EXPR_BEG, braceNest := 0, buffer := { s.buffer with heredocIndent := 0 } }

/-- src/parser/parse.y:5780-5787: the action after `tSTRING_DEND`; `o` is the state before `openCode`. -/
def closeCode (o s : Lexer) : Lexer :=
  { s with strterm := o.strterm, lexState := o.lexState, braceNest := o.braceNest,
           buffer := { s.buffer with heredocIndent := o.buffer.heredocIndent, heredocLineIndent := -1 } }

theorem between_open (s : Lexer) : Between s [] (openCode s) s.strterm.toList :=
  ⟨⟨_, _, rfl⟩, rfl, rfl, rfl, rfl, _, .refl _, by simp [openCode]⟩

theorem between_close (o s : Lexer) (hs : s.strterm = none) : Between s o.strterm.toList (closeCode o s) [] :=
  ⟨⟨_, _, rfl⟩, rfl, rfl, rfl, rfl, _, .refl _, by simp [closeCode, hs]⟩

theorem startOf_new (src : Bytes) (h : (Lexer.new "(eval)" src none).toOption.isSome = true) :
    Lexer.new "(eval)" src none = .ok (startOf src h) := by
  have key : ∀ (r : Res Lexer) (h : r.toOption.isSome = true), r = .ok (r.toOption.get h) := by
    intro r h
    cases r with
    | error e => cases h
    | ok s => rfl
  exact key _ h

def orderSource : Bytes := ascs "<<A#c\n#{1#d\n}\nA\n"
def order0 : Lexer := startOf orderSource (by decide +kernel)
def order2 : Lexer := after (after order0)
def order5 : Lexer := after (after (after (openCode order2)))
def order8 : Lexer := after (after (after (closeCode order2 order5)))

/-- **C22**, order: comments are not always recorded in source order. A comment in the code of a heredoc body comes before the comment
that follows the start of the heredoc. -/
theorem C22_negation_order : Lexer.new "(eval)" orderSource none = .ok order0 ∧ (∃ ts, Driven asciiExt order0 ts order8 []) ∧
    order8.comments.map (fun c => (c.location.begin, c.location.stop)) = [(9, 12), (3, 6)] := by
  refine ⟨startOf_new _ _, ?_, by decide +kernel⟩
  have h0 : Driven asciiExt order0 [] order0 [] := .start
  obtain ⟨_, h1⟩ := driven_after h0 (t := .tSTRING_BEG) (by decide +kernel) (by decide)
  obtain ⟨_, h2⟩ := driven_after h1 (t := .tSTRING_DBEG) (by decide +kernel) (by decide)
  have h2' := h2.action (between_open order2)
  obtain ⟨_, h3⟩ := driven_after h2' (t := .tINTEGER) (by decide +kernel) (by decide)
  obtain ⟨_, h4⟩ := driven_after h3 (t := .tNL) (by decide +kernel) (by decide)
  obtain ⟨_, h5⟩ := driven_after h4 (t := .tSTRING_DEND) (by decide +kernel) (by decide)
  have hs : order5.strterm = none := by decide +kernel
  have h5' := h5.action (between_close order2 order5 hs)
  obtain ⟨_, h6⟩ := driven_after h5' (t := .tSTRING_CONTENT) (by decide +kernel) (by decide)
  obtain ⟨_, h7⟩ := driven_after h6 (t := .tSTRING_END) (by decide +kernel) (by decide)
  obtain ⟨_, h8⟩ := driven_after h7 (t := .tNL) (by decide +kernel) (by decide)
  exact ⟨_, h8⟩

end Verif.Props
