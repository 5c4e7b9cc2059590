import Verif.Props.Names
import Verif.Lemmas.LexVars
/-!
C61: instance, class and global variables are read whole, and classified as `Verif/Spec/Variables.lean` says.
-/
namespace Verif.Props
open Verif.Lexer
open NameSpec

theorem variable_text {d : Bool} {v rest : Bytes} {t : Tok} {st : LexState} (h : Variable d v rest t st) :
    t ≠ .tNL ∧ (∀ e ∈ v, e ≠ 10) ∧ ∃ c tl, v = c :: tl ∧ (c = asc '@' ∨ c = asc '$') := by
  have name : ∀ {cps : List Nat}, (∀ c ∈ cps, NameChar c) → ∀ e ∈ Utf8.encodeAll cps, e ≠ 10 := fun h e he => (nameByte_plain (encodeAll_bytes h e he)).1
  cases h with
  | ivar hn _ =>
    refine ⟨by decide, fun e he => ?_, _, _, rfl, .inl rfl⟩
    rcases List.mem_cons.1 he with rfl | he
    · decide
    · exact name hn.chars e he
  | cvar hn _ =>
    refine ⟨by decide, fun e he => ?_, _, _, rfl, .inl rfl⟩
    rcases List.mem_cons.1 he with rfl | he
    · decide
    rcases List.mem_cons.1 he with rfl | he
    · decide
    · exact name hn.chars e he
  | gvar hn _ _ =>
    refine ⟨by decide, fun e he => ?_, _, _, rfl, .inr rfl⟩
    rcases List.mem_cons.1 he with rfl | he
    · decide
    · exact name hn e he
  | punct hc =>
    refine ⟨by decide, fun e he => ?_, _, _, rfl, .inr rfl⟩
    have key : ∀ c ∈ ascs "~*$?!@/\\;,.=:<>\"", c ≠ 10 := by decide
    simp only [List.mem_cons, List.not_mem_nil, or_false] at he
    rcases he with rfl | rfl
    · decide
    · exact key _ hc
  | option hc =>
    refine ⟨by decide, fun e he => ?_, _, _, rfl, .inr rfl⟩
    obtain ⟨hs, hlf⟩ := NameChar.scalar hc
    simp only [List.mem_cons] at he
    rcases he with rfl | rfl | he
    · decide
    · decide
    · exact encode_no_lf hs hlf e he
  | backRef hc =>
    refine ⟨by split <;> decide, fun e he => ?_, _, _, rfl, .inr rfl⟩
    have key : ∀ c ∈ ascs "&`'+", c ≠ 10 := by decide
    simp only [List.mem_cons, List.not_mem_nil, or_false] at he
    rcases he with rfl | rfl
    · decide
    · exact key _ hc
  | nthRef h1 h2 _ =>
    refine ⟨by split <;> decide, fun e he => ?_, _, _, rfl, .inr rfl⟩
    have key : ∀ c : UInt8, asc '0' ≤ c ∧ c ≤ asc '9' → c ≠ 10 := byte_forall (by decide +kernel)
    have key1 : ∀ c : UInt8, asc '1' ≤ c ∧ c ≤ asc '9' → c ≠ 10 := byte_forall (by decide +kernel)
    simp only [List.mem_cons] at he
    rcases he with rfl | rfl | he
    · decide
    · exact key1 _ h1
    · exact key _ (h2 e he)

/-- A variable is read in the main loop. -/
theorem yylex_variable_ {x : Ext} {s : Lexer} {bs : Bytes} (hst : s.strterm = none) (hls : s.lvalStart = none) (hle : s.lvalEnd = none)
    {blanks v rest : Bytes} {t : Tok} {st : LexState} (hb : SkipsTo x bs s.lexState blanks (v ++ rest))
    (ht : Upcoming bs (blanks ++ (v ++ rest)) s.buffer) (hv : Variable (s.lexState.isSome EXPR_FNAME) v rest t st) :
    Wp (yylex x) (WordToken bs v rest t st (s.buffer.pcur + blanks.length) v.length s) s := by
  obtain ⟨h1, h2, c, tl, rfl, h3⟩ := variable_text hv
  refine yylex_sigil (rest := rest) ht hb h2 h1 (List.prefix_refl _) hst hls hle fun cmd ts sp s1 hs hf => ?_
  have out : ∀ {m : LexM Tok}, Wp m (WordRead bs (c :: tl) rest (s.buffer.pcur + blanks.length) (c :: tl).length s1 t st) s1 →
      Wp m (fun r s' => ∃ r', Next.tok r = .tok r' ∧ WordRead bs (c :: tl) rest (s.buffer.pcur + blanks.length) (c :: tl).length s1 t st r' s') s1 :=
    fun h => h.mono fun r s' h => ⟨r, rfl, h⟩
  rw [← hs.lexState] at hv
  clear h1 h2
  cases hv with
  | ivar hn hr => exact dispatch_at (out (atmark_ivar hf hn hr))
  | cvar hn hr => exact dispatch_at (out (atmark_cvar hf hn hr))
  | gvar hn h1 hr => exact dispatch_dollar (out (gvar_name hf hn h1 hr))
  | punct hc => exact dispatch_dollar (out (gvar_punct hf hc))
  | option hc => exact dispatch_dollar (out (gvar_option hf hc))
  | backRef hc => exact dispatch_dollar (out (gvar_backRef hf hc))
  | nthRef h1 h2 hr => exact dispatch_dollar (out (gvar_nthRef hf h1 h2 hr))

/-- **C61.** In every state outside of literals that the parser can drive the lexer to: if a variable stands at the cursor, after blanks, then the
next token is the variable, the whole of it and nothing more, with the type and the state of the specification, and nothing is reported. -/
theorem C61_variable {name : String} {bs : Bytes} {dec : Option DecoderFn} {s0 s : Lexer} {x : Ext} {ts : List Token} {held : List StrTerm}
    (ha : Admissible name bs dec s0) (h : Driven x s0 ts s held) (hst : s.strterm = none) (hseq : Seq s.buffer)
    {blanks v rest : Bytes} {t : Tok} {st : LexState} (hb : ∀ c ∈ blanks, Blank c)
    (ht : collapse (bs.drop s.buffer.pcur) = blanks ++ (v ++ rest)) (hv : Variable (s.lexState.isSome EXPR_FNAME) v rest t st) :
    ReadsWord x s blanks v v.length t st rest := by
  have hi := Driven.inv ha.inv h
  exact readsWord_of hi.bytes (yylex_variable_ hst hi.inv.ls hi.inv.le (.of hb) ⟨hseq, hi.bytes, ht⟩ hv)

/-- The exception: `$-` before a character that does not continue a name is an error in Ruby. Here the dollar sign is a character literal, whose
value is the dollar sign, and the dash is an operator. Nothing is reported. -/
theorem C61_dash {name : String} {bs : Bytes} {dec : Option DecoderFn} {s0 s : Lexer} {x : Ext} {ts : List Token} {held : List StrTerm}
    (ha : Admissible name bs dec s0) (h : Driven x s0 ts s held) (hst : s.strterm = none) (hseq : Seq s.buffer)
    {blanks rest : Bytes} {c : UInt8} (hb : ∀ c ∈ blanks, Blank c)
    (ht : collapse (bs.drop s.buffer.pcur) = blanks ++ (ascs "$-" ++ c :: rest)) (hc : ¬ NameByte c) :
    ReadsWord x s blanks (ascs "$") 1 .tCHAR EXPR_END (asc '-' :: c :: rest) := by
  have hi := Driven.inv ha.inv h
  refine readsWord_of hi.bytes (yylex_sigil (c := asc '$') (tl := [asc '-']) (rest := c :: rest) ⟨hseq, hi.bytes, ht⟩ (.of hb) (by decide) (by decide) ⟨[asc '-'], rfl⟩ hst hi.inv.ls hi.inv.le
    fun cmd ts sp s1 hs hf => ?_)
  exact dispatch_dollar ((gvar_dash hf hc).mono fun r s' h => ⟨r, rfl, h⟩)

/-- **C61, errors.** What begins like a variable but has no name, or a name that begins with a digit, is reported (all but `$-`, see `C61_dash`). -/
theorem C61_malformed_partial {name : String} {bs : Bytes} {dec : Option DecoderFn} {s0 s : Lexer} {x : Ext} {ts : List Token} {held : List StrTerm}
    (ha : Admissible name bs dec s0) (h : Driven x s0 ts s held) (hst : s.strterm = none) (hseq : Seq s.buffer)
    {blanks text : Bytes} (hb : ∀ c ∈ blanks, Blank c) (ht : collapse (bs.drop s.buffer.pcur) = blanks ++ text) (hm : Malformed text) :
    ∃ t s' m l, yylex x s = .ok (t, s') ∧ s'.diagnostics = s.diagnostics ++ [⟨.error, m, l⟩] := by
  have hi := Driven.inv ha.inv h
  have out : ∀ {m : LexM Tok} {s1 : Lexer}, Wp m (Faulty bs s1) s1 → Wp m (fun r s' => ∃ r', Next.tok r = .tok r' ∧ Faulty bs s1 r' s') s1 :=
    fun h => h.mono fun r s' h => ⟨r, rfl, h⟩
  have key : Wp (yylex x) (fun _ s' => ∃ m l, s'.diagnostics = s.diagnostics ++ [⟨.error, m, l⟩]) s := by
    cases hm with
    | at1 h1 h2 => exact yylex_faulty ⟨hseq, hi.bytes, ht⟩ hb (by decide) hst hi.inv.ls hi.inv.le fun _ _ _ _ _ hf => dispatch_at (out (atmark1_faulty hf h1 (.inl h2)))
    | @at1Digit d rest h1 => exact yylex_faulty ⟨hseq, hi.bytes, ht⟩ hb (by decide) hst hi.inv.ls hi.inv.le fun _ _ _ _ _ hf => dispatch_at (out (atmark1_faulty hf
        (by have : ∀ d : UInt8, asc '0' ≤ d ∧ d ≤ asc '9' → d ≠ asc '@' := byte_forall (by decide +kernel)
            simpa using this d h1) (.inr ⟨d, rfl, h1⟩)))
    | at2 h2 => exact yylex_faulty ⟨hseq, hi.bytes, ht⟩ hb (by decide) hst hi.inv.ls hi.inv.le fun _ _ _ _ _ hf => dispatch_at (out (atmark2_faulty hf (.inl h2)))
    | @at2Digit d rest h1 => exact yylex_faulty ⟨hseq, hi.bytes, ht⟩ hb (by decide) hst hi.inv.ls hi.inv.le fun _ _ _ _ _ hf => dispatch_at (out (atmark2_faulty hf (.inr ⟨d, rfl, h1⟩)))
    | dollar h1 h2 => exact yylex_faulty ⟨hseq, hi.bytes, ht⟩ hb (by decide) hst hi.inv.ls hi.inv.le fun _ _ _ _ _ hf => dispatch_dollar (out (gvar_faulty hf h1 h2))
  obtain ⟨t, s', e, m, l, hd⟩ := key
  exact ⟨t, s', m, l, e, hd⟩

def var1 : Lexer := startOf (ascs "@@ab+$12") (by decide +kernel)

/-- `@@ab+$12` at the begin. -/
example : ReadsWord asciiExt var1 [] (ascs "@@ab") 4 .tCVAR EXPR_END (ascs "+$12") := by
  have ha : Admissible "(eval)" (ascs "@@ab+$12") none var1 := ⟨startOf_new _ _, by decide, by simp⟩
  have hi := Driven.inv (x := asciiExt) ha.inv .start
  have hst : var1.lexState = EXPR_BEG := by decide +kernel
  refine C61_variable (x := asciiExt) ha .start (by decide +kernel) ⟨hi.inv.good, by decide +kernel, by decide +kernel, by decide +kernel⟩ (by simp)
    (by decide +kernel) ?_
  rw [hst]
  exact .cvar (cps := [97, 98]) ⟨by unfold NameChar; decide, 97, rfl, by decide⟩ fun c hc => by cases hc; unfold NameByte; decide

/-- `@@ab+$12` after the operator: the group of a match. -/
example : ReadsWord asciiExt (after (after var1)) [] (ascs "$12") 3 .tNTH_REF EXPR_END [] := by
  have ha : Admissible "(eval)" (ascs "@@ab+$12") none var1 := ⟨startOf_new _ _, by decide, by simp⟩
  obtain ⟨ts, hdr⟩ : ∃ ts, Driven asciiExt var1 ts (after var1) [] := driven_after .start (t := .tCVAR) (by decide +kernel) (by decide)
  obtain ⟨ts, hdr⟩ : ∃ ts, Driven asciiExt var1 ts (after (after var1)) [] := driven_after hdr (t := .tPLUS) (by decide +kernel) (by decide)
  have hi := Driven.inv ha.inv hdr
  have hst : (after (after var1)).lexState = EXPR_BEG := by decide +kernel
  refine C61_variable ha hdr (by decide +kernel) ⟨hi.inv.good, by decide +kernel, by decide +kernel, by decide +kernel⟩ (by simp)
    (by decide +kernel) ?_
  rw [hst]
  exact .nthRef (d := asc '1') (ds := [asc '2']) (by decide) (by decide) fun c hc => by cases hc

def var2 : Lexer := startOf (ascs "$- 1") (by decide +kernel)

/-- `$- 1` is read as `"$" - 1`. -/
example : ReadsWord asciiExt var2 [] (ascs "$") 1 .tCHAR EXPR_END (ascs "- 1") ∧
    (tokenizeUntilEof asciiExt 9 var2).map (fun r => (r.1.map fun t => (t.tokenType, t.tokenValue), r.2.diagnostics)) =
      .ok ([(.tCHAR, ascs "$"), (.tMINUS, ascs "-"), (.tINTEGER, ascs "1")], []) := by
  have ha : Admissible "(eval)" (ascs "$- 1") none var2 := ⟨startOf_new _ _, by decide, by simp⟩
  have hi := Driven.inv (x := asciiExt) ha.inv .start
  exact ⟨C61_dash (x := asciiExt) (blanks := []) (rest := ascs "1") (c := 32) ha .start (by decide +kernel)
    ⟨hi.inv.good, by decide +kernel, by decide +kernel, by decide +kernel⟩ (by simp)
    (by decide +kernel) (by unfold NameByte; decide), by decide +kernel⟩

def var3 : Lexer := startOf (ascs " @1") (by decide +kernel)

/-- ` @1` is an error. -/
example : ∃ t s' m l, yylex asciiExt var3 = .ok (t, s') ∧ s'.diagnostics = var3.diagnostics ++ [⟨.error, m, l⟩] := by
  have ha : Admissible "(eval)" (ascs " @1") none var3 := ⟨startOf_new _ _, by decide, by simp⟩
  have hi := Driven.inv (x := asciiExt) ha.inv .start
  exact C61_malformed_partial (x := asciiExt) (blanks := ascs " ") (text := ascs "@1") ha .start (by decide +kernel)
    ⟨hi.inv.good, by decide +kernel, by decide +kernel, by decide +kernel⟩ (fun c hc => .inl (by simpa [ascs] using hc))
    (by decide +kernel) (.at1Digit (d := asc '1') (by decide))

end Verif.Props
