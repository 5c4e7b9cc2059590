import Verif.Props.Operators
import Verif.Lemmas.LexWord
/-!
C60: names and keywords are read whole, and classified as `Verif/Spec/Names.lean` says.
-/
namespace Verif.Props
open Verif.Lexer
open NameSpec

/-- The next call of the lexer gives the word `v` after the blanks: the token has the type `t`, it covers `len` bytes, `rest` follows, the state
afterwards is `st`, and nothing is reported. -/
def ReadsWord (x : Ext) (s : Lexer) (blanks v : Bytes) (len : Nat) (t : Tok) (st : LexState) (rest : Bytes) : Prop :=
  let p := s.buffer.pcur + blanks.length
  ∃ s', yylex x s = .ok (⟨t, v, ⟨p, p + len⟩⟩, s') ∧ s'.buffer.pcur = p + len ∧ s'.buffer.d.bytes = s.buffer.d.bytes ∧
    collapse (s.buffer.d.bytes.drop s'.buffer.pcur) = rest ∧ s'.lexState = st ∧ s'.strterm = none ∧ Seq s'.buffer ∧ s'.diagnostics = s.diagnostics

theorem readsWord_of {x : Ext} {s : Lexer} {bs blanks v rest : Bytes} {t : Tok} {st : LexState} {len : Nat} (hbs : s.buffer.d.bytes = bs)
    (h : Wp (yylex x) (WordToken bs v rest t st (s.buffer.pcur + blanks.length) len s) s) : ReadsWord x s blanks v len t st rest := by
  obtain ⟨r, s', e, rfl, h1, h2, h3, -, -, h4, h5⟩ := h
  exact ⟨s', e, h2, by rw [h1.d, hbs], by rw [hbs]; exact h1.txt, h5, h3, h1.seq, h4⟩

/-- The table of the specification is the table of the code. -/
theorem keywords_eq : reservedWordsList = keywords.map fun k => ⟨ascs k.1, k.2.1, k.2.2.1, k.2.2.2⟩ := by decide +kernel

theorem kind_ne {mark : Bytes} {u : Bool} : kind mark u ≠ .tNL := by
  unfold kind; split
  · decide
  · split <;> decide

/-- **C60, labels.** In every state outside of literals that the parser can drive the lexer to: if a name stands at the cursor, after blanks,
a label can stand here, and a single colon follows, then the next token is the label. -/
theorem C60_label {name : String} {bs : Bytes} {dec : Option DecoderFn} {s0 s : Lexer} {x : Ext} {ts : List Token} {held : List StrTerm}
    (ha : Admissible name bs dec s0) (h : Driven x s0 ts s held) (hst : s.strterm = none) (hseq : Seq s.buffer)
    {cps : List Nat} {mark blanks rest : Bytes} (hn : Name cps) (hne : Utf8.encodeAll cps ≠ ascs "__END__") (hb : ∀ c ∈ blanks, Blank c)
    (he : Ends (s.lexState.isSome EXPR_FNAME) mark rest) (ht : collapse (bs.drop s.buffer.pcur) = blanks ++ (Utf8.encodeAll cps ++ (mark ++ rest)))
    (hl : LabelAt s.lexState s.commandStart ∧ Colon rest) :
    ReadsWord x s blanks (Utf8.encodeAll cps ++ mark) ((Utf8.encodeAll cps ++ mark).length + 1) .tLABEL (EXPR_ARG ||| EXPR_LABELED) rest.tail := by
  have hi := Driven.inv ha.inv h
  refine readsWord_of hi.bytes (yylex_word ⟨hseq, hi.bytes, ht⟩ (.of hb) hn hne he (by decide) rfl hst hi.inv.ls hi.inv.le fun s1 hs hw => ?_)
  exact tail_label hw.up hw.pcur hw.pos hw.ptok hw.prev hw.buf hw.strterm hw.ls hw.le (by rw [hs.lexState]; exact hl)

/-- A name is read in the main loop. -/
theorem yylex_name_ {x : Ext} {s : Lexer} {bs : Bytes}
    (hst : s.strterm = none) (hls : s.lvalStart = none) (hle : s.lvalEnd = none)
    {cps : List Nat} {mark blanks rest : Bytes} (hn : Name cps) (hne : Utf8.encodeAll cps ≠ ascs "__END__") (hb : SkipsTo x bs s.lexState blanks (Utf8.encodeAll cps ++ (mark ++ rest)))
    (he : Ends (s.lexState.isSome EXPR_FNAME) mark rest) (ht : Upcoming bs (blanks ++ (Utf8.encodeAll cps ++ (mark ++ rest))) s.buffer)
    (hl : ¬ (LabelAt s.lexState s.commandStart ∧ Colon rest))
    (hk : s.lexState.isSome EXPR_DOT = true ∨ ∀ k ∈ keywords, ascs k.1 ≠ Utf8.encodeAll cps ++ mark) {cp : Nat} (hcp : cps.head? = some cp) :
    Wp (yylex x) (WordToken bs (Utf8.encodeAll cps ++ mark) rest (kind mark (x.isUppercase cp))
      (stateAfter s.lexState s.commandStart
        (decide (mark = []) && !x.isUppercase cp && !s.lexState.isSome (EXPR_DOT ||| EXPR_FNAME) && s.staticEnv.isDeclared cps))
      (s.buffer.pcur + blanks.length) (Utf8.encodeAll cps ++ mark).length s) s := by
  refine yylex_word ht hb hn hne he kind_ne rfl hst hls hle fun s1 hs hw => ?_
  have key := tail_name (x := x) hw.up hw.pcur hw.pos hw.ptok hw.prev hw.buf hw.strterm hw.ls hw.le (cmd := s.commandStart) (by rw [hs.lexState]; exact hl) rfl hn (by rw [hs.lexState]; exact he)
    (by
      rw [hs.lexState]
      refine hk.imp_right fun hk kw hkw => ?_
      rw [keywords_eq, List.mem_map] at hkw
      obtain ⟨k, h1, rfl⟩ := hkw
      exact hk k h1) hcp
  have e : (!s.lexState.isSome (EXPR_DOT ||| EXPR_FNAME) && kind mark (x.isUppercase cp) == .tIDENTIFIER && s.staticEnv.isDeclared (textOf (Utf8.encodeAll cps ++ mark))) =
      (decide (mark = []) && !x.isUppercase cp && !s.lexState.isSome (EXPR_DOT ||| EXPR_FNAME) && s.staticEnv.isDeclared cps) := by
    cases he with
    | plain _ _ _ =>
      rw [List.append_nil, textOf, Utf8.lossy_encodeAll fun c hc => (NameChar.scalar (hn.chars c hc)).1]
      cases x.isUppercase cp <;> cases s.lexState.isSome (EXPR_DOT ||| EXPR_FNAME) <;> simp [kind]
    | mark hm _ =>
      rcases hm with rfl | rfl <;> simp [kind]
    | setter hd _ =>
      have : s.lexState.isSome (EXPR_DOT ||| EXPR_FNAME) = true := by
        by_contra hne
        have := (isSome_or (by simpa using hne)).2
        rw [this] at hd; cases hd
      simp [this]
  rw [show stateAfter s1.lexState _ _ = _ from congrArg₂ (fun a b => stateAfter a s.commandStart b) hs.lexState (by rw [hs.lexState, hs.staticEnv]), e] at key
  exact key

/-- **C60, names.** Likewise, if it is not a label and, unless it comes after a dot, not a keyword: a mark makes it the name of a method, an
upper-case first character a constant. A local variable is recognized, so that an operator is expected after it. -/
theorem C60_name {name : String} {bs : Bytes} {dec : Option DecoderFn} {s0 s : Lexer} {x : Ext} {ts : List Token} {held : List StrTerm}
    (ha : Admissible name bs dec s0) (h : Driven x s0 ts s held) (hst : s.strterm = none) (hseq : Seq s.buffer)
    {cps : List Nat} {mark blanks rest : Bytes} (hn : Name cps) (hne : Utf8.encodeAll cps ≠ ascs "__END__") (hb : ∀ c ∈ blanks, Blank c)
    (he : Ends (s.lexState.isSome EXPR_FNAME) mark rest) (ht : collapse (bs.drop s.buffer.pcur) = blanks ++ (Utf8.encodeAll cps ++ (mark ++ rest)))
    (hl : ¬ (LabelAt s.lexState s.commandStart ∧ Colon rest))
    (hk : s.lexState.isSome EXPR_DOT = true ∨ ∀ k ∈ keywords, ascs k.1 ≠ Utf8.encodeAll cps ++ mark) {cp : Nat} (hcp : cps.head? = some cp) :
    ReadsWord x s blanks (Utf8.encodeAll cps ++ mark) (Utf8.encodeAll cps ++ mark).length (kind mark (x.isUppercase cp))
      (stateAfter s.lexState s.commandStart
        (decide (mark = []) && !x.isUppercase cp && !s.lexState.isSome (EXPR_DOT ||| EXPR_FNAME) && s.staticEnv.isDeclared cps)) rest := by
  have hi := Driven.inv ha.inv h
  exact readsWord_of hi.bytes (yylex_name_ hst hi.inv.ls hi.inv.le hn hne (.of hb) he ⟨hseq, hi.bytes, ht⟩ hl hk hcp)

/-- A keyword is read in the main loop. -/
theorem yylex_keyword_ {x : Ext} {s : Lexer} {bs : Bytes}
    (hst : s.strterm = none) (hls : s.lvalStart = none) (hle : s.lvalEnd = none)
    {cps : List Nat} {mark blanks rest : Bytes} (hn : Name cps) (hb : SkipsTo x bs s.lexState blanks (Utf8.encodeAll cps ++ (mark ++ rest)))
    (he : Ends (s.lexState.isSome EXPR_FNAME) mark rest) (ht : Upcoming bs (blanks ++ (Utf8.encodeAll cps ++ (mark ++ rest))) s.buffer)
    (hl : ¬ (LabelAt s.lexState s.commandStart ∧ Colon rest)) (hdot : s.lexState.isSome EXPR_DOT = false)
    {word : String} {start other : Tok} {st : LexState} (hk : (word, start, other, st) ∈ keywords) (hw : Utf8.encodeAll cps ++ mark = ascs word) (hdo : word ≠ "do") :
    Wp (yylex x) (WordToken bs (ascs word) rest (if s.lexState.isSome (EXPR_FNAME ||| EXPR_BEG ||| EXPR_LABELED) then start else other)
      (if s.lexState.isSome EXPR_FNAME then EXPR_ENDFN
       else if s.lexState.isSome (EXPR_BEG ||| EXPR_LABELED) = false ∧ start ≠ other then EXPR_BEG ||| EXPR_LABEL else st)
      (s.buffer.pcur + blanks.length) word.length s) s := by
  have hkw : (⟨ascs word, start, other, st⟩ : ReservedWord) ∈ reservedWordsList := by
    rw [keywords_eq, List.mem_map]; exact ⟨_, hk, rfl⟩
  have facts : ∀ k ∈ keywords, (k.2.1 = .kDO → k.1 = "do") ∧ k.2.1 ≠ .tNL ∧ k.2.2.1 ≠ .tNL ∧ ascs k.1 ≠ ascs "__END__" ∧
      ∀ m ∈ [[], [asc '!'], [asc '?'], [asc '=']], ascs "__END__" ++ m ≠ ascs k.1 := by decide +kernel
  obtain ⟨f1, f2, f3, f4, f5⟩ := facts _ hk
  have hlen : word.length = (ascs word).length := by simp [ascs, String.length_toList]
  have hne : Utf8.encodeAll cps ≠ ascs "__END__" := by
    intro e
    rw [e] at hw
    refine f5 mark ?_ hw
    cases he with
    | plain _ _ _ => simp
    | mark hm _ => rcases hm with rfl | rfl <;> simp
    | setter _ _ => simp
  rw [hlen]
  refine yylex_word ht hb hn hne he ?_ hw.symm hst hls hle fun s1 hs hwd => ?_
  · split
    · exact f2
    · exact f3
  have key := tail_keyword (x := x) (result := suffixTok mark) (last := s1.lexState) hwd.up hwd.pcur hwd.pos hwd.ptok hwd.prev hwd.buf hwd.lval hwd.strterm hwd.ls hwd.le (cmd := s.commandStart)
    (by rw [hs.lexState]; exact hl) hkw rfl (by rw [hs.lexState]; exact hdot)
  dsimp only at key
  have hd : start ≠ .kDO := fun e => hdo (f1 e)
  rw [if_neg hd] at key
  have e1 : keywordTok s1.lexState ⟨ascs word, start, other, st⟩ = (if s.lexState.isSome (EXPR_FNAME ||| EXPR_BEG ||| EXPR_LABELED) then start else other) := by
    rw [hs.lexState]
    unfold keywordTok
    have : s.lexState.isSome (EXPR_FNAME ||| EXPR_BEG ||| EXPR_LABELED) = (s.lexState.isSome EXPR_FNAME || s.lexState.isSome (EXPR_BEG ||| EXPR_LABELED)) := by
      simp only [LexState.isSome, Nat.and_or_distrib_left]
      rw [Bool.eq_iff_iff]
      simp only [bne_iff_ne, ne_eq, Bool.or_eq_true, Nat.or_eq_zero_iff]
      tauto
    rw [this]
    cases s.lexState.isSome EXPR_FNAME <;> cases s.lexState.isSome (EXPR_BEG ||| EXPR_LABELED) <;> rfl
  have e2 : keywordState s1.lexState ⟨ascs word, start, other, st⟩ = (if s.lexState.isSome EXPR_FNAME then EXPR_ENDFN
       else if s.lexState.isSome (EXPR_BEG ||| EXPR_LABELED) = false ∧ start ≠ other then EXPR_BEG ||| EXPR_LABEL else st) := by
    rw [hs.lexState]
    unfold keywordState
    simp [hd]
  rw [e1, e2] at key
  exact key

/-- **C60, keywords.** Likewise, if it is not a label, does not come after a dot, and is a keyword other than `do`: the token is that of the table,
the modifier where an expression cannot start. Where the name of a method is expected the keyword is a name for the parser. -/
theorem C60_keyword {name : String} {bs : Bytes} {dec : Option DecoderFn} {s0 s : Lexer} {x : Ext} {ts : List Token} {held : List StrTerm}
    (ha : Admissible name bs dec s0) (h : Driven x s0 ts s held) (hst : s.strterm = none) (hseq : Seq s.buffer)
    {cps : List Nat} {mark blanks rest : Bytes} (hn : Name cps) (hb : ∀ c ∈ blanks, Blank c)
    (he : Ends (s.lexState.isSome EXPR_FNAME) mark rest) (ht : collapse (bs.drop s.buffer.pcur) = blanks ++ (Utf8.encodeAll cps ++ (mark ++ rest)))
    (hl : ¬ (LabelAt s.lexState s.commandStart ∧ Colon rest)) (hdot : s.lexState.isSome EXPR_DOT = false)
    {word : String} {start other : Tok} {st : LexState} (hk : (word, start, other, st) ∈ keywords) (hw : Utf8.encodeAll cps ++ mark = ascs word) (hdo : word ≠ "do") :
    ReadsWord x s blanks (ascs word) word.length
      (if s.lexState.isSome (EXPR_FNAME ||| EXPR_BEG ||| EXPR_LABELED) then start else other)
      (if s.lexState.isSome EXPR_FNAME then EXPR_ENDFN
       else if s.lexState.isSome (EXPR_BEG ||| EXPR_LABELED) = false ∧ start ≠ other then EXPR_BEG ||| EXPR_LABEL else st) rest := by
  have hi := Driven.inv ha.inv h
  exact readsWord_of hi.bytes (yylex_keyword_ hst hi.inv.ls hi.inv.le hn (.of hb) he ⟨hseq, hi.bytes, ht⟩ hl hdot hk hw hdo)

/-- **C60, `do`.** The word `do` begins the body of a lambda, of a loop, the block of a command's argument, or another block. -/
theorem C60_do {name : String} {bs : Bytes} {dec : Option DecoderFn} {s0 s : Lexer} {x : Ext} {ts : List Token} {held : List StrTerm}
    (ha : Admissible name bs dec s0) (h : Driven x s0 ts s held) (hst : s.strterm = none) (hseq : Seq s.buffer)
    {blanks rest : Bytes} (hb : ∀ c ∈ blanks, Blank c)
    (he : Ends (s.lexState.isSome EXPR_FNAME) [] rest) (ht : collapse (bs.drop s.buffer.pcur) = blanks ++ (ascs "do" ++ rest))
    (hl : ¬ (LabelAt s.lexState s.commandStart ∧ Colon rest)) (hdot : s.lexState.isSome (EXPR_DOT ||| EXPR_FNAME) = false) :
    ReadsWord x s blanks (ascs "do") 2
      (if s.lparBeg = s.parenNest then .kDO_LAMBDA else if s.cond.isActive then .kDO_COND
       else if s.cmdarg.isActive ∧ s.lexState.isSome EXPR_CMDARG = false then .kDO_BLOCK else .kDO) EXPR_BEG rest := by
  have hi := Driven.inv ha.inv h
  obtain ⟨hdot, hfn⟩ := isSome_or hdot
  have hn : Name [100, 111] := ⟨by unfold NameChar; decide, 100, rfl, by decide⟩
  have hkw : (⟨ascs "do", .kDO, .kDO, EXPR_BEG⟩ : ReservedWord) ∈ reservedWordsList := by decide +kernel
  refine readsWord_of hi.bytes (yylex_word (cps := [100, 111]) (mark := []) ⟨hseq, hi.bytes, ht⟩ (.of hb) hn (by decide) he ?_ rfl hst hi.inv.ls hi.inv.le fun s1 hs hwd => ?_)
  · repeat' split
    all_goals decide
  have key := tail_keyword (x := x) (result := suffixTok []) (last := s1.lexState) hwd.up hwd.pcur hwd.pos hwd.ptok hwd.prev hwd.buf hwd.lval hwd.strterm hwd.ls hwd.le (cmd := s.commandStart)
    (by rw [hs.lexState]; exact hl) hkw rfl (by rw [hs.lexState]; exact hdot)
  dsimp only at key
  rw [if_pos rfl] at key
  have e1 : doTok s1 = (if s.lparBeg = s.parenNest then .kDO_LAMBDA else if s.cond.isActive then .kDO_COND
       else if s.cmdarg.isActive ∧ s.lexState.isSome EXPR_CMDARG = false then .kDO_BLOCK else .kDO) := by
    unfold doTok
    rw [hs.lexState, hs.lparBeg, hs.parenNest, hs.cond, hs.cmdarg, hfn]
    simp
  have e2 : keywordState s1.lexState ⟨ascs "do", .kDO, .kDO, EXPR_BEG⟩ = EXPR_BEG := by
    unfold keywordState
    rw [hs.lexState, hfn]
    simp
  rw [e1, e2] at key
  exact key

def word1 : Lexer := startOf (ascs "1 if x") (by decide +kernel)

/-- `1 if x` after the number: `if` is the modifier. -/
example : ReadsWord asciiExt (after word1) (ascs " ") (ascs "if") 2 .kIF_MOD (EXPR_BEG ||| EXPR_LABEL) (ascs " x") := by
  have ha : Admissible "(eval)" (ascs "1 if x") none word1 := ⟨startOf_new _ _, by decide, by simp⟩
  obtain ⟨ts, hdr⟩ : ∃ ts, Driven asciiExt word1 ts (after word1) [] := driven_after .start (t := .tINTEGER) (by decide +kernel) (by decide)
  have hi := Driven.inv ha.inv hdr
  have hst : (after word1).lexState = EXPR_END := by decide +kernel
  have := C60_keyword (cps := [105, 102]) (mark := []) (blanks := ascs " ") (rest := ascs " x") (word := "if") (start := .kIF) (other := .kIF_MOD) (st := EXPR_BEG) ha hdr
    (by decide +kernel) ⟨hi.inv.good, by decide +kernel, by decide +kernel, by decide +kernel⟩
    ⟨by unfold NameChar; decide, 105, rfl, by decide⟩ (fun c hc => .inl (by simpa [ascs] using hc))
    (.plain (fun c hc => by simp [ascs] at hc; subst hc; unfold NameByte; decide) (fun c t e => by simp [ascs] at e; rw [← e.1]; exact fun h => absurd h (by decide)) fun t e => by cases e) (by decide +kernel)
    (fun h => absurd h.2.1 (by decide)) (by rw [hst]; decide) (by decide) (by decide) (by decide)
  rw [hst] at this
  exact this

def word2 : Lexer := startOf (ascs "1.class") (by decide +kernel)

/-- `1.class` after the dot: `class` is the name of a method. -/
example : ReadsWord asciiExt (after (after word2)) [] (ascs "class") 5 .tIDENTIFIER EXPR_ARG [] := by
  have ha : Admissible "(eval)" (ascs "1.class") none word2 := ⟨startOf_new _ _, by decide, by simp⟩
  obtain ⟨ts, hdr⟩ : ∃ ts, Driven asciiExt word2 ts (after word2) [] := driven_after .start (t := .tINTEGER) (by decide +kernel) (by decide)
  obtain ⟨ts, hdr⟩ : ∃ ts, Driven asciiExt word2 ts (after (after word2)) [] := driven_after hdr (t := .tDOT) (by decide +kernel) (by decide)
  have hi := Driven.inv ha.inv hdr
  have hst : (after (after word2)).lexState = EXPR_DOT := by decide +kernel
  have hcs : (after (after word2)).commandStart = false := by decide +kernel
  have := C60_name (cps := [99, 108, 97, 115, 115]) (mark := []) (blanks := []) (rest := []) (cp := 99) ha hdr
    (by decide +kernel) ⟨hi.inv.good, by decide +kernel, by decide +kernel, by decide +kernel⟩
    ⟨by unfold NameChar; decide, 99, rfl, by decide⟩ (by decide) (by simp)
    (.plain (fun c hc => by cases hc) (fun c t e => by cases e) fun t e => by cases e) (by decide +kernel)
    (fun h => absurd h.2.1 (by decide)) (.inl (by rw [hst]; decide)) rfl
  rw [hst, hcs] at this
  exact this

def word3 : Lexer := startOf (Utf8.encodeAll [40, 233, 120, 33, 41]) (by decide +kernel)

/-- `(éx!)` after the parenthesis: the name of a method with a mark. -/
example : ReadsWord asciiExt (after word3) [] [0xC3, 0xA9, 120, 33] 4 .tFID EXPR_ARG [41] := by
  have ha : Admissible "(eval)" (Utf8.encodeAll [40, 233, 120, 33, 41]) none word3 := ⟨startOf_new _ _, by decide, by simp⟩
  obtain ⟨ts, hdr⟩ : ∃ ts, Driven asciiExt word3 ts (after word3) [] := driven_after .start (t := .tLPAREN) (by decide +kernel) (by decide)
  have hi := Driven.inv ha.inv hdr
  have hst : (after word3).lexState = EXPR_BEG ||| EXPR_LABEL := by decide +kernel
  have hcs : (after word3).commandStart = false := by decide +kernel
  have := C60_name (cps := [233, 120]) (mark := [33]) (blanks := []) (rest := [41]) (cp := 233) ha hdr
    (by decide +kernel) ⟨hi.inv.good, by decide +kernel, by decide +kernel, by decide +kernel⟩
    ⟨by unfold NameChar; decide, 233, rfl, by decide⟩ (by decide) (by simp)
    (.mark (.inl rfl) (by decide)) (by decide +kernel)
    (fun h => absurd h.2.1 (by decide)) (.inr (by decide +kernel)) rfl
  rw [hst, hcs] at this
  exact this

def word4 : Lexer := startOf (ascs "f if: 1") (by decide +kernel)

/-- `f if: 1` after `f`: a label, though its name is a keyword. -/
example : ReadsWord asciiExt (after word4) (ascs " ") (ascs "if") 3 .tLABEL (EXPR_ARG ||| EXPR_LABELED) (ascs " 1") := by
  have ha : Admissible "(eval)" (ascs "f if: 1") none word4 := ⟨startOf_new _ _, by decide, by simp⟩
  obtain ⟨ts, hdr⟩ : ∃ ts, Driven asciiExt word4 ts (after word4) [] := driven_after .start (t := .tIDENTIFIER) (by decide +kernel) (by decide)
  have hi := Driven.inv ha.inv hdr
  have hst : (after word4).lexState = EXPR_ARG := by decide +kernel
  exact C60_label (cps := [105, 102]) (mark := []) (blanks := ascs " ") (rest := ascs ": 1") ha hdr
    (by decide +kernel) ⟨hi.inv.good, by decide +kernel, by decide +kernel, by decide +kernel⟩
    ⟨by unfold NameChar; decide, 105, rfl, by decide⟩ (by decide) (fun c hc => .inl (by simpa [ascs] using hc))
    (.plain (fun c hc => by simp [ascs] at hc; subst hc; unfold NameByte; decide) (fun c t e => by simp [ascs] at e; rw [← e.1]; exact fun h => absurd h (by decide)) fun t e => by cases e) (by decide +kernel)
    ⟨.inr (by rw [hst]; decide), by decide, by decide⟩

def word5 : Lexer := startOf (ascs "f do") (by decide +kernel)

/-- `f do` after `f`: the block of the call. -/
example : ReadsWord asciiExt (after word5) (ascs " ") (ascs "do") 2 .kDO EXPR_BEG [] := by
  have ha : Admissible "(eval)" (ascs "f do") none word5 := ⟨startOf_new _ _, by decide, by simp⟩
  obtain ⟨ts, hdr⟩ : ∃ ts, Driven asciiExt word5 ts (after word5) [] := driven_after .start (t := .tIDENTIFIER) (by decide +kernel) (by decide)
  have hi := Driven.inv ha.inv hdr
  have := C60_do (blanks := ascs " ") (rest := []) ha hdr
    (by decide +kernel) ⟨hi.inv.good, by decide +kernel, by decide +kernel, by decide +kernel⟩ (fun c hc => .inl (by simpa [ascs] using hc))
    (.plain (fun c hc => by cases hc) (fun c t e => by cases e) fun t e => by cases e) (by decide +kernel)
    (fun h => absurd h.2.1 (by decide)) (by decide +kernel)
  rw [if_neg (by decide +kernel), if_neg (by decide +kernel), if_neg (by decide +kernel)] at this
  exact this

end Verif.Props
