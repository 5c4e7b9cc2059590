import Verif.Lemmas.LexStr
import Verif.Props.Variables
/-! Symbols, names of methods after `def`, and parentheses that follow directly. -/
namespace Verif.Lexer
open Verif.Props (yylex_name_ yylex_keyword_ yylex_variable_ variable_text)
open OpSpec NameSpec LineSpec

/-- The colon of a symbol. -/
theorem colon_symbol {bs rest : Bytes} {p : Nat} {s : Lexer} {sp : Bool} (h : OpFirst bs rest p s) (he : s.lexState.isEnd = false) (n0 : rest.head? ≠ some (asc ':'))
    (n1 : rest.head? ≠ some (asc '\'')) (n2 : rest.head? ≠ some (asc '"')) (n3 : rest.head? ≠ some (asc '#')) (n4 : MB.isSpace rest.head? = false) :
    Wp (lexColon sp s.lexState) (fun r s' => ∃ r', r = .tok r' ∧ WordRead bs [asc ':'] rest p 1 s .tSYMBEG EXPR_FNAME r' s') s := by
  obtain ⟨hb, h2, h3, h4, h5, h6, h7⟩ := h
  unfold lexColon
  repeat ostep
  refine ⟨_, rfl, ?_⟩
  exact ⟨rfl, by assumption, by simp only [*], by simp only [*], .inl ⟨by assumption, rfl⟩, by assumption, by assumption, by assumption, rfl, rfl⟩

theorem yylex_symbeg {x : Ext} {bs blanks rest : Bytes} {s : Lexer} (h : Upcoming bs (blanks ++ (asc ':' :: rest)) s.buffer)
    (hb : SkipsTo x bs s.lexState blanks (asc ':' :: rest)) (he : s.lexState.isEnd = false) (n0 : rest.head? ≠ some (asc ':'))
    (n1 : rest.head? ≠ some (asc '\'')) (n2 : rest.head? ≠ some (asc '"')) (n3 : rest.head? ≠ some (asc '#')) (n4 : MB.isSpace rest.head? = false)
    (hst : s.strterm = none) (hls : s.lvalStart = none) (hle : s.lvalEnd = none) :
    Wp (yylex x) (WordToken bs [asc ':'] rest .tSYMBEG EXPR_FNAME (s.buffer.pcur + blanks.length) 1 s) s := by
  refine yylex_sigil (tl := []) (v := [asc ':']) (rest := rest) h hb (by decide) (by decide) (List.prefix_refl _) hst hls hle fun cmd ts sp s1 hs hf => ?_
  odispatch
  exact colon_symbol hf (by rw [hs.lexState]; exact he) n0 n1 n2 n3 n4

theorem lparen_tight {bs rest : Bytes} {p : Nat} {s : Lexer} (h : OpFirst bs rest p s) (ha : EndState s.lexState) :
    Wp (lexLparen false) (OpRead bs (ascs "(") rest p s .tLPAREN2 .operand) s := by
  obtain ⟨hb, h2, h3, h4, h5, h6, h7⟩ := h
  obtain ⟨g1, g2, g3, g4, g5, g6, g7⟩ := ha
  unfold lexLparen openNest isLambdaBeginning
  repeat ostep
  oend

/-- A parenthesis directly after an operand. -/
theorem yylex_tight {x : Ext} {bs rest : Bytes} {s : Lexer} (h : Upcoming bs (asc '(' :: rest) s.buffer) (ha : AfterOperand s.lexState)
    (hst : s.strterm = none) (hls : s.lvalStart = none) (hle : s.lvalEnd = none) :
    Wp (yylex x) (OpToken bs [asc '('] rest .tLPAREN2 .operand s.buffer.pcur s) s := by
  refine yylex_op (blanks := []) (c := asc '(') (tl := []) h .nil (by decide) (by decide) hst hls hle fun sp cmd ts s1 hsp hs hf => ?_
  obtain rfl : sp = false := hsp fun _ h => by cases h
  odispatch
  exact lparen_tight hf (by rw [hs.lexState]; exact AfterOperand.end' ha)

/-- An operator after which a label can stand was read. -/
def Labels (s : Lexer) : Prop := s.lexState = EXPR_BEG ||| EXPR_LABEL ∧ s.commandStart = false

theorem yylex_labels {x : Ext} {bs blanks rest : Bytes} {c : UInt8} {s : Lexer} {t : Tok} {pl : Place} (h : Upcoming bs (blanks ++ (c :: rest)) s.buffer)
    (hb : SkipsTo x bs s.lexState blanks (c :: rest)) (hnl : c ≠ 10) (htn : t ≠ .tNL)
    (hst : s.strterm = none) (hls : s.lvalStart = none) (hle : s.lvalEnd = none)
    (hd : ∀ sp cmd ts s1, ((∀ c ∈ blanks, Blank c) → sp = !blanks.isEmpty) → SameForOps s s1 → s1.commandStart = false → OpFirst bs rest (s.buffer.pcur + blanks.length) s1 →
      Wp (dispatch x c sp s1.lexState cmd ts) (fun r s' => OpRead bs [c] rest (s.buffer.pcur + blanks.length) s1 t pl r s' ∧ Labels s') s1) :
    Wp (yylex x) (fun r s' => OpToken bs [c] rest t pl (s.buffer.pcur + blanks.length) s r s' ∧ Labels s') s := by
  refine yylex_code hst ?_
  have hlen : (blanks ++ (c :: rest)).length ≤ bs.length := by
    rw [← h.txt]
    exact Nat.le_trans (collapse_length _ (Nat.le_refl _)) (by simp)
  refine hb.run (s := { s with lval := none, commandStart := false, tokenSeen := true }) rfl hst hls hle ?_ h fun n b sp tk cs hn h1 hp hsp => ?_
  · rw [h.d]; simp only [List.length_append, List.length_cons] at hlen; omega
  obtain ⟨n, rfl⟩ : ∃ k', n = k' + 1 := ⟨n - 1, by omega⟩
  refine yylexLoop_char (s := { s with lval := none, commandStart := false, tokenSeen := tk, comments := cs, buffer := b }) h1 fun b1 h2 hm ht => Wp.bind ?_
  have hone := hm.one hnl
  dsimp only at hone hp ht
  have hbeh : Behind bs rest b1 := h2.behind hnl
  refine (hd sp s.commandStart s.tokenSeen { s with lval := none, commandStart := false, tokenSeen := tk, comments := cs, buffer := b1 } hsp ⟨rfl, rfl, rfl, rfl, rfl⟩ rfl
    ⟨hbeh, by dsimp only; omega, by dsimp only; omega, rfl, hst, hls, hle⟩).mono fun r s2 h3 => ?_
  obtain ⟨⟨rfl, hup, hpc, hpt, hlv, hst2, hls2, hle2, hw, hpl⟩, hlab⟩ := h3
  have hlast := h2.last
  have hsl : Spec.slice bs (s.buffer.pcur + blanks.length) (s.buffer.pcur + blanks.length + [c].length) = [c] := by
    have e1 : s.buffer.pcur + blanks.length = b1.pcur - 1 := by omega
    rw [e1, List.length_singleton, Verif.slice_head (c := c) (by omega) hlast, Verif.slice_empty]
  have hb2 : tBegin s2 = s.buffer.pcur + blanks.length := by simp only [tBegin, hls2, Option.getD, hpt]
  have he2 : tEnd s2 = s.buffer.pcur + blanks.length + [c].length := by simp only [tEnd, hle2, Option.getD, hpc]
  refine Wp.pure ⟨htn, [c], ?_, ?_⟩
  · rcases hlv with hlv | hlv
    · refine .inr ⟨hlv, by omega, ?_, ?_⟩
      · rw [he2, ← hpc, hup.d]; exact hup.le
      · rw [hup.d, hb2, he2, hsl]
    · exact .inl hlv
  · exact ⟨⟨by rw [hb2, he2], hup, hpc, hst2, rfl, rfl, hw, hpl⟩, hlab⟩

theorem comma_labels {bs rest : Bytes} {p : Nat} {s : Lexer} (h : OpFirst bs rest p s) (hc : s.commandStart = false) :
    Wp lexComma (fun r s' => OpRead bs (ascs ",") rest p s .tCOMMA .operand r s' ∧ Labels s') s := by
  obtain ⟨hb, h2, h3, h4, h5, h6, h7⟩ := h
  unfold lexComma
  repeat ostep
  exact ⟨by oend, rfl, hc⟩

theorem lparen_labels {bs rest : Bytes} {p : Nat} {s : Lexer} (h : OpFirst bs rest p s) (ha : s.lexState.isBeg = false) (hc : s.commandStart = false) :
    Wp (lexLparen false) (fun r s' => OpRead bs (ascs "(") rest p s .tLPAREN2 .operand r s' ∧ Labels s') s := by
  obtain ⟨hb, h2, h3, h4, h5, h6, h7⟩ := h
  unfold lexLparen openNest isLambdaBeginning
  repeat ostep
  exact ⟨by oend, rfl, hc⟩

/-- A comma, or a parenthesis that follows directly. -/
theorem yylex_opening {x : Ext} {bs blanks rest : Bytes} {c : UInt8} {s : Lexer} {t : Tok} (h : Upcoming bs (blanks ++ (c :: rest)) s.buffer)
    (hb : SkipsTo x bs s.lexState blanks (c :: rest)) (op : c = asc ',' ∧ t = .tCOMMA ∨ c = asc '(' ∧ t = .tLPAREN2 ∧ blanks = []) (ha : s.lexState.isBeg = false)
    (hst : s.strterm = none) (hls : s.lvalStart = none) (hle : s.lvalEnd = none) :
    Wp (yylex x) (fun r s' => OpToken bs [c] rest t .operand (s.buffer.pcur + blanks.length) s r s' ∧ Labels s') s := by
  rcases op with ⟨rfl, rfl⟩ | ⟨rfl, rfl, rfl⟩
  · refine yylex_labels h hb (by decide) (by decide) hst hls hle fun sp cmd ts s1 hsp hs hc hf => ?_
    odispatch
    exact comma_labels hf hc
  · refine yylex_labels h hb (by decide) (by decide) hst hls hle fun sp cmd ts s1 hsp hs hc hf => ?_
    obtain rfl : sp = false := hsp fun _ h => by cases h
    odispatch
    exact lparen_labels hf (by rw [hs.lexState]; exact ha) hc

theorem yylex_label {x : Ext} {s : Lexer} {bs : Bytes}
    (hst : s.strterm = none) (hls : s.lvalStart = none) (hle : s.lvalEnd = none)
    {cps : List Nat} {mark blanks rest : Bytes} (hn : Name cps) (hne : Utf8.encodeAll cps ≠ ascs "__END__") (hb : SkipsTo x bs s.lexState blanks (Utf8.encodeAll cps ++ (mark ++ rest)))
    (he : NameSpec.Ends (s.lexState.isSome EXPR_FNAME) mark rest) (ht : Upcoming bs (blanks ++ (Utf8.encodeAll cps ++ (mark ++ rest))) s.buffer)
    (hl : LabelAt s.lexState s.commandStart ∧ Colon rest) :
    Wp (yylex x) (WordToken bs (Utf8.encodeAll cps ++ mark) rest.tail .tLABEL (EXPR_ARG ||| EXPR_LABELED) (s.buffer.pcur + blanks.length)
      ((Utf8.encodeAll cps ++ mark).length + 1) s) s := by
  refine yylex_word ht hb hn hne he (by decide) rfl hst hls hle fun s1 hs hw => ?_
  exact tail_label hw.up hw.pcur hw.pos hw.ptok hw.prev hw.buf hw.strterm hw.ls hw.le (by rw [hs.lexState]; exact hl)

theorem skips_gap {x : Ext} {bs g text : Bytes} {st : LexState} (h : Gap g) (hs : Skips st) (hcr : 10 ∈ g → 13 ∉ bs) : SkipsTo x bs st g text := by
  induction h with
  | blanks blank => exact .of blank
  | @line b com g blank comment _ ih =>
    have e : b ++ (com ++ 10 :: g) = b ++ ((com ++ [10]) ++ g) := by simp
    rw [e]
    exact SkipsTo.trans (.of blank) (SkipsTo.trans (.remark hs comment (hcr (by simp))) (ih fun e => hcr (by simp [e])))

theorem methodName_byte : ∀ o ∈ methodNames, ∀ c ∈ (ascs o.1).head?, c ≠ asc ':' ∧ c ≠ asc '\'' ∧ c ≠ asc '"' ∧ c ≠ asc '#' ∧ MB.isSpace (some c) = false := by decide

theorem wordByte_symbol : ∀ c : UInt8, wordByte c = true → c ≠ asc ':' ∧ c ≠ asc '\'' ∧ c ≠ asc '"' ∧ c ≠ asc '#' ∧ MB.isSpace (some c) = false :=
  byte_forall (by decide +kernel)

theorem defName_first {upper : Nat → Bool} {w rest : Bytes} {t : Tok} {pl : Place} (h : DefName upper w rest t pl) :
    ∃ c tl, w = c :: tl ∧ c ≠ asc ':' ∧ c ≠ asc '\'' ∧ c ≠ asc '"' ∧ c ≠ asc '#' ∧ MB.isSpace (some c) = false := by
  cases h with
  | name name first not_end ends keyword =>
    obtain ⟨_, _, c, tl, -, h1, -, h2⟩ := name_first_byte name
    exact ⟨c, tl ++ _, by rw [h1]; rfl, wordByte_symbol c h2⟩
  | keyword name ends text kw not_do =>
    obtain ⟨_, _, c, tl, -, h1, -, h2⟩ := name_first_byte name
    exact ⟨c, tl ++ _, by rw [h1]; rfl, wordByte_symbol c h2⟩
  | method mem longest doc here =>
    obtain ⟨-, -, h3⟩ := methodName_tok mem
    obtain ⟨c, tl, hc⟩ := List.exists_cons_of_ne_nil h3
    exact ⟨c, tl, hc, methodName_byte _ mem c (by rw [hc]; rfl)⟩
  | variable_ var =>
    obtain ⟨-, -, c, tl, h1, h2⟩ := variable_text var
    exact ⟨c, tl, h1, by rcases h2 with rfl | rfl <;> decide⟩

theorem defName_ne {upper : Nat → Bool} {w rest : Bytes} {t : Tok} {pl : Place} (h : DefName upper w rest t pl) : t ≠ .END_OF_INPUT := by
  have k1 : ∀ o ∈ keywords, o.2.1 ≠ .END_OF_INPUT := by decide
  have k2 : ∀ o ∈ methodNames, o.2 ≠ .END_OF_INPUT := by decide
  cases h with
  | name =>
    unfold kind; split
    · decide
    · split <;> decide
  | keyword _ _ _ kw => exact k1 _ kw
  | method mem => exact k2 _ mem
  | variable_ var => cases var <;> decide

end Verif.Lexer
