import Verif.Props.Variables
import Verif.Spec.Lines
import Verif.Lemmas.LexChain
import Verif.Lemmas.LexLead
import Verif.Lemmas.LexStr
import Verif.Lemmas.LexSym
/-!
C62: lines of code are split into their tokens, as `Verif/Spec/Lines.lean` says.
-/
namespace Verif.Props
open Verif.Lexer
open NameSpec OpSpec LineSpec

/-- At the end of the source. -/
theorem yylex_end {x : Ext} {bs blanks : Bytes} {s : Lexer} (h : Upcoming bs blanks s.buffer) (hb : SkipsTo x bs s.lexState blanks [])
    (hst : s.strterm = none) (hls : s.lvalStart = none) (hle : s.lvalEnd = none) :
    Wp (yylex x) (fun t s' => t.tokenType = .END_OF_INPUT ∧ s'.diagnostics = s.diagnostics) s := by
  refine yylex_code hst ?_
  have hlen : blanks.length ≤ bs.length := by
    rw [← h.txt]
    exact Nat.le_trans (collapse_length _ (Nat.le_refl _)) (by simp)
  refine hb.run (s := { s with lval := none, commandStart := false, tokenSeen := true }) rfl hst hls hle (by rw [h.d]; omega) (by simpa using h) fun n b sp tk cs hn hu _ _ => ?_
  obtain ⟨n, rfl⟩ : ∃ k, n = k + 1 := ⟨n - 1, by omega⟩
  unfold yylexLoop
  have hu' : Upcoming bs [] { b with ptok := b.pcur } := hu.bsame ⟨⟨rfl, rfl, rfl, rfl, rfl, rfl, rfl, rfl⟩, rfl, rfl⟩
  obtain ⟨c, b', e, hn⟩ := nextc_good hu'.seq.good
  obtain ⟨h1, h2, h3⟩ := nextc_text hu'.seq e
  rw [hu'.d, hu'.txt] at h3
  rcases h3 with ⟨rfl, -, h4⟩ | ⟨ch, -, h3⟩
  swap
  · cases h3
  refine Wp.bind (Wp.getS (Wp.bind ⟨_, _, rfl, Wp.bind ⟨none, { s with lval := none, commandStart := false, tokenSeen := tk, comments := cs, buffer := b' }, ?_, ?_⟩⟩))
  · have e' : b.tokenFlush.nextc = .ok (none, b') := e
    simp [Lexer.nextc, e', Bind.bind, Except.bind, Pure.pure, Except.pure]
  have hbd : b'.d = b.d := by simp only [Buffer.d, h2]
  have hle2 : b'.ptok ≤ b'.pcur := by
    cases hn with
    | eof _ => exact Nat.le_refl _
    | eofNow _ _ _ _ => exact Nat.le_refl _
    | eofLoad _ hl _ _ _ => exact Nat.le_of_eq hl.ptok
  have hle3 : b'.pcur ≤ b'.d.bytes.length := Nat.le_trans h1.good.hi (by
    rw [h1.good.stop]; exact h1.good.tab.stop_le (by have := h1.good.ll; have := h1.good.lc; omega))
  refine Wp.pure ⟨by decide, _, .inr ⟨rfl, ?_, ?_, rfl⟩, rfl, rfl⟩
  · simp only [tBegin, tEnd, hls, hle]; exact hle2
  · simp only [tEnd, hle]; exact hle3

/-- The token was read and the lexer goes on with `rest`, where `pl` is expected. -/
structure Stepped (bs rest : Bytes) (pl : Place) (q : Nat) (t : Token) (s : Lexer) (r : Token) (s' : Lexer) : Prop where
  tok : r = t
  up : Upcoming bs rest s'.buffer
  pcur : s'.buffer.pcur = q
  strterm : s'.strterm = none
  ls : s'.lvalStart = none
  le : s'.lvalEnd = none
  warn : ∃ ds, s'.diagnostics = s.diagnostics ++ ds ∧ Warnings ds
  place : pl.Is s'.lexState

theorem stepped_op {x : Ext} {bs op rest : Bytes} {t : Tok} {pl : Place} {p q : Nat} {s : Lexer} (h : Wp (yylex x) (OpToken bs op rest t pl p s) s)
    (hq : q = p + op.length) : Wp (yylex x) (Stepped bs rest pl q ⟨t, op, ⟨p, q⟩⟩ s) s := by
  subst hq
  exact h.mono fun r s' h => ⟨h.tok, h.up, h.pcur, h.strterm, h.ls, h.le, h.warn, h.place⟩

theorem stepped_word {x : Ext} {bs w rest : Bytes} {t : Tok} {st : LexState} {pl : Place} {p q len : Nat} {s : Lexer}
    (h : Wp (yylex x) (WordToken bs w rest t st p len s) s) (hq : q = p + len) (hp : pl.Is st) : Wp (yylex x) (Stepped bs rest pl q ⟨t, w, ⟨p, q⟩⟩ s) s := by
  subst hq
  exact h.mono fun r s' h => ⟨h.tok, h.up, h.pcur, h.strterm, h.ls, h.le, ⟨[], by rw [h.diag]; simp, fun d hd => by cases hd⟩, by rw [h.state]; exact hp⟩

theorem Place.Is.fname {pl : Place} {st : LexState} (h : pl.Is st) : st.isSome EXPR_FNAME = false := by
  cases pl with
  | operand => exact (isSome_or (isSome_or (isSome_or h.1.only).1).1).2
  | name => rw [show st = EXPR_DOT from h]; decide
  | operator => exact (isSome_or (isSome_or (isSome_or (isSome_or h.only).1).1).1).2
  | argument => exact (isSome_or (isSome_or (isSome_or (isSome_or h.only).1).1).1).2

/-- The state fits; or a value may be missing that is not; or the value of a label follows. -/
def Fits (pl : Place) (st : LexState) (text : Bytes) : Prop :=
  pl.Is st ∨ pl = .operand ∧ ((st = EXPR_MID ∨ st = EXPR_CLASS) ∧ Solid text ∨ st = EXPR_ARG ||| EXPR_LABELED ∧ Plain text)

theorem Fits.operand {st : LexState} {text : Bytes} (h : Fits .operand st text) : BeforeOperand st ∨ st = EXPR_ARG ||| EXPR_LABELED ∧ Plain text := by
  rcases h with h | ⟨-, ⟨rfl | rfl, -⟩ | h⟩
  · exact .inl h.1
  · exact .inl ⟨by decide, by decide⟩
  · exact .inl ⟨by decide, by decide⟩
  · exact .inr h

theorem Fits.other {pl : Place} {st : LexState} {text : Bytes} (h : Fits pl st text) (hp : pl ≠ .operand) : pl.Is st := by
  rcases h with h | ⟨e, -⟩
  · exact h
  · exact absurd e hp

theorem Fits.fname {pl : Place} {st : LexState} {text : Bytes} (h : Fits pl st text) : st.isSome EXPR_FNAME = false := by
  rcases h with h | ⟨-, ⟨rfl | rfl, -⟩ | ⟨rfl, -⟩⟩
  · exact Place.Is.fname h
  · decide
  · decide
  · decide

/-- The lexer between two tokens of a line. -/
structure Between (x : Ext) (upper : Nat → Bool) (declared : List Nat → Bool) (bs text : Bytes) (pl : Place) (p : Nat) (s : Lexer) : Prop where
  up : Upcoming bs text s.buffer
  pcur : s.buffer.pcur = p
  strterm : s.strterm = none
  ls : s.lvalStart = none
  le : s.lvalEnd = none
  place : Fits pl s.lexState text
  upper : x.isUppercase = upper
  declared : s.staticEnv.isDeclared = declared
  params : s.context.get .inArgdef = false

/-- The tokens of a text. -/
def Tokens (x : Ext) (s : Lexer) (ts : List Token) : Prop :=
  ∀ n, ts.length < n → ∃ s' ds, tokenizeUntilEof x n s = .ok (ts, s') ∧ s'.diagnostics = s.diagnostics ++ ds ∧ Warnings ds

theorem tokens_step {x : Ext} {upper declared bs rest pl' q t ts s} (hu : x.isUppercase = upper) (hd : s.staticEnv.isDeclared = declared)
    (hc : s.context.get .inArgdef = false) (hne : t.tokenType ≠ .END_OF_INPUT)
    (hs : Wp (yylex x) (Stepped bs rest pl' q t s) s) (hr : ∀ s', Between x upper declared bs rest pl' q s' → Tokens x s' ts) : Tokens x s (t :: ts) := by
  intro n hn
  obtain ⟨n, rfl⟩ : ∃ k, n = k + 1 := ⟨n - 1, by omega⟩
  obtain ⟨r, s1, e, h1⟩ := hs
  have hf := Fix.yylex _ _ _ e
  obtain ⟨s', ds, e2, h2, h3⟩ := hr s1 ⟨h1.up, h1.pcur, h1.strterm, h1.ls, h1.le, Or.inl h1.place, hu, by rw [hf.staticEnv]; exact hd, by rw [hf.context]; exact hc⟩ n
    (by simpa using hn)
  obtain ⟨ds1, h4, h5⟩ := h1.warn
  have e := h1.tok ▸ e
  refine ⟨s', ds1 ++ ds, ?_, by rw [h2, h4, List.append_assoc], fun d hd => ?_⟩
  · unfold tokenizeUntilEof
    have : ∀ f : Token → LexM (List Token), (yylex x >>= f) s = f t s1 := fun f => by simp only [Bind.bind, StateT.bind, Except.bind, e]
    rw [this, if_neg hne]
    simp only [Bind.bind, StateT.bind, Except.bind, e2]
    rfl
  · rcases List.mem_append.1 hd with hd | hd
    · exact h5 d hd
    · exact h3 d hd

theorem tokens_cons {x : Ext} {upper declared bs text rest pl pl' p q t ts s} (h : Between x upper declared bs text pl p s) (hne : t.tokenType ≠ .END_OF_INPUT)
    (hs : Wp (yylex x) (Stepped bs rest pl' q t s) s) (hr : ∀ s', Between x upper declared bs rest pl' q s' → Tokens x s' ts) : Tokens x s (t :: ts) :=
  tokens_step h.upper h.declared h.params hne hs hr

theorem tokens_one {x : Ext} {s s1 : Lexer} {t : Token} {ts : List Token} (e : yylex x s = .ok (t, s1)) (hne : t.tokenType ≠ .END_OF_INPUT)
    (hw : ∃ ds, s1.diagnostics = s.diagnostics ++ ds ∧ Warnings ds) (hr : Tokens x s1 ts) : Tokens x s (t :: ts) := by
  intro n hn
  obtain ⟨n, rfl⟩ : ∃ k, n = k + 1 := ⟨n - 1, by omega⟩
  obtain ⟨s', ds, e2, h2, h3⟩ := hr n (by simpa using hn)
  obtain ⟨ds1, h4, h5⟩ := hw
  refine ⟨s', ds1 ++ ds, ?_, by rw [h2, h4, List.append_assoc], fun d hd => ?_⟩
  · unfold tokenizeUntilEof
    have : ∀ f : Token → LexM (List Token), (yylex x >>= f) s = f t s1 := fun f => by simp only [Bind.bind, StateT.bind, Except.bind, e]
    rw [this, if_neg hne]
    simp only [Bind.bind, StateT.bind, Except.bind, e2]
    rfl
  · rcases List.mem_append.1 hd with hd | hd
    · exact h5 d hd
    · exact h3 d hd

/-- Tokens that leave nothing but the position changed. -/
theorem tokens_reads {x : Ext} {s s' : Lexer} {ts1 ts : List Token} (h : Reads x s ts1 s') (hne : ∀ t ∈ ts1, t.tokenType ≠ .END_OF_INPUT) (hd : s'.diagnostics = s.diagnostics)
    (hr : Tokens x s' ts) : Tokens x s (ts1 ++ ts) := by
  have key : ∀ n, (ts1 ++ ts).length < n → ∃ s2 ds, tokenizeUntilEof x n s = .ok (ts1 ++ ts, s2) ∧ s2.diagnostics = s'.diagnostics ++ ds ∧ Warnings ds := by
    clear hd
    induction h with
    | nil => exact hr
    | @cons s s1 s2 t ts' e _ ih =>
      intro n hn
      obtain ⟨n, rfl⟩ : ∃ k, n = k + 1 := ⟨n - 1, by omega⟩
      obtain ⟨s3, ds, e2, h2, h3⟩ := ih (fun t ht => hne t (by simp [ht])) hr n (by simpa using hn)
      refine ⟨s3, ds, ?_, h2, h3⟩
      unfold tokenizeUntilEof
      have : ∀ f : Token → LexM (List Token), (yylex x >>= f) s = f t s1 := fun f => by simp only [Bind.bind, StateT.bind, Except.bind, e]
      rw [this, if_neg (hne t (by simp))]
      simp only [Bind.bind, StateT.bind, Except.bind, e2]
      rfl
  intro n hn
  obtain ⟨s2, ds, e, h1, h2⟩ := key n hn
  exact ⟨s2, ds, e, by rw [h1, hd], h2⟩

theorem fix_reads {x : Ext} {s s' : Lexer} {ts : List Token} (h : Reads x s ts s') : s'.staticEnv = s.staticEnv ∧ s'.context = s.context := by
  induction h with
  | nil => exact ⟨rfl, rfl⟩
  | cons e _ ih =>
    have hf := Fix.yylex _ _ _ e
    exact ⟨ih.1.trans hf.staticEnv, ih.2.trans hf.context⟩

theorem tokens_nil {x : Ext} {upper declared bs blanks pl p s} (h : Between x upper declared bs blanks pl p s) (hb : SkipsTo x bs s.lexState blanks []) : Tokens x s [] := by
  intro n hn
  obtain ⟨n, rfl⟩ : ∃ k, n = k + 1 := ⟨n - 1, by omega⟩
  obtain ⟨r, s1, e, h1, h2⟩ := yylex_end (x := x) h.up hb h.strterm h.ls h.le
  refine ⟨s1, [], ?_, by rw [h2]; simp, fun d hd => by cases hd⟩
  unfold tokenizeUntilEof
  have : ∀ f : Token → LexM (List Token), (yylex x >>= f) s = f r s1 := fun f => by simp only [Bind.bind, StateT.bind, Except.bind, e]
  rw [this, if_pos h1]
  rfl

theorem ascs_len (op : String) : (ascs op).length = op.length := by simp [ascs, String.length_toList]

theorem infix_ne : ∀ o ∈ infixes, o.2.1 ≠ .END_OF_INPUT := by decide
theorem prefix_ne : ∀ o ∈ prefixes, o.2.1 ≠ .END_OF_INPUT := by decide
theorem method_ne : ∀ o ∈ methodNames, o.2 ≠ .END_OF_INPUT := by decide
theorem keyword_ne : ∀ o ∈ keywords, o.2.1 ≠ .END_OF_INPUT ∧ o.2.2.1 ≠ .END_OF_INPUT := by decide

theorem kind_not_end {mark : Bytes} {u : Bool} : kind mark u ≠ .END_OF_INPUT := by
  unfold kind; split
  · decide
  · split <;> decide

theorem is_start : Place.operand.Is EXPR_BEG := ⟨⟨by decide, by decide⟩, by decide⟩

theorem is_end : Place.operator.Is EXPR_END := ⟨by decide, by decide⟩

theorem variable_end {v rest : Bytes} {t : Tok} {st : LexState} (h : Variable false v rest t st) : Place.operator.Is st ∧ t ≠ .END_OF_INPUT := by
  cases h <;> exact ⟨⟨by decide, by decide⟩, by decide⟩

theorem isSome_neither {st a b : Nat} (h1 : LexState.isSome st a = false) (h2 : LexState.isSome st b = false) : LexState.isSome st (a ||| b) = false := by
  simp only [LexState.isSome, bne_eq_false_iff_eq, Nat.and_or_distrib_left, Nat.or_eq_zero_iff] at h1 h2 ⊢
  exact ⟨h1, h2⟩

theorem is_afterName {pl : Place} {st : LexState} {text : Bytes} {cmd v : Bool} (h : Fits pl st text) :
    (afterName pl v).Is (stateAfter st cmd (v && !st.isSome (EXPR_DOT ||| EXPR_FNAME))) := by
  cases pl with
  | operand =>
    rcases h.operand with h | ⟨rfl, -⟩
    swap
    · cases v <;> cases cmd <;> exact ⟨by decide, by decide⟩
    have h1 : st.isSome (EXPR_DOT ||| EXPR_FNAME) = false := by rw [Nat.or_comm]; exact isSome_neither (isSome_or (isSome_or (isSome_or h.only).1).1).2 (isSome_or (isSome_or h.only).1).2
    have h2 : st.isSome (EXPR_BEG_ANY ||| EXPR_ARG_ANY ||| EXPR_DOT) = true := isSome_more (isSome_more h.isBeg)
    cases v with
    | true => simp only [h1, stateAfter, afterName, Bool.not_false, Bool.and_self, if_true]; exact ⟨by decide, by decide⟩
    | false => simp only [stateAfter, afterName, h2, Bool.false_and, Bool.false_eq_true, if_false, if_true]; cases cmd <;> exact ⟨by decide, by decide⟩
  | name =>
    have h := h.other (by decide)
    obtain rfl : st = EXPR_DOT := h
    cases v <;> cases cmd <;> exact ⟨by decide, by decide⟩
  | operator =>
    have h := h.other (by decide)
    have h0 := (isSome_or (isSome_or h.only).1).1
    have h1 : st.isSome (EXPR_BEG_ANY ||| EXPR_ARG_ANY ||| EXPR_DOT) = false := isSome_neither (isSome_or (isSome_or h0).1).1 (isSome_or h0).2
    have h2 := Place.Is.fname (pl := .operator) h
    have h3 : st ≠ EXPR_FNAME := fun e => by rw [e] at h2; exact absurd h2 (by decide)
    have : ∀ b, (afterName .operator v).Is (stateAfter st cmd b) := by
      intro b
      cases b <;> simp only [stateAfter, h1, h3, afterName, if_false, Bool.false_eq_true, if_true] <;> exact ⟨by decide, by decide⟩
    exact this _
  | argument =>
    have h := h.other (by decide)
    have h1 : st.isSome (EXPR_DOT ||| EXPR_FNAME) = false := by
      have h0 := (isSome_or (isSome_or h.only).1).1
      rw [Nat.or_comm]; exact isSome_neither (isSome_or (isSome_or h0).1).2 (isSome_or h0).2
    have h2 : st.isSome (EXPR_BEG_ANY ||| EXPR_ARG_ANY ||| EXPR_DOT) = true := by rw [Nat.or_comm EXPR_BEG_ANY]; exact isSome_more (isSome_more h.isArg)
    cases v with
    | true => simp only [h1, stateAfter, afterName, Bool.not_false, Bool.and_self, if_true]; exact ⟨by decide, by decide⟩
    | false => simp only [stateAfter, afterName, h2, Bool.false_and, Bool.false_eq_true, if_false, if_true]; cases cmd <;> exact ⟨by decide, by decide⟩

theorem is_afterKeyword {st : LexState} {pl : Place} (h : afterKeyword st = some pl) : pl.Is st := by
  unfold afterKeyword at h
  split at h
  · rename_i e; cases h; rw [e]; exact ⟨⟨by decide, by decide⟩, by decide⟩
  · split at h
    · rename_i e; cases h; rw [e]; exact ⟨by decide, by decide⟩
    · split at h
      · rename_i e; cases h; rw [e]; exact ⟨by decide, by decide⟩
      · cases h

/-- Outside of operands a keyword is a modifier. -/
theorem Place.Is.mod {pl : Place} {st : LexState} (h : pl.Is st) (hp : pl = .operator ∨ pl = .argument) :
    st.isSome (EXPR_BEG ||| EXPR_LABELED) = false ∧ st.isSome (EXPR_FNAME ||| EXPR_BEG ||| EXPR_LABELED) = false ∧ st.isSome EXPR_DOT = false := by
  have key : st.isSome EXPR_BEG_ANY = false ∧ st.isSome EXPR_LABELED = false ∧ st.isSome EXPR_DOT = false := by
    rcases hp with rfl | rfl
    · obtain ⟨h1, h2⟩ := isSome_or h.only
      obtain ⟨h1, h3⟩ := isSome_or h1
      obtain ⟨h1, h4⟩ := isSome_or h1
      exact ⟨(isSome_or (isSome_or h1).1).1, h2, h4⟩
    · obtain ⟨h1, h2⟩ := isSome_or h.only
      obtain ⟨h1, h3⟩ := isSome_or h1
      obtain ⟨h1, h4⟩ := isSome_or h1
      exact ⟨(isSome_or (isSome_or h1).1).1, h2, h4⟩
  have hb := (isSome_or (isSome_or (a := EXPR_BEG ||| EXPR_MID) (b := EXPR_CLASS) key.1).1).1
  exact ⟨isSome_neither hb key.2.1, isSome_neither (isSome_neither (Place.Is.fname h) hb) key.2.1, key.2.2⟩

/-- What was skipped already. -/
def Lead (x : Ext) (bs : Bytes) (pl : Place) (st : LexState) (gap text : Bytes) : Prop :=
  SkipsTo x bs st gap text ∧ (gap = [] ∨ pl.Is st ∧ ((pl = .operand ∨ pl = .name) ∨ ∃ indent rest, Blanks indent ∧ text = indent ++ 35 :: rest))

theorem Place.Is.skips {pl : Place} {st : LexState} (h : pl.Is st) (hp : pl = .operand ∨ pl = .name) : Skips st := by
  rcases hp with rfl | rfl
  · exact ⟨isSome_more (isSome_more (isSome_more h.2)), (isSome_or h.1.only).2⟩
  · rw [show st = EXPR_DOT from h]; exact ⟨by decide, by decide⟩

theorem Place.Is.ends {pl : Place} {st : LexState} (h : pl.Is st) (hp : pl = .operator ∨ pl = .argument) : EndsLine st := by
  have key : st.isSome EXPR_BEG_ANY = false ∧ st.isSome EXPR_LABELED = false ∧ st.isSome EXPR_DOT = false := by
    rcases hp with rfl | rfl
    · obtain ⟨h1, h2⟩ := isSome_or h.only
      obtain ⟨h1, h3⟩ := isSome_or h1
      obtain ⟨h1, h4⟩ := isSome_or h1
      exact ⟨(isSome_or (isSome_or h1).1).1, h2, h4⟩
    · obtain ⟨h1, h2⟩ := isSome_or h.only
      obtain ⟨h1, h3⟩ := isSome_or h1
      obtain ⟨h1, h4⟩ := isSome_or h1
      exact ⟨(isSome_or (isSome_or h1).1).1, h2, h4⟩
  obtain ⟨h1, h2⟩ := isSome_or (a := EXPR_BEG ||| EXPR_MID) (b := EXPR_CLASS) key.1
  exact ⟨isSome_neither (isSome_neither (isSome_neither (isSome_or h1).1 h2) (Place.Is.fname h)) key.2.2, key.2.1⟩

theorem Lead.nil {x : Ext} {bs text : Bytes} {pl : Place} {st : LexState} : Lead x bs pl st [] text := ⟨.nil, .inl rfl⟩

theorem not_hash {c : UInt8} (h1 : ¬ Blank c) (h2 : c ≠ 35) : ∀ {blanks indent u v : Bytes}, Blanks blanks → Blanks indent → blanks ++ c :: u ≠ indent ++ 35 :: v
  | [], [], _, _, _, _, e => h2 (by simpa using (List.cons.inj e).1)
  | [], b :: _, _, _, _, hi, e => by
    have := (List.cons.inj e).1
    exact h1 (by rw [this]; exact hi b (by simp))
  | b :: _, [], _, _, hb, _, e => by
    have := (List.cons.inj e).1
    have h3 : Blank b := hb b (by simp)
    rw [this] at h3
    exact absurd h3 (by unfold Blank; decide)
  | _ :: _, _ :: _, _, _, hb, hi, e => not_hash h1 h2 (fun c hc => hb c (by simp [hc])) (fun c hc => hi c (by simp [hc])) (List.cons.inj e).2

theorem infix_first : ∀ o ∈ infixes, ∃ c tl, ascs o.1 = c :: tl ∧ ¬ Blank c ∧ c ≠ 35 := by
  have key : ∀ o ∈ infixes, ∀ c ∈ (ascs o.1).head?, ¬ Blank c ∧ c ≠ 35 := by unfold Blank; decide
  intro o ho
  obtain ⟨c, tl, e⟩ := List.exists_cons_of_ne_nil (infix_tok ho).2.2
  exact ⟨c, tl, e, key o ho c (by rw [e]; rfl)⟩

theorem Lead.none {x : Ext} {st : LexState} {bs gap blanks rest : Bytes} {o : String × Tok × Place} (ho : o ∈ infixes) (hb : Blanks blanks)
    (h : Lead x bs .argument st gap (blanks ++ (ascs o.1 ++ rest))) : gap = [] := by
  rcases h.2 with h | ⟨-, h | ⟨indent, v, h1, h2⟩⟩
  · exact h
  · rcases h with h | h <;> cases h
  · obtain ⟨c, tl, e, h3, h4⟩ := infix_first o ho
    rw [e] at h2
    exact absurd h2 (not_hash h3 h4 hb h1)

theorem Lead.none' {x : Ext} {st : LexState} {bs gap rest : Bytes} {c : UInt8} (h1 : ¬ Blank c) (h2 : c ≠ 35) (h : Lead x bs .operator st gap (c :: rest)) : gap = [] := by
  rcases h.2 with h | ⟨-, h | ⟨indent, v, h3, h4⟩⟩
  · exact h
  · rcases h with h | h <;> cases h
  · exact absurd h4 (not_hash (blanks := []) h1 h2 (fun _ h => by cases h) h3)

theorem Lead.use {x : Ext} {upper declared} {bs gap blanks text : Bytes} {pl : Place} {p p0 : Nat} {s : Lexer} (h : Lead x bs pl s.lexState gap (blanks ++ text))
    (hb : Between x upper declared bs (gap ++ (blanks ++ text)) pl p0 s) (hbl : Blanks blanks) (hp : p0 + gap.length = p) :
    SkipsTo x bs s.lexState (gap ++ blanks) text ∧ Upcoming bs ((gap ++ blanks) ++ text) s.buffer ∧ s.buffer.pcur + (gap ++ blanks).length = p + blanks.length :=
  ⟨h.1.trans (.of hbl), by simpa using hb.up, by rw [hb.pcur, List.length_append]; omega⟩

theorem _root_.Verif.LineSpec.Begins.new {text : Bytes} (h : Begins text) : StartsNew text := by
  obtain ⟨g, c, rest, h1, h2, h3, h4, h5, h6⟩ := h
  exact ⟨g, c, rest, h1, h2, fun e => h3 fun d hd => by rw [List.mem_singleton.1 hd]; exact e, h4, h5, h6⟩

theorem tokens_newline {x : Ext} {upper declared bs rest q ts s} (hu : x.isUppercase = upper) (hd : s.staticEnv.isDeclared = declared) (hc : s.context.get .inArgdef = false)
    (hs : Wp (yylex x) (NlToken x bs rest q s) s) (hr : ∀ s', Between x upper declared bs rest .operand (q + 1) s' → Tokens x s' ts) : Tokens x s (⟨.tNL, [10], ⟨q, q + 1⟩⟩ :: ts) := by
  intro n hn
  obtain ⟨n, rfl⟩ : ∃ k, n = k + 1 := ⟨n - 1, by omega⟩
  obtain ⟨r, s1, e, h1⟩ := hs
  have hf := Fix.yylex _ _ _ e
  obtain ⟨b, e1, h2, h3⟩ := h1.go
  obtain ⟨s', ds, e2, h4, h5⟩ := hr { s1 with buffer := b } ⟨h2, h3, h1.strterm, h1.ls, h1.le, Or.inl (by rw [h1.state]; exact is_start), hu, by rw [hf.staticEnv]; exact hd,
    by rw [hf.context]; exact hc⟩ n (by simpa using hn)
  have e := h1.tok ▸ e
  refine ⟨s', ds, ?_, by rw [h4, ← h1.diag], h5⟩
  have e3 : tokenizeUntilEof x n s1 = tokenizeUntilEof x n { s1 with buffer := b } := by
    cases n with
    | zero => simp at hn
    | succ n =>
      unfold tokenizeUntilEof
      simp only [Bind.bind, StateT.bind, e1]
  unfold tokenizeUntilEof
  have : ∀ f : Token → LexM (List Token), (yylex x >>= f) s = f ⟨.tNL, [10], ⟨q, q + 1⟩⟩ s1 := fun f => by simp only [Bind.bind, StateT.bind, Except.bind, e]
  rw [this, if_neg (fun e => by cases e)]
  simp only [Bind.bind, StateT.bind, Except.bind, e3, e2]
  rfl

theorem tokens_last {x : Ext} {q s} (hs : Wp (yylex x) (LastToken x q s) s) : Tokens x s [⟨.tNL, [10], ⟨q, q + 1⟩⟩] := by
  intro n hn
  obtain ⟨n, rfl⟩ : ∃ k, n = k + 2 := ⟨n - 2, by simp at hn; omega⟩
  obtain ⟨r, s1, e, h1⟩ := hs
  obtain ⟨r2, s2, e2, h2, h3⟩ := h1.go
  have e := h1.tok ▸ e
  refine ⟨s2, [], ?_, by rw [h3, h1.diag]; simp, fun d hd => by cases hd⟩
  have hn : tokenizeUntilEof x (n + 1) s1 = .ok ([], s2) := by
    unfold tokenizeUntilEof
    have : ∀ f : Token → LexM (List Token), (yylex x >>= f) s1 = f r2 s2 := fun f => by simp only [Bind.bind, StateT.bind, Except.bind, e2]
    rw [this, if_pos h2]
    rfl
  unfold tokenizeUntilEof
  have : ∀ f : Token → LexM (List Token), (yylex x >>= f) s = f ⟨.tNL, [10], ⟨q, q + 1⟩⟩ s1 := fun f => by simp only [Bind.bind, StateT.bind, Except.bind, e]
  rw [this, if_neg (fun e => by cases e)]
  simp only [Bind.bind, StateT.bind, Except.bind, hn]
  rfl

theorem ends_at {rest : Bytes} (h : ∀ c ∈ rest.head?, ¬ NameByte c ∧ c ≠ asc '!' ∧ c ≠ asc '?') : NameSpec.Ends false [] rest :=
  .plain (fun c hc => (h c hc).1) (fun c t e hc => by subst e; rcases hc with rfl | rfl <;> exact absurd rfl (by first | exact (h _ rfl).2.1 | exact (h _ rfl).2.2)) fun _ _ e => by cases e

/-- Two tokens, with a name that is defined as the second one. -/
theorem tokens_defined {x : Ext} {upper declared bs text sep w rest pl pl' p q len ts s t1 t v} (h : Between x upper declared bs text pl p s) (hne : t1 ≠ .END_OF_INPUT)
    (hs : Wp (yylex x) (WordToken bs v (sep ++ (w ++ rest)) t1 EXPR_FNAME q len s) s) (hsep : Blanks sep) (hw : DefName upper w rest t pl')
    (hr : ∀ s', Between x upper declared bs rest pl' (q + len + sep.length + w.length) s' → Tokens x s' ts) :
    Tokens x s (⟨t1, v, ⟨q, q + len⟩⟩ :: ⟨t, w, ⟨q + len + sep.length, q + len + sep.length + w.length⟩⟩ :: ts) := by
  obtain ⟨r, s1, e, h1⟩ := hs
  have hf := Fix.yylex _ _ _ e
  refine tokens_reads (ts1 := [_]) (.cons (h1.tok ▸ e) .nil) (fun t ht => by rw [List.mem_singleton.1 ht]; exact hne) h1.diag ?_
  have hst := h1.state
  have hfn : s1.lexState.isSome EXPR_FNAME = true := by rw [hst]; decide
  have hlab : ¬ LabelAt s1.lexState s1.commandStart := by
    rw [hst]; rintro (⟨h, -⟩ | h) <;> exact absurd h (by decide)
  have hg : SkipsTo x bs s1.lexState sep (w ++ rest) := .of hsep
  have hp : q + len + sep.length = s1.buffer.pcur + sep.length := by rw [h1.pcur]
  refine tokens_step h.upper (by rw [hf.staticEnv]; exact h.declared) (by rw [hf.context]; exact h.params) (defName_ne hw) ?_ hr
  rw [hp]
  have hu := h1.up
  have he : Place.operator.Is EXPR_ENDFN := ⟨by decide, by decide⟩
  cases hw with
  | @name cps cp mark rest name first not_end ends keyword =>
    rw [List.append_assoc] at hg hu
    rw [← h.upper]
    have := yylex_name_ h1.strterm h1.ls h1.le name not_end hg (by rw [hfn]; exact ends) hu (fun e => hlab e.1) (.inr keyword) first
    rw [hst] at this
    refine stepped_word this rfl ?_
    rw [show LexState.isSome EXPR_FNAME (EXPR_DOT ||| EXPR_FNAME) = true by decide]
    simp only [Bool.not_true, Bool.and_false, Bool.false_and]
    cases s1.commandStart <;> exact ⟨by decide, by decide⟩
  | @keyword cps mark rest word t m st name ends text kw not_do =>
    rw [List.append_assoc] at hg hu
    have := yylex_keyword_ (x := x) h1.strterm h1.ls h1.le name hg (by rw [hfn]; exact ends) hu (fun e => hlab e.1) (by rw [hst]; decide) kw text not_do
    rw [hfn, hst, if_pos rfl, if_pos (by decide)] at this
    rw [text]
    exact stepped_word this (by rw [ascs_len]) he
  | @method op t rest mem longest doc here =>
    exact stepped_op (yylex_methodName (o := (op, t)) hu hg mem ⟨by rw [hst]; decide, by rw [hst]; decide⟩ longest ⟨doc, fun e => absurd e here⟩ h1.strterm h1.ls h1.le) rfl
  | @variable_ v rest t st var =>
    refine stepped_word (yylex_variable_ h1.strterm h1.ls h1.le hg hu (by rw [hfn]; exact var)) rfl ?_
    cases var <;> exact ⟨by decide, by decide⟩

theorem blanks_unique {c d : UInt8} (h1 : ¬ Blanks [c]) (h2 : ¬ Blanks [d]) : ∀ {b1 b2 u v : Bytes}, Blanks b1 → Blanks b2 → b1 ++ c :: u = b2 ++ d :: v → c :: u = d :: v
  | [], [], _, _, _, _, e => e
  | [], b :: _, _, _, _, hi, e => by
    have := (List.cons.inj e).1
    exact absurd (fun x hx => by rw [List.mem_singleton.1 hx, this]; exact hi b (by simp)) h1
  | b :: _, [], _, _, hb, _, e => by
    have := (List.cons.inj e).1
    exact absurd (fun x hx => by rw [List.mem_singleton.1 hx, ← this]; exact hb b (by simp)) h2
  | _ :: _, _ :: _, _, _, hb, hi, e => blanks_unique h1 h2 (fun c hc => hb c (by simp [hc])) (fun c hc => hi c (by simp [hc])) (List.cons.inj e).2

theorem not_solid {blanks com rest : Bytes} (hb : Blanks blanks) (hc : Trailer com) : ¬ Solid ([] ++ (blanks ++ (com ++ 10 :: rest))) := by
  rintro ⟨b2, d, v, h1, h2, h3, h4, h5, -⟩
  rcases hc with rfl | ⟨t, rfl, -⟩
  · exact h4 (List.cons.inj (blanks_unique (c := 10) (by unfold Blanks; decide) h3 hb h2 h1)).1.symm
  · exact h5 (List.cons.inj (blanks_unique (c := asc '#') (by unfold Blanks; decide) h3 hb h2 h1)).1.symm

theorem line_end_first {sep com rest : Bytes} (hs : Blanks sep) (hc : Trailer com) :
    ∃ c tl, sep ++ (com ++ 10 :: rest) = c :: tl ∧ (c = asc ' ' ∨ c = 9 ∨ c = 12 ∨ c = 11 ∨ c = asc '#' ∨ c = 10) := by
  cases sep with
  | cons b sep =>
    refine ⟨b, _, rfl, ?_⟩
    rcases hs b (by simp) with h | h | h | h <;> simp [h]
  | nil =>
    rcases hc with rfl | ⟨t, rfl, -⟩
    · exact ⟨10, _, rfl, by simp⟩
    · exact ⟨asc '#', _, rfl, by simp⟩

theorem nameByte_solid : ∀ c : UInt8, NameByte c → ¬ Blanks [c] ∧ c ≠ 10 ∧ c ≠ asc '#' ∧ ∀ o ∈ prefixes, (ascs o.1).head? ≠ some c := by
  have key : ∀ n : Fin 256, (97 ≤ UInt8.ofNat n ∧ UInt8.ofNat n ≤ 122 ∨ 65 ≤ UInt8.ofNat n ∧ UInt8.ofNat n ≤ 90 ∨ 48 ≤ UInt8.ofNat n ∧ UInt8.ofNat n ≤ 57 ∨ UInt8.ofNat n = 95 ∨ 128 ≤ UInt8.ofNat n) →
      ¬ (UInt8.ofNat n = asc ' ' ∨ UInt8.ofNat n = 9 ∨ UInt8.ofNat n = 12 ∨ UInt8.ofNat n = 11) ∧ UInt8.ofNat n ≠ 10 ∧ UInt8.ofNat n ≠ asc '#' ∧
        ∀ o ∈ prefixes, (ascs o.1).head? ≠ some (UInt8.ofNat n) := by decide +kernel
  intro c hc
  have h := key ⟨c.toNat, c.toNat_lt⟩
  rw [show UInt8.ofNat (Fin.val ⟨c.toNat, c.toNat_lt⟩) = c by simp] at h
  obtain ⟨h1, h2⟩ := h hc
  exact ⟨fun e => h1 (e c (by simp)), h2⟩

theorem plain_first {blanks : Bytes} {c : UInt8} {rest : Bytes} (h : Plain (blanks ++ c :: rest)) (hb : Blanks blanks) (hc : ¬ Blanks [c]) :
    c ≠ 10 ∧ c ≠ asc '#' ∧ ∀ o ∈ prefixes, (ascs o.1).head? = some c → c = asc ':' ∧ rest.head? ≠ some (asc ':') := by
  obtain ⟨b2, d, v, h1, h2, h3⟩ := h
  have quotes : ∀ d ∈ ascs "@$'\"", ¬ Blanks [d] ∧ d ≠ 10 ∧ d ≠ asc '#' ∧ ∀ o ∈ prefixes, (ascs o.1).head? ≠ some d := by unfold Blanks; decide
  have hd : ¬ Blanks [d] := by
    rcases h3 with h3 | h3 | ⟨rfl, -⟩
    · exact (nameByte_solid d h3).1
    · exact (quotes d h3).1
    · unfold Blanks; decide
  have e := blanks_unique hc hd hb h2 h1
  obtain ⟨rfl, rfl⟩ := List.cons.inj e
  rcases h3 with h3 | h3 | ⟨rfl, h3⟩
  · obtain ⟨-, k1, k2, k3⟩ := nameByte_solid c h3
    exact ⟨k1, k2, fun o ho h => absurd h (k3 o ho)⟩
  · obtain ⟨-, k1, k2, k3⟩ := quotes c h3
    exact ⟨k1, k2, fun o ho h => absurd h (k3 o ho)⟩
  · exact ⟨by decide, by decide, fun _ _ _ => ⟨rfl, h3⟩⟩

theorem not_plain {blanks com rest : Bytes} (hb : Blanks blanks) (hc : Trailer com) : ¬ Plain ([] ++ (blanks ++ (com ++ 10 :: rest))) := by
  intro h
  rcases hc with rfl | ⟨t, rfl, -⟩
  · exact (plain_first h (c := 10) hb (by unfold Blanks; decide)).1 rfl
  · exact (plain_first h (c := asc '#') hb (by unfold Blanks; decide)).2.1 rfl

theorem prefix_plain {o : String × Tok × Place} (ho : o ∈ prefixes) {blanks rest : Bytes} (hb : Blanks blanks) : ¬ Plain (blanks ++ (ascs o.1 ++ rest)) := by
  intro h
  have key : ∀ o ∈ prefixes, ∃ c ∈ (ascs o.1).head?, ¬ Blanks [c] ∧ (c = asc ':' → (ascs o.1).tail.head? = some (asc ':')) := by unfold Blanks; decide
  obtain ⟨c, h1, h2, h3⟩ := key o ho
  obtain ⟨tl, htl⟩ : ∃ tl, ascs o.1 = c :: tl := by
    cases e : ascs o.1 with
    | nil => rw [e] at h1; cases h1
    | cons d tl => rw [e] at h1; obtain rfl : d = c := by simpa using h1
                   exact ⟨tl, rfl⟩
  rw [htl] at h h3
  obtain ⟨-, -, h4⟩ := plain_first h (rest := tl ++ rest) hb h2
  obtain ⟨h5, h6⟩ := h4 o ho h1
  have h7 := h3 h5
  cases tl with
  | nil => cases h7
  | cons d tl => exact h6 h7

theorem minus_plain {blanks rest : Bytes} (hb : Blanks blanks) : ¬ Plain (blanks ++ asc '-' :: rest) := fun h =>
  absurd ((plain_first h hb (by unfold Blanks; decide)).2.2 ("-", .tUMINUS, .operand) (by decide) rfl).1 (by decide)

theorem lead_before {x : Ext} {upper declared bs} {gap text : Bytes} {p0 : Nat} {s : Lexer} (hlead : Lead x bs .operand s.lexState gap text)
    (h : Between x upper declared bs (gap ++ text) .operand p0 s) (hn : ¬ Plain text) : BeforeOperand s.lexState := by
  rcases hlead.2 with rfl | h2
  · rcases h.place.operand with h1 | ⟨-, h1⟩
    · exact h1
    · exact absurd h1 hn
  · exact h2.1.1

theorem keyword_first : ∀ k ∈ keywords, ∀ c ∈ (ascs k.1).head?, ¬ Blanks [c] := by unfold Blanks; decide
theorem keyword_some : ∀ k ∈ keywords, ascs k.1 ≠ [] := by decide

/-- After a keyword before a value that may be missing, no modifier follows. -/
theorem lead_start {x : Ext} {upper declared bs} {gap blanks mark rest : Bytes} {cps : List Nat} {p0 : Nat} {s : Lexer} {word : String} {t m : Tok} {st : LexState}
    (hlead : Lead x bs .operand s.lexState gap (blanks ++ (Utf8.encodeAll cps ++ (mark ++ rest))))
    (h : Between x upper declared bs (gap ++ (blanks ++ (Utf8.encodeAll cps ++ (mark ++ rest)))) .operand p0 s) (hb : Blanks blanks)
    (ht : Utf8.encodeAll cps ++ mark = ascs word) (hk : (word, t, m, st) ∈ keywords) : s.lexState.isSome (EXPR_BEG ||| EXPR_LABELED) = true ∨ t = m := by
  rcases h.place with h1 | ⟨-, ⟨-, h1⟩ | ⟨h1, -⟩⟩
  · exact .inl (isSome_more h1.2)
  swap
  · rw [h1]; exact .inl (by decide)
  rcases hlead.2 with rfl | h2
  swap
  · exact .inl (isSome_more h2.1.2)
  obtain ⟨b2, d, v, k1, k2, k3, -, -, k6⟩ := h1
  by_cases e : t = m
  · exact .inr e
  obtain ⟨c, tl, hc⟩ := List.exists_cons_of_ne_nil (keyword_some _ hk)
  have k7 := keyword_first _ hk c (by rw [hc]; rfl)
  rw [← List.append_assoc (Utf8.encodeAll cps), ht] at k1
  dsimp only at hc
  rw [hc] at k1
  have k8 := blanks_unique (u := tl ++ rest) k7 k3 hb k2 k1
  exact absurd ⟨rest, by dsimp only; rw [hc, ← k8]; rfl⟩ (k6 _ hk e)

theorem keyword_same {x : Ext} {bs w rest : Bytes} {t m : Tok} {st : LexState} {q len : Nat} {s : Lexer}
    (h : Wp (yylex x) (WordToken bs w rest (if s.lexState.isSome (EXPR_FNAME ||| EXPR_BEG ||| EXPR_LABELED) = true then t else m)
      (if s.lexState.isSome (EXPR_BEG ||| EXPR_LABELED) = false ∧ t ≠ m then EXPR_BEG ||| EXPR_LABEL else st) q len s) s)
    (hs : s.lexState.isSome (EXPR_BEG ||| EXPR_LABELED) = true ∨ t = m) : Wp (yylex x) (WordToken bs w rest t st q len s) s := by
  rcases hs with hs | rfl
  · have h3 : s.lexState.isSome (EXPR_FNAME ||| EXPR_BEG ||| EXPR_LABELED) = true := by
      rw [Nat.or_assoc, Nat.or_comm EXPR_FNAME]; exact isSome_more hs
    rw [h3, hs] at h
    simpa only [Bool.true_eq_false, false_and, if_false, if_true] using h
  · simpa only [ne_eq, not_true_eq_false, and_false, if_false, ite_self] using h

theorem Fits.notDot {pl : Place} {st : LexState} {text : Bytes} (h : Fits pl st text) (hp : pl ≠ .name) : st.isSome EXPR_DOT = false := by
  cases pl with
  | operand =>
    rcases h.operand with h | ⟨rfl, -⟩
    · exact (isSome_or (isSome_or h.only).1).2
    · decide
  | name => exact absurd rfl hp
  | operator => exact (Place.Is.mod (h.other (by decide)) (.inl rfl)).2.2
  | argument => exact (Place.Is.mod (h.other (by decide)) (.inr rfl)).2.2

theorem _root_.Verif.LineSpec.Jump.facts {pl : Place} {word : String} {t : Tok} (h : Jump pl word t) :
    ∃ m st, (word, t, m, st) ∈ keywords ∧ (st = EXPR_MID ∨ st = EXPR_CLASS) ∧ word ≠ "do" ∧ (pl = .operand ∨ t = m ∧ (pl = .operator ∨ pl = .argument)) := by
  have key : ∀ k ∈ keywords, k.2.2.2 = EXPR_MID ∨ k.2.2.2 = EXPR_CLASS → k.1 ≠ "do" := by decide
  cases h with
  | start kw after => exact ⟨_, _, kw, after, key _ kw after, .inl rfl⟩
  | only kw after place => exact ⟨_, _, kw, after, key _ kw after, .inr ⟨rfl, place⟩⟩

set_option maxHeartbeats 1000000 in
theorem tokens_line {x : Ext} {upper declared bs} {text : Bytes} {pl : Place} {p : Nat} {ts : List Token} (hl : Line upper declared pl p text ts)
    (hcr : 10 ∈ text → 13 ∉ bs) : ∀ gap p0 s, Lead x bs pl s.lexState gap text → Between x upper declared bs (gap ++ text) pl p0 s → p0 + gap.length = p → Tokens x s ts := by
  have next : ∀ {rest : Bytes} {pl q ts}, (10 ∈ rest → 13 ∉ bs) → ((10 ∈ rest → 13 ∉ bs) → ∀ gap p0 s, Lead x bs pl s.lexState gap rest → Between x upper declared bs (gap ++ rest) pl p0 s →
      p0 + gap.length = q → Tokens x s ts) → ∀ s', Between x upper declared bs rest pl q s' → Tokens x s' ts :=
    fun hcr ih s' h => ih hcr [] _ s' .nil h rfl
  induction hl with
  | @done pl p blanks blank =>
    intro gap p0 s hlead h _
    have h1 := hlead.1
    exact tokens_nil h (SkipsTo.trans (g' := blanks) (text := []) (by simpa using h1) (.of blank))
  | @prefix_ p blanks op t pl' rest ts blank mem longest dots sign next_ ih =>
    intro gap p0 s hlead h hp0
    obtain ⟨hg, hu, hp⟩ := hlead.use h blank hp0
    refine tokens_cons h (prefix_ne _ mem) ?_ (next (fun e => hcr (by simp [e])) ih)
    rw [← hp]
    exact stepped_op (yylex_prefix (o := (op, t, pl')) hu hg mem (lead_before hlead h (prefix_plain mem blank)) longest ⟨sign, fun e => absurd e dots⟩ h.strterm h.ls h.le) (by rw [ascs_len])
  | @minus p blanks d rest ts blank digit next_ ih =>
    intro gap p0 s hlead h hp0
    obtain ⟨hg, hu, hp⟩ := hlead.use h blank hp0
    refine tokens_cons h (fun e => by cases e) ?_ (next (fun e => hcr (by simp [e])) ih)
    rw [← hp]
    exact stepped_op (yylex_minus_num hu hg (lead_before hlead h (minus_plain blank)) digit h.strterm h.ls h.le) rfl
  | @infix_ p blanks op t pl' rest ts blank mem longest paren dot doc next_ ih =>
    intro gap p0 s hlead h hp0
    obtain ⟨hg, hu, hp⟩ := hlead.use h blank hp0
    refine tokens_cons h (infix_ne _ mem) ?_ (next (fun e => hcr (by simp [e])) ih)
    rw [← hp]
    exact stepped_op (yylex_infix (o := (op, t, pl')) hu hg mem (h.place.other (by decide)) longest ⟨dot, fun _ => h.params, fun e => absurd e paren, doc⟩ h.strterm h.ls h.le) (by rw [ascs_len])
  | @command p blanks op t pl' rest ts blank mem longest usual next_ ih =>
    intro gap p0 s hlead h hp0
    obtain rfl := Lead.none mem blank hlead
    have hp : s.buffer.pcur + blanks.length = p + blanks.length := by rw [h.pcur, ← hp0]; rfl
    refine tokens_cons h (infix_ne _ mem) ?_ (next (fun e => hcr (by simp [e])) ih)
    rw [← hp]
    exact stepped_op (yylex_argument (o := (op, t, pl')) h.up blank mem (h.place.other (by decide)) longest (by rw [h.params]; exact usual) h.strterm h.ls h.le) (by rw [ascs_len])
  | @method p blanks op t rest ts blank mem longest doc next_ ih =>
    intro gap p0 s hlead h hp0
    obtain ⟨hg, hu, hp⟩ := hlead.use h blank hp0
    refine tokens_cons h (method_ne _ mem) ?_ (next (fun e => hcr (by simp [e])) ih)
    rw [← hp]
    have hd : s.lexState = EXPR_DOT := h.place.other (by decide)
    exact stepped_op (yylex_methodName (o := (op, t)) hu hg mem ⟨by rw [hd]; decide, by rw [hd]; decide⟩ longest ⟨doc, fun _ => by rw [hd]; decide⟩ h.strterm h.ls h.le) (by rw [ascs_len])
  | @number pl p blanks k w rest ts blank lit ends next_ ih =>
    intro gap p0 s hlead h hp0
    obtain ⟨hg, hu, hp⟩ := hlead.use h blank hp0
    refine tokens_cons h (by cases k <;> exact fun e => by cases e) ?_ (next (fun e => hcr (by simp [e])) ih)
    rw [← hp]
    have := stepped_word (yylex_literal (x := x) hu hg lit ends h.strterm h.ls h.le) rfl is_end
    cases k <;> exact this
  | @variable_ pl p blanks v rest t st ts blank var next_ ih =>
    intro gap p0 s hlead h hp0
    obtain ⟨hg, hu, hp⟩ := hlead.use h blank hp0
    refine tokens_cons h (variable_end var).2 ?_ (next (fun e => hcr (by simp [e])) ih)
    rw [← hp]
    exact stepped_word (yylex_variable_ h.strterm h.ls h.le hg hu (by rw [h.place.fname]; exact var)) rfl (variable_end var).1
  | @string pl p blanks q body v rest ts blank lit label next_ ih =>
    intro gap p0 s hlead h hp0
    obtain ⟨hg, hu, hp⟩ := hlead.use h blank hp0
    have hq : q = asc '\'' ∨ q = asc '"' := by rcases lit with h | h <;> simp [h.1]
    obtain ⟨t, s1, e, h1, h2, h3, h4⟩ := yylex_quote (x := x) hq hu hg h.strterm h.ls h.le
    obtain ⟨s', h5, h6, h7, h8⟩ := read_literal (x := x) h2 (fun h => hcr (by simp only [List.mem_append, List.mem_cons] at h ⊢; tauto)) lit (decide_eq_false label)
    rw [hp] at h1 h3
    rw [h3] at h5 h8
    have hr : Reads x s (⟨.tSTRING_BEG, [q], ⟨p + blanks.length, p + blanks.length + 1⟩⟩ :: litTokens q body v (p + blanks.length + 1)) s' := .cons (h1 ▸ e) h5
    refine tokens_reads hr ?_ (h6.diag.trans h4) (ih (fun e => hcr (by simp [e])) [] _ s' .nil ⟨h6.at', h8, h6.st, h6.ls, h6.le, Or.inl ?_, h.upper, by rw [(fix_reads hr).1]; exact h.declared,
      by rw [(fix_reads hr).2]; exact h.params⟩ rfl)
    · intro t ht
      simp only [litTokens, List.mem_cons, List.mem_append, List.not_mem_nil, or_false] at ht
      rcases ht with rfl | ht | rfl
      · exact fun e => by cases e
      · split at ht
        · cases ht
        · obtain rfl := List.mem_singleton.1 ht; exact fun e => by cases e
      · exact fun e => by cases e
    · rw [h7]; exact is_end
  | @symbol pl p blanks w rest t pl' ts blank place name next_ ih =>
    intro gap p0 s hlead h hp0
    obtain ⟨hg, hu, hp⟩ := hlead.use h blank hp0
    obtain ⟨c, tl, rfl, n0, n1, n2, n3, n4⟩ := defName_first name
    have he : s.lexState.isEnd = false := by
      rcases place with rfl | rfl
      · rcases h.place.operand with h | ⟨h, -⟩
        · exact (BeforeOperand.beg' h).isEnd
        · rw [h]; decide
      · exact (AfterName.arg' (h.place.other (by decide))).isEnd
    have hy := yylex_symbeg (x := x) hu hg he (by simpa using n0) (by simpa using n1) (by simpa using n2) (by simpa using n3) (by simpa using n4) h.strterm h.ls h.le
    rw [hp] at hy
    exact tokens_defined (sep := []) h (fun e => by cases e) hy (fun _ h => by cases h) name (next (fun e => hcr (by simp only [List.mem_append, List.mem_cons] at e ⊢; tauto)) ih)
  | @definition pl p blanks sep w rest t pl' ts blank place spaced apart name next_ ih =>
    intro gap p0 s hlead h hp0
    obtain ⟨hg, hu, hp⟩ := hlead.use h blank hp0
    have hf := h.place.fname
    have hdot : s.lexState.isSome EXPR_DOT = false := h.place.notDot place
    obtain ⟨b, sep', rfl⟩ := List.exists_cons_of_ne_nil apart
    have hbl := spaced b (by simp)
    have hends : NameSpec.Ends false [] (b :: sep' ++ (w ++ rest)) := ends_at (by
      intro c hc
      obtain rfl : b = c := by simpa using hc
      rcases hbl with rfl | rfl | rfl | rfl <;> exact ⟨by unfold NameByte; decide, by decide, by decide⟩)
    have hy := yylex_keyword_ (x := x) (cps := [100, 101, 102]) (mark := []) (word := "def") (start := .kDEF) (other := .kDEF) (st := EXPR_FNAME) h.strterm h.ls h.le
      ⟨by unfold NameChar; decide, 100, rfl, by decide⟩ hg (by rw [hf]; exact hends) hu
      (fun e => by
        obtain ⟨h1, -⟩ := e.2
        rcases hbl with rfl | rfl | rfl | rfl <;> exact absurd h1 (by simp [asc])) hdot (by decide) (by decide) (by decide)
    rw [hp, hf] at hy
    simp only [ne_eq, not_true_eq_false, and_false, if_false, Bool.false_eq_true, ite_self] at hy
    exact tokens_defined h (fun e => by cases e) hy spaced name (next (fun e => hcr (by simp only [List.mem_append, List.mem_cons] at e ⊢; tauto)) ih)
  | @paren p rest ts next_ ih =>
    intro gap p0 s hlead h hp0
    obtain rfl : gap = [] := Lead.none' (by unfold Blank; decide) (by decide) hlead
    obtain rfl : p0 = p := hp0
    refine tokens_cons h (fun e => by cases e) ?_ (next (fun e => hcr (by simp [e])) ih)
    have hy := yylex_tight (x := x) (by simpa using h.up) (h.place.other (by decide)) h.strterm h.ls h.le
    rw [h.pcur] at hy
    exact stepped_op hy rfl
  | @name pl p blanks cps cp mark rest ts blank name first not_end ends label keyword next_ ih =>
    intro gap p0 s hlead h hp0
    obtain ⟨hg, hu, hp⟩ := hlead.use h blank hp0
    refine tokens_cons h (kind_not_end) ?_ (next (fun e => hcr (by simp [e])) ih)
    rw [← hp, ← h.upper, ← h.declared]
    have hf := h.place.fname
    have key := is_afterName (cmd := s.commandStart) (v := decide (mark = []) && !x.isUppercase cp && s.staticEnv.isDeclared cps) h.place
    refine stepped_word (yylex_name_ h.strterm h.ls h.le name not_end hg (by rw [hf]; exact ends) hu (fun e => label e.2) ?_ first) rfl ?_
    · rcases keyword with rfl | hk
      · exact .inl (by rw [show s.lexState = EXPR_DOT from h.place.other (by decide)]; decide)
      · exact .inr hk
    · rw [Bool.and_right_comm (decide (mark = []) && !x.isUppercase cp)]; exact key
  | @keyword pl p blanks cps mark word t pl' rest ts blank name ends text label kw next_ ih =>
    intro gap p0 s hlead h hp0
    obtain ⟨hg, hu, hp⟩ := hlead.use h blank hp0
    have hf := h.place.fname
    refine tokens_cons h ?_ ?_ (next (fun e => hcr (by simp [e])) ih)
    · cases kw with
      | start kw _ _ => exact (keyword_ne _ kw).1
      | only kw _ _ _ => exact (keyword_ne _ kw).1
      | modifier kw _ _ => exact (keyword_ne _ kw).2
    rw [← hp]
    have run := fun (hdot : s.lexState.isSome EXPR_DOT = false) (start other : Tok) (st : LexState) (hk : (word, start, other, st) ∈ keywords) (hdo : word ≠ "do") =>
      yylex_keyword_ (x := x) h.strterm h.ls h.le name hg (by rw [hf]; exact ends) hu (fun e => label e.2) hdot hk text hdo
    simp only [hf, Bool.false_eq_true, if_false] at run
    cases kw with
    | start kw after not_do =>
      exact stepped_word (keyword_same (run (h.place.notDot (by decide)) _ _ _ kw not_do) (lead_start hlead h blank text kw)) rfl (is_afterKeyword after)
    | only kw after not_do place =>
      obtain ⟨h1, h2, h3⟩ := Place.Is.mod (h.place.other (by rcases place with rfl | rfl <;> decide)) place
      exact stepped_word (keyword_same (run h3 _ _ _ kw not_do) (.inr rfl)) rfl (is_afterKeyword after)
    | modifier kw two place =>
      obtain ⟨h1, h2, h3⟩ := Place.Is.mod (h.place.other (by rcases place with rfl | rfl <;> decide)) place
      have r := run h3 _ _ _ kw (by
        rintro rfl
        have key : ∀ k ∈ keywords, k.1 = "do" → k.2.1 = k.2.2.1 := by decide
        exact two (key _ kw rfl))
      rw [h2, h1] at r
      simp only [ne_eq, two, not_false_eq_true, and_self, if_true, Bool.false_eq_true, if_false] at r
      exact stepped_word r rfl ⟨⟨by decide, by decide⟩, by decide⟩
  | @label p blanks cps mark rest ts blank name not_end ends single plain next_ ih =>
    intro gap p0 s hlead h hp0
    obtain ⟨hg, hu, hp⟩ := hlead.use h blank hp0
    have hf := h.place.fname
    obtain ⟨r, s1, e, h1⟩ := yylex_label (x := x) h.strterm h.ls h.le name not_end hg (by rw [hf]; exact ends) hu
      ⟨.inr (show s.lexState.isSome EXPR_ARG_ANY = true from (h.place.other (by decide)).isArg), rfl, single⟩
    rw [hp] at h1
    have hx := Fix.yylex _ _ _ e
    refine tokens_reads (ts1 := [_]) (.cons (h1.tok ▸ e) .nil) (fun t ht => by rw [List.mem_singleton.1 ht]; exact fun e => by cases e) h1.diag ?_
    exact ih (fun e => hcr (by simp [e])) [] _ s1 .nil ⟨h1.up, h1.pcur, h1.strterm, h1.ls, h1.le, Or.inr ⟨rfl, Or.inr ⟨h1.state, plain⟩⟩, h.upper, by rw [hx.staticEnv]; exact h.declared,
      by rw [hx.context]; exact h.params⟩ rfl
  | @element pl p blanks c t gp cps mark rest ts blank place op skipped name not_end ends single plain next_ ih =>
    intro gap p0 s hlead h hp0
    obtain ⟨hg, hu, hp⟩ := hlead.use h blank hp0
    have hbeg : s.lexState.isBeg = false := by
      rcases place with rfl | rfl
      · exact (AfterOperand.end' (h.place.other (by decide))).isBeg
      · exact (AfterName.arg' (h.place.other (by decide))).isBeg
    have hop : c = asc ',' ∧ t = .tCOMMA ∨ c = asc '(' ∧ t = .tLPAREN2 ∧ gap ++ blanks = [] := by
      rcases op with h1 | ⟨rfl, h2, rfl⟩
      · exact .inl h1
      · refine .inr ⟨rfl, h2, ?_⟩
        rcases hlead.2 with rfl | ⟨-, h3 | ⟨indent, v, h3, h4⟩⟩
        · rfl
        · rcases place with rfl | rfl <;> rcases h3 with h3 | h3 <;> cases h3
        · exact absurd h4 (not_hash (blanks := []) (by unfold Blank; decide) (by decide) (fun _ h => by cases h) h3)
    obtain ⟨r, s1, e, h1, hlab⟩ := yylex_opening (x := x) hu hg hop hbeg h.strterm h.ls h.le
    rw [hp] at h1
    have hx := Fix.yylex _ _ _ e
    have hs1 : Skips s1.lexState := by rw [hlab.1]; exact ⟨by decide, by decide⟩
    obtain ⟨r2, s2, e2, h2⟩ := yylex_label (x := x) h1.strterm h1.ls h1.le name not_end
      (skips_gap skipped hs1 fun e => hcr (by simp only [List.mem_append, List.mem_cons]; tauto)) (by rw [hlab.1]; exact ends) h1.up ⟨.inl ⟨by rw [hlab.1]; decide, hlab.2⟩, rfl, single⟩
    rw [h1.pcur] at h2
    have hx2 := Fix.yylex _ _ _ e2
    refine tokens_one (h1.tok ▸ e) (by rcases op with ⟨-, rfl⟩ | ⟨-, rfl, -⟩ <;> exact fun e => by cases e) h1.warn ?_
    refine tokens_reads (ts1 := [_]) (.cons (h2.tok ▸ e2) .nil) (fun t ht => by rw [List.mem_singleton.1 ht]; exact fun e => by cases e) h2.diag ?_
    exact ih (fun e => hcr (by simp only [List.mem_append, List.mem_cons]; tauto)) [] _ s2 .nil ⟨h2.up, h2.pcur, h2.strterm, h2.ls, h2.le, Or.inr ⟨rfl, Or.inr ⟨h2.state, plain⟩⟩, h.upper,
      by rw [hx2.staticEnv, hx.staticEnv]; exact h.declared, by rw [hx2.context, hx.context]; exact h.params⟩ rfl
  | @jump pl p blanks cps mark word t rest ts blank name ends text label kw solid next_ ih =>
    intro gap p0 s hlead h hp0
    obtain ⟨hg, hu, hp⟩ := hlead.use h blank hp0
    obtain ⟨m, st, hk, hst, hdo, hplace⟩ := kw.facts
    have hn : pl ≠ .name := by rcases hplace with rfl | ⟨-, rfl | rfl⟩ <;> decide
    have hdot : s.lexState.isSome EXPR_DOT = false := h.place.notDot hn
    have hf := h.place.fname
    have r := yylex_keyword_ (x := x) h.strterm h.ls h.le name hg (by rw [hf]; exact ends) hu (fun e => label e.2) hdot hk text hdo
    simp only [hf, Bool.false_eq_true, if_false] at r
    have hsame : s.lexState.isSome (EXPR_BEG ||| EXPR_LABELED) = true ∨ t = m := by
      rcases hplace with rfl | ⟨h1, -⟩
      · exact lead_start hlead h blank text hk
      · exact .inr h1
    obtain ⟨r, s1, e, h1⟩ := keyword_same r hsame
    rw [hp] at h1
    have hx := Fix.yylex _ _ _ e
    refine tokens_reads (ts1 := [_]) (.cons (h1.tok ▸ e) .nil) (fun t ht => by rw [List.mem_singleton.1 ht]; exact (keyword_ne _ hk).1) h1.diag ?_
    exact ih (fun e => hcr (by simp [e])) [] _ s1 .nil ⟨h1.up, h1.pcur, h1.strterm, h1.ls, h1.le, Or.inr ⟨rfl, Or.inl ⟨by rw [h1.state]; exact hst, solid⟩⟩, h.upper, by rw [hx.staticEnv]; exact h.declared,
      by rw [hx.context]; exact h.params⟩ rfl
  | @jumpEnd pl p blanks cps word t sep com rest ts blank name text kw mid spaced comment begins next_ ih =>
    intro gap p0 s hlead h hp0
    obtain ⟨hg, hu, hp⟩ := hlead.use h blank hp0
    obtain ⟨m, st, hk, hst, hdo, hplace⟩ := kw.facts
    have hn : pl ≠ .name := by rcases hplace with rfl | ⟨-, rfl | rfl⟩ <;> decide
    have hdot : s.lexState.isSome EXPR_DOT = false := h.place.notDot hn
    have hf := h.place.fname
    obtain ⟨c, tl, htl, hc⟩ := line_end_first (rest := rest) spaced comment
    have hends : NameSpec.Ends false [] (sep ++ (com ++ 10 :: rest)) := ends_at (by
      intro d hd
      rw [htl] at hd
      obtain rfl : c = d := by simpa using hd
      rcases hc with rfl | rfl | rfl | rfl | rfl | rfl <;> exact ⟨by unfold NameByte; decide, by decide, by decide⟩)
    have hcol : ¬ Colon (sep ++ (com ++ 10 :: rest)) := by
      rintro ⟨h1, -⟩
      rw [htl] at h1
      rcases hc with rfl | rfl | rfl | rfl | rfl | rfl <;> exact absurd h1 (by simp [asc])
    have r := yylex_keyword_ (x := x) (mark := []) h.strterm h.ls h.le name hg (by rw [hf]; exact hends) hu (fun e => hcol e.2) hdot hk (by rw [List.append_nil]; exact text) hdo
    simp only [hf, Bool.false_eq_true, if_false] at r
    have hsame : s.lexState.isSome (EXPR_BEG ||| EXPR_LABELED) = true ∨ t = m := by
      rcases hplace with rfl | ⟨h1, -⟩
      · exact lead_start (mark := []) hlead h blank (by rw [List.append_nil]; exact text) hk
      · exact .inr h1
    obtain ⟨r, s1, e, h1⟩ := keyword_same r hsame
    rw [hp] at h1
    have hx := Fix.yylex _ _ _ e
    have hmid : s1.lexState = EXPR_MID := by
      rw [h1.state]
      rcases hst with rfl | rfl
      · rfl
      · have key : ∀ k ∈ keywords, k.2.2.2 = EXPR_CLASS → k.1 = "class" := by decide
        exact absurd (key _ hk rfl) mid
    refine tokens_reads (ts1 := [_]) (.cons (h1.tok ▸ e) .nil) (fun t ht => by rw [List.mem_singleton.1 ht]; exact (keyword_ne _ hk).1) h1.diag ?_
    have hy := yylex_newline (x := x) (g := sep) h1.up (.of spaced) comment (hcr (by simp)) begins.new (by rw [hmid]; exact ⟨by decide, by decide⟩) h1.strterm h1.ls h1.le
    rw [h1.pcur] at hy
    exact tokens_newline h.upper (by rw [hx.staticEnv]; exact h.declared) (by rw [hx.context]; exact h.params) hy fun s' hb => ih (fun e => hcr (by simp [e])) [] _ s' .nil hb rfl
  | @jumpIf pl p blanks cps word t sep cps2 mark word2 t2 m2 st2 rest ts blank name text kw mid spaced apart name2 ends text2 label kw2 two next_ ih =>
    intro gap p0 s hlead h hp0
    obtain ⟨hg, hu, hp⟩ := hlead.use h blank hp0
    obtain ⟨m, st, hk, hst, hdo, hplace⟩ := kw.facts
    have hn : pl ≠ .name := by rcases hplace with rfl | ⟨-, rfl | rfl⟩ <;> decide
    have hdot : s.lexState.isSome EXPR_DOT = false := h.place.notDot hn
    have hf := h.place.fname
    have hc : ∀ d ∈ (sep ++ (Utf8.encodeAll cps2 ++ (mark ++ rest))).head?, d = asc ' ' ∨ d = 9 ∨ d = 12 ∨ d = 11 := by
      obtain ⟨b, sep', rfl⟩ := List.exists_cons_of_ne_nil apart
      intro d hd
      obtain rfl : b = d := by simpa using hd
      exact spaced b (by simp)
    have hends : NameSpec.Ends false [] (sep ++ (Utf8.encodeAll cps2 ++ (mark ++ rest))) := ends_at (by
      intro d hd
      rcases hc d hd with rfl | rfl | rfl | rfl <;> exact ⟨by unfold NameByte; decide, by decide, by decide⟩)
    have hcol : ¬ Colon (sep ++ (Utf8.encodeAll cps2 ++ (mark ++ rest))) := by
      rintro ⟨h1, -⟩
      rcases hc _ h1 with h1 | h1 | h1 | h1 <;> exact absurd h1 (by decide)
    have r := yylex_keyword_ (x := x) (mark := []) h.strterm h.ls h.le name hg (by rw [hf]; exact hends) hu (fun e => hcol e.2) hdot hk (by rw [List.append_nil]; exact text) hdo
    simp only [hf, Bool.false_eq_true, if_false] at r
    have hsame : s.lexState.isSome (EXPR_BEG ||| EXPR_LABELED) = true ∨ t = m := by
      rcases hplace with rfl | ⟨h1, -⟩
      · exact lead_start (mark := []) hlead h blank (by rw [List.append_nil]; exact text) hk
      · exact .inr h1
    obtain ⟨r, s1, e, h1⟩ := keyword_same r hsame
    rw [hp] at h1
    have hx := Fix.yylex _ _ _ e
    have hmid : s1.lexState = EXPR_MID := by
      rw [h1.state]
      rcases hst with rfl | rfl
      · rfl
      · have key : ∀ k ∈ keywords, k.2.2.2 = EXPR_CLASS → k.1 = "class" := by decide
        exact absurd (key _ hk rfl) mid
    refine tokens_reads (ts1 := [_]) (.cons (h1.tok ▸ e) .nil) (fun t ht => by rw [List.mem_singleton.1 ht]; exact (keyword_ne _ hk).1) h1.diag ?_
    have r2 := yylex_keyword_ (x := x) h1.strterm h1.ls h1.le name2 (.of spaced) (by rw [hmid]; exact ends) h1.up (fun e => label e.2) (by rw [hmid]; decide) kw2 text2 (by
      rintro rfl
      have key : ∀ k ∈ keywords, k.1 = "do" → k.2.1 = k.2.2.1 := by decide
      exact two (key _ kw2 rfl))
    rw [hmid, show LexState.isSome EXPR_MID EXPR_FNAME = false by decide, show LexState.isSome EXPR_MID (EXPR_BEG ||| EXPR_LABELED) = false by decide,
      show LexState.isSome EXPR_MID (EXPR_FNAME ||| EXPR_BEG ||| EXPR_LABELED) = false by decide] at r2
    simp only [ne_eq, two, not_false_eq_true, and_self, if_true, Bool.false_eq_true, if_false] at r2
    rw [h1.pcur] at r2
    have hpl : Place.Is .operand (EXPR_BEG ||| EXPR_LABEL) := ⟨⟨by decide, by decide⟩, by decide⟩
    exact tokens_step h.upper (by rw [hx.staticEnv]; exact h.declared) (by rw [hx.context]; exact h.params) (keyword_ne _ kw2).2
      (stepped_word r2 rfl hpl) (next (fun e => hcr (by simp [e])) ih)
  | @skip pl p blanks com rest ts blank comment place next_ ih =>
    intro gap p0 s hlead h hp0
    have hst : pl.Is s.lexState := by
      rcases hlead.2 with rfl | h1
      · rcases h.place with h1 | ⟨-, h1⟩
        · exact h1
        · rcases h1 with ⟨-, h1⟩ | ⟨-, h1⟩
          · exact absurd h1 (not_solid blank comment)
          · exact absurd h1 (not_plain blank comment)
      · exact h1.1
    have hg : Lead x bs pl s.lexState (gap ++ (blanks ++ (com ++ [10]))) rest := ⟨SkipsTo.trans (by simpa using hlead.1) (SkipsTo.trans (.of blank)
      (.remark (Place.Is.skips hst place) comment (hcr (by simp)))), .inr ⟨hst, .inl place⟩⟩
    refine ih (fun e => hcr (by simp [e])) _ p0 s hg ⟨by simpa using h.up, h.pcur, h.strterm, h.ls, h.le, .inl hst, h.upper, h.declared, h.params⟩
      (by simp only [List.length_append, List.length_cons, List.length_nil]; omega)
  | @newline pl p blanks com rest ts blank comment place begins next_ ih =>
    intro gap p0 s hlead h hp0
    obtain ⟨hg, hu, hp⟩ := hlead.use h blank hp0
    have hy := yylex_newline (x := x) hu hg comment (hcr (by simp)) begins.new (Place.Is.ends (h.place.other (by rcases place with rfl | rfl <;> decide)) place) h.strterm h.ls h.le
    rw [show s.buffer.pcur + (gap ++ blanks ++ com).length = p + (blanks ++ com).length by simp only [List.length_append] at hp ⊢; omega] at hy
    exact tokens_newline h.upper h.declared h.params hy fun s' hb => ih (fun e => hcr (by simp [e])) [] _ s' .nil hb rfl
  | @last pl p blanks com blank comment place =>
    intro gap p0 s hlead h hp0
    obtain ⟨hg, hu, hp⟩ := hlead.use h blank hp0
    have hy := yylex_lastline (x := x) hu hg comment (hcr (by simp)) (Place.Is.ends (h.place.other (by rcases place with rfl | rfl <;> decide)) place) h.strterm h.ls h.le
    rw [show s.buffer.pcur + (gap ++ blanks ++ com).length = p + (blanks ++ com).length by simp only [List.length_append] at hp ⊢; omega] at hy
    exact tokens_last hy
  | @remark pl p blanks com indent rest ts blank comment indented place next_ ih =>
    intro gap p0 s hlead h hp0
    have hst : pl.Is s.lexState := h.place.other (by rcases place with rfl | rfl <;> decide)
    have hg : Lead x bs pl s.lexState (gap ++ (blanks ++ (com ++ 10 :: indent))) (35 :: rest) := ⟨SkipsTo.trans (by simpa using! hlead.1) (SkipsTo.trans
      (.of blank) (by simpa using skips_lead (x := x) comment indented (hcr (by simp)) (Place.Is.ends hst place) (.inl rfl))), .inr ⟨hst, .inr ⟨[], rest, by simp [Blanks], rfl⟩⟩⟩
    refine ih (fun e => hcr (by simp only [List.mem_append, List.mem_cons] at e ⊢; tauto)) _ p0 s hg ⟨by simpa using h.up, h.pcur, h.strterm, h.ls, h.le, .inl hst, h.upper, h.declared, h.params⟩
      (by simp only [List.length_append, List.length_cons, List.length_nil]; omega)
  | @call pl p blanks com indent op t pl' rest ts blank comment indented place mem dot longest number next_ ih =>
    intro gap p0 s hlead h hp0
    obtain ⟨hg, hu, hp⟩ := hlead.use h blank hp0
    refine tokens_cons h (infix_ne _ mem) ?_ (next (fun e => hcr (by simp [e])) ih)
    rw [show p + (blanks ++ (com ++ 10 :: indent)).length = s.buffer.pcur + (gap ++ blanks ++ (com ++ 10 :: indent)).length by simp only [List.length_append] at hp ⊢; omega]
    exact stepped_op (yylex_lead (o := (op, t, pl')) hu hg comment indented (hcr (by simp)) mem dot longest number (by rcases place with rfl | rfl; exacts [.inl (h.place.other (by decide)), .inr (h.place.other (by decide))])
      (Place.Is.ends (h.place.other (by rcases place with rfl | rfl <;> decide)) place) h.strterm h.ls h.le) (by rw [ascs_len])

/-- **C62.** In every state outside of literals and lists of parameters that the parser can drive the lexer to: if the rest of the source is lines of code
(ended by line feeds alone, if there is more than one), then the lexer gives exactly its tokens, in order, each with its text, its type and its position, and nothing is reported but warnings. -/
theorem C62_rest_partial {name : String} {bs : Bytes} {dec : Option DecoderFn} {s0 s : Lexer} {x : Ext} {ts0 : List Token} {held : List StrTerm}
    (ha : Admissible name bs dec s0) (h : Driven x s0 ts0 s held) (hst : s.strterm = none) (hseq : Seq s.buffer) {pl : Place} (hp : pl.Is s.lexState)
    (hc : s.context.get .inArgdef = false) {ts : List Token}
    (hl : Line x.isUppercase s.staticEnv.isDeclared pl s.buffer.pcur (collapse (bs.drop s.buffer.pcur)) ts)
    (hcr : 10 ∈ collapse (bs.drop s.buffer.pcur) → 13 ∉ bs) (n : Nat) (hn : ts.length < n) :
    ∃ s', tokenizeUntilEof x n s = .ok (ts, s') ∧ ∃ ds, s'.diagnostics = s.diagnostics ++ ds ∧ ∀ d ∈ ds, d.level = .warning := by
  have hi := Driven.inv ha.inv h
  obtain ⟨s', ds, h1, h2, h3⟩ := tokens_line (x := x) hl hcr [] s.buffer.pcur s .nil ⟨⟨hseq, hi.bytes, rfl⟩, rfl, hst, hi.inv.ls, hi.inv.le, .inl hp, rfl, rfl, hc⟩ rfl n hn
  exact ⟨s', h1, ds, h2, h3⟩

/-- **C62**, for a source without byte order mark. -/
theorem C62_source_partial {name : String} {bs : Bytes} {dec : Option DecoderFn} {s0 : Lexer} {x : Ext} (ha : Admissible name bs dec s0)
    (hbom : ¬ [0xef, 0xbb, 0xbf] <+: bs) {ts : List Token} (hl : Line x.isUppercase (fun _ => false) .operand 0 (collapse bs) ts) (hcr : 10 ∈ collapse bs → 13 ∉ bs) (n : Nat) (hn : ts.length < n) :
    ∃ s', tokenizeUntilEof x n s0 = .ok (ts, s') ∧ ∀ d ∈ s'.diagnostics, d.level = .warning := by
  obtain ⟨b, eb, hf⟩ := new_fresh name bs dec
  have h0 := ha.start
  simp only [Lexer.new, eb, Bind.bind, Except.bind, Pure.pure, Except.pure, Except.ok.injEq] at h0
  subst h0
  have hp : b.pcur = 0 := by
    rw [hf.pos]
    rcases hf.bom with h | h
    · exact h.1
    · exact absurd h.2 hbom
  obtain ⟨s', h1, ds, h2, h3⟩ := C62_rest_partial (x := x) ha .start rfl (fresh_seq hf) (pl := .operand) is_start (by show Context.empty.get .inArgdef = false; decide) (ts := ts) (by
    rw [hp]; exact hl) (by rw [hp]; exact hcr) n hn
  exact ⟨s', h1, by rw [h2]; exact h3⟩

/-! ### An example -/

theorem blanks_spaces (n : Nat) : Blanks (List.replicate n 32) := fun _ hc => .inl (List.eq_of_mem_replicate hc)

theorem digit_literal {d : UInt8} (h : NumberSpec.Dec d) (h0 : d ≠ asc '0') : NumberSpec.Literal .integer [d] :=
  .decimal (.integer (w := [d]) (x := []) (.nonzero h h0 .nil) .none)

def line1 : Lexer := startOf (ascs "a.b(1, -2) if @y") (by decide +kernel)

/-- `a.b(1, -2) if @y` is a line of eleven tokens. -/
theorem line1_line (up : Nat → Bool) (ha : up 97 = false) (hb : up 98 = false) (dc : List Nat → Bool) (hd : dc [97] = false) (hd' : dc [98] = false) : Line up dc .operand 0 (ascs "a.b(1, -2) if @y") [
    ⟨.tIDENTIFIER, ascs "a", ⟨0, 1⟩⟩, ⟨.tDOT, ascs ".", ⟨1, 2⟩⟩, ⟨.tIDENTIFIER, ascs "b", ⟨2, 3⟩⟩, ⟨.tLPAREN2, ascs "(", ⟨3, 4⟩⟩, ⟨.tINTEGER, ascs "1", ⟨4, 5⟩⟩,
    ⟨.tCOMMA, ascs ",", ⟨5, 6⟩⟩, ⟨.tUMINUS_NUM, ascs "-", ⟨7, 8⟩⟩, ⟨.tINTEGER, ascs "2", ⟨8, 9⟩⟩, ⟨.tRPAREN, ascs ")", ⟨9, 10⟩⟩, ⟨.kIF_MOD, ascs "if", ⟨11, 13⟩⟩,
    ⟨.tIVAR, ascs "@y", ⟨14, 16⟩⟩] := by
  have s1 := blanks_spaces 1
  have s0 : Blanks [] := fun _ hc => by cases hc
  have l11 : Line up dc .operand 13 (ascs " @y") [⟨.tIVAR, ascs "@y", ⟨14, 16⟩⟩] :=
    .variable_ (p := 13) (blanks := ascs " ") (v := ascs "@y") (rest := []) s1
      (.ivar (cps := [121]) ⟨by unfold NameChar; decide, 121, rfl, by decide⟩ fun _ h => by cases h) (.done s0)
  have l10 : Line up dc .operator 10 (ascs " if @y") [⟨.kIF_MOD, ascs "if", ⟨11, 13⟩⟩, ⟨.tIVAR, ascs "@y", ⟨14, 16⟩⟩] :=
    .keyword (p := 10) (blanks := ascs " ") (cps := [105, 102]) (mark := []) (word := "if") (rest := ascs " @y") s1 ⟨by unfold NameChar; decide, 105, rfl, by decide⟩
      (ends_at (by unfold NameByte; decide)) (by decide) (by unfold Colon; decide) (.modifier (t := .kIF) (st := EXPR_BEG) (by decide) (by decide) (.inl rfl)) l11
  have l9 : Line up dc .operator 9 (ascs ") if @y") _ :=
    .infix_ (p := 9) (blanks := []) (op := ")") (rest := ascs " if @y") s0 (t := .tRPAREN) (pl' := .operator) (by decide) (by unfold Longest; decide) (by decide) (fun e => absurd e (by decide)) (by decide) l10
  have l8 : Line up dc .operand 8 (ascs "2) if @y") _ :=
    .number (p := 8) (blanks := []) (w := ascs "2") (rest := ascs ") if @y") s0 (digit_literal (by unfold NumberSpec.Dec; decide) (by decide))
      (fun c hc => by obtain rfl : asc ')' = c := by simpa [ascs] using hc
                      exact ⟨by unfold NumberSpec.Stops; decide, fun e => absurd e (by decide)⟩) l9
  have l7 : Line up dc .operand 6 (ascs " -2) if @y") _ :=
    .minus (p := 6) (blanks := ascs " ") (d := asc '2') (rest := ascs ") if @y") s1 (by unfold Digit; decide) l8
  have l6 : Line up dc .operator 5 (ascs ", -2) if @y") _ :=
    .infix_ (p := 5) (blanks := []) (op := ",") (rest := ascs " -2) if @y") s0 (t := .tCOMMA) (pl' := .operand) (by decide) (by unfold Longest; decide) (by decide) (fun e => absurd e (by decide)) (by decide) l7
  have l5 : Line up dc .operand 4 (ascs "1, -2) if @y") _ :=
    .number (p := 4) (blanks := []) (w := ascs "1") (rest := ascs ", -2) if @y") s0 (digit_literal (by unfold NumberSpec.Dec; decide) (by decide))
      (fun c hc => by obtain rfl : asc ',' = c := by simpa [ascs] using hc
                      exact ⟨by unfold NumberSpec.Stops; decide, fun e => absurd e (by decide)⟩) l6
  have l4 : Line up dc .argument 3 (ascs "(1, -2) if @y") _ :=
    .command (p := 3) (blanks := []) (op := "(") (rest := ascs "1, -2) if @y") s0 (t := .tLPAREN2) (pl' := .operand) (by decide) (by unfold Longest; decide)
      ⟨by decide, fun e => absurd rfl e, by decide, fun e => absurd e (by decide), fun e => absurd e (by decide), fun e => absurd e (by decide), by decide⟩ l5
  have l3 : Line up dc .name 2 (ascs "b(1, -2) if @y") _ :=
    .name (pl := .name) (p := 2) (blanks := []) (cps := [98]) (cp := 98) (mark := []) (rest := ascs "(1, -2) if @y") s0 ⟨by unfold NameChar; decide, 98, rfl, by decide⟩ rfl (by decide)
      (ends_at (by unfold NameByte; decide)) (by unfold Colon; decide) (.inl rfl) (by rw [hb, hd']; exact l4)
  have hdig : ∀ c, (ascs "b(1, -2) if @y").head? = some c → ¬ Digit c := by
    intro c hc
    obtain rfl : asc 'b' = c := by simpa [ascs] using hc
    unfold Digit; decide
  have l2 : Line up dc .argument 1 (ascs ".b(1, -2) if @y") _ :=
    .command (p := 1) (blanks := []) (op := ".") (rest := ascs "b(1, -2) if @y") s0 (t := .tDOT) (pl' := .name) (by decide) (by unfold Longest; decide)
      ⟨by decide, fun e => absurd rfl e, by decide, fun e => absurd e (by decide), fun _ c hc => hdig c hc, fun e => absurd e (by decide), by decide⟩ l3
  have l1 : Line up dc .operand 0 (ascs "a.b(1, -2) if @y") _ :=
    .name (pl := .operand) (p := 0) (blanks := []) (cps := [97]) (cp := 97) (mark := []) (rest := ascs ".b(1, -2) if @y") s0 ⟨by unfold NameChar; decide, 97, rfl, by decide⟩ rfl (by decide)
      (ends_at (by unfold NameByte; decide)) (by unfold Colon; decide) (.inr (by decide)) (by rw [ha, hd]; exact l2)
  rw [ha, hb] at l1
  exact l1

example : ∃ s' ts, tokenizeUntilEof asciiExt 12 line1 = .ok (ts, s') ∧ ts.length = 11 ∧ ∀ d ∈ s'.diagnostics, d.level = .warning := by
  have ha : Admissible "(eval)" (ascs "a.b(1, -2) if @y") none line1 := ⟨startOf_new _ _, by decide, by simp⟩
  obtain ⟨s', h1, h2⟩ := C62_source_partial (x := asciiExt) ha (by decide) (by
    rw [show collapse (ascs "a.b(1, -2) if @y") = ascs "a.b(1, -2) if @y" by decide +kernel]
    exact line1_line _ (by decide) (by decide) _ rfl rfl) (fun e => absurd e (by decide +kernel)) 12 (by decide)
  exact ⟨s', _, h1, rfl, h2⟩

def line2 : Lexer := startOf (ascs "1 + # a\n\n 2\n# b\n  .b\n@y\n") (by decide +kernel)

/-- Several lines with comments: the end of the first one is skipped, and so is the empty one; the third is continued by the call in the fifth. -/
theorem line2_line (up : Nat → Bool) (hb : up 98 = false) (dc : List Nat → Bool) : Line up dc .operand 0 (ascs "1 + # a\n\n 2\n# b\n  .b\n@y\n") [
    ⟨.tINTEGER, ascs "1", ⟨0, 1⟩⟩, ⟨.tPLUS, ascs "+", ⟨2, 3⟩⟩, ⟨.tINTEGER, ascs "2", ⟨10, 11⟩⟩, ⟨.tDOT, ascs ".", ⟨18, 19⟩⟩, ⟨.tIDENTIFIER, ascs "b", ⟨19, 20⟩⟩,
    ⟨.tNL, [10], ⟨20, 21⟩⟩, ⟨.tIVAR, ascs "@y", ⟨21, 23⟩⟩, ⟨.tNL, [10], ⟨23, 24⟩⟩] := by
  have s1 := blanks_spaces 1
  have s2 := blanks_spaces 2
  have s0 : Blanks [] := fun _ hc => by cases hc
  have l8 : Line up dc .operator 23 (ascs "\n") _ := .last (p := 23) (blanks := []) (com := []) s0 (.inl rfl) (.inl rfl)
  have l7 : Line up dc .operand 21 (ascs "@y\n") _ :=
    .variable_ (p := 21) (blanks := []) (v := ascs "@y") (rest := ascs "\n") s0
      (.ivar (cps := [121]) ⟨by unfold NameChar; decide, 121, rfl, by decide⟩ (by unfold NameSpec.Stops NameByte; decide)) l8
  have l6 : Line up dc .argument 20 (ascs "\n@y\n") _ :=
    .newline (p := 20) (blanks := []) (com := []) (rest := ascs "@y\n") s0 (.inl rfl) (.inr rfl) ⟨[], asc '@', ascs "y\n", rfl, s0, by unfold Blanks; decide, by decide, by decide, by decide⟩ l7
  have l5 : Line up dc .name 19 (ascs "b\n@y\n") _ :=
    .name (pl := .name) (p := 19) (blanks := []) (cps := [98]) (cp := 98) (mark := []) (rest := ascs "\n@y\n") s0 ⟨by unfold NameChar; decide, 98, rfl, by decide⟩ rfl (by decide)
      (ends_at (by unfold NameByte; decide)) (by unfold Colon; decide) (.inl rfl) (by exact l6)
  have hdig : ∀ c, (ascs "b\n@y\n").head? = some c → ¬ Digit c := by
    intro c hc
    obtain rfl : asc 'b' = c := by simpa [ascs] using hc
    unfold Digit; decide
  have l4 : Line up dc .operator 12 (ascs "# b\n  .b\n@y\n") _ :=
    .call (p := 12) (blanks := []) (com := ascs "# b") (indent := ascs "  ") (op := ".") (rest := ascs "b\n@y\n") s0 (.inr ⟨ascs " b", rfl, by decide, by decide, by decide⟩) s2 (.inl rfl)
      (t := .tDOT) (pl' := .name) (by decide) (.inl rfl) (by unfold Longest; decide) (fun _ => hdig) l5
  have l3' : Line up dc .operator 11 (ascs "\n# b\n  .b\n@y\n") _ :=
    .remark (p := 11) (blanks := []) (com := []) (indent := []) (rest := ascs " b\n  .b\n@y\n") s0 (.inl rfl) s0 (.inl rfl) l4
  have l3 : Line up dc .operand 9 (ascs " 2\n# b\n  .b\n@y\n") _ :=
    .number (p := 9) (blanks := ascs " ") (w := ascs "2") (rest := ascs "\n# b\n  .b\n@y\n") s1 (digit_literal (by unfold NumberSpec.Dec; decide) (by decide))
      (fun c hc => by obtain rfl : asc '\n' = c := by simpa [ascs] using hc
                      exact ⟨by unfold NumberSpec.Stops; decide, fun e => absurd e (by decide)⟩) l3'
  have l2 : Line up dc .operand 3 (ascs " # a\n\n 2\n# b\n  .b\n@y\n") _ :=
    .skip (p := 3) (blanks := ascs " ") (com := ascs "# a") s1 (.inr ⟨ascs " a", rfl, by decide, by decide, by decide⟩) (.inl rfl) (.skip (p := 8) (blanks := []) (com := []) s0 (.inl rfl) (.inl rfl) l3)
  have l1 : Line up dc .operator 1 (ascs " + # a\n\n 2\n# b\n  .b\n@y\n") _ :=
    .infix_ (p := 1) (blanks := ascs " ") (op := "+") (rest := ascs " # a\n\n 2\n# b\n  .b\n@y\n") s1 (t := .tPLUS) (pl' := .operand) (by decide) (by unfold Longest; decide) (by decide) (fun e => absurd e (by decide)) (by decide) l2
  have l0 : Line up dc .operand 0 (ascs "1 + # a\n\n 2\n# b\n  .b\n@y\n") _ :=
    .number (p := 0) (blanks := []) (w := ascs "1") (rest := ascs " + # a\n\n 2\n# b\n  .b\n@y\n") s0 (digit_literal (by unfold NumberSpec.Dec; decide) (by decide))
      (fun c hc => by obtain rfl : asc ' ' = c := by simpa [ascs] using hc
                      exact ⟨by unfold NumberSpec.Stops; decide, fun e => absurd e (by decide)⟩) l1
  rw [hb] at l0
  exact l0

example : ∃ s' ts, tokenizeUntilEof asciiExt 9 line2 = .ok (ts, s') ∧ ts.length = 8 ∧ ∀ d ∈ s'.diagnostics, d.level = .warning := by
  have ha : Admissible "(eval)" (ascs "1 + # a\n\n 2\n# b\n  .b\n@y\n") none line2 := ⟨startOf_new _ _, by decide, by simp⟩
  obtain ⟨s', h1, h2⟩ := C62_source_partial (x := asciiExt) ha (by decide) (by
    rw [show collapse (ascs "1 + # a\n\n 2\n# b\n  .b\n@y\n") = ascs "1 + # a\n\n 2\n# b\n  .b\n@y\n" by decide +kernel]
    exact line2_line _ (by decide) _) (fun _ => by decide) 9 (by decide)
  exact ⟨s', _, h1, rfl, h2⟩

def line3 : Lexer := startOf (ascs "a \"x\\n\", 'y'\n") (by decide +kernel)

/-- A line with literals. -/
theorem line3_line (up : Nat → Bool) (ha : up 97 = false) (dc : List Nat → Bool) (hd : dc [97] = false) : Line up dc .operand 0 (ascs "a \"x\\n\", 'y'\n") [
    ⟨.tIDENTIFIER, ascs "a", ⟨0, 1⟩⟩, ⟨.tSTRING_BEG, ascs "\"", ⟨2, 3⟩⟩, ⟨.tSTRING_CONTENT, ascs "x\n", ⟨3, 6⟩⟩, ⟨.tSTRING_END, ascs "\"", ⟨6, 7⟩⟩, ⟨.tCOMMA, ascs ",", ⟨7, 8⟩⟩,
    ⟨.tSTRING_BEG, ascs "'", ⟨9, 10⟩⟩, ⟨.tSTRING_CONTENT, ascs "y", ⟨10, 11⟩⟩, ⟨.tSTRING_END, ascs "'", ⟨11, 12⟩⟩, ⟨.tNL, [10], ⟨12, 13⟩⟩] := by
  have s1 := blanks_spaces 1
  have s0 : Blanks [] := fun _ hc => by cases hc
  have l4 : Line up dc .operator 12 (ascs "\n") _ := .last (p := 12) (blanks := []) (com := []) s0 (.inl rfl) (.inl rfl)
  have l3 : Line up dc .operand 8 (ascs " 'y'\n") _ :=
    .string (pl := .operand) (p := 8) (blanks := ascs " ") (q := asc '\'') (body := ascs "y") (v := ascs "y") (rest := ascs "\n") s1
      (.inl ⟨rfl, by decide +kernel, by simp [QuoteSpec.AsciiEscapes, ascs, asc]⟩) (by unfold Colon; decide) l4
  have l2 : Line up dc .operator 7 (ascs ", 'y'\n") _ :=
    .infix_ (p := 7) (blanks := []) (op := ",") (rest := ascs " 'y'\n") s0 (t := .tCOMMA) (pl' := .operand) (by decide) (by unfold Longest; decide) (by decide) (fun e => absurd e (by decide)) (by decide) l3
  have hx : EscapeSpec.Denotes (ascs "89") (asc '"') none 0 (ascs "x\\n" ++ asc '"' :: ascs ", 'y'\n") (ascs "x\n") (asc '"' :: ascs ", 'y'\n") :=
    .plain (c := asc 'x') (text := asc '\\' :: asc 'n' :: asc '"' :: ascs ", 'y'\n") (v := ascs "\n") (by decide) (by decide) (by decide) (fun e => absurd e (by decide))
      (.escape (w := [10]) (v := []) (text' := asc '"' :: ascs ", 'y'\n") (.byte (.letter (by decide))) (.stop (by decide)))
  have l1 : Line up dc .argument 1 (ascs " \"x\\n\", 'y'\n") _ :=
    .string (pl := .argument) (p := 1) (blanks := ascs " ") (q := asc '"') (body := ascs "x\\n") (v := ascs "x\n") (rest := ascs ", 'y'\n") s1 (.inr ⟨rfl, hx⟩) (by unfold Colon; decide) l2
  have l0 : Line up dc .operand 0 (ascs "a \"x\\n\", 'y'\n") _ :=
    .name (pl := .operand) (p := 0) (blanks := []) (cps := [97]) (cp := 97) (mark := []) (rest := ascs " \"x\\n\", 'y'\n") s0 ⟨by unfold NameChar; decide, 97, rfl, by decide⟩ rfl (by decide)
      (ends_at (by unfold NameByte; decide)) (by unfold Colon; decide) (.inr (by decide +kernel)) (by rw [ha, hd]; exact l1)
  rw [ha] at l0
  exact l0

example : ∃ s' ts, tokenizeUntilEof asciiExt 10 line3 = .ok (ts, s') ∧ ts.length = 9 ∧ ∀ d ∈ s'.diagnostics, d.level = .warning := by
  have ha : Admissible "(eval)" (ascs "a \"x\\n\", 'y'\n") none line3 := ⟨startOf_new _ _, by decide, by simp⟩
  obtain ⟨s', h1, h2⟩ := C62_source_partial (x := asciiExt) ha (by decide) (by
    rw [show collapse (ascs "a \"x\\n\", 'y'\n") = ascs "a \"x\\n\", 'y'\n" by decide +kernel]
    exact line3_line _ (by decide) _ rfl) (fun _ => by decide) 10 (by decide)
  exact ⟨s', _, h1, rfl, h2⟩

def line4 : Lexer := startOf (ascs "def a=(b)\n c :end, :+\nend\n") (by decide +kernel)

/-- A definition with symbols. -/
theorem line4_line (up : Nat → Bool) (ha : up 97 = false) (hb : up 98 = false) (hc : up 99 = false) (dc : List Nat → Bool) (hd : dc [98] = false) (hd' : dc [99] = false) :
    Line up dc .operand 0 (ascs "def a=(b)\n c :end, :+\nend\n") [
    ⟨.kDEF, ascs "def", ⟨0, 3⟩⟩, ⟨.tIDENTIFIER, ascs "a=", ⟨4, 6⟩⟩, ⟨.tLPAREN2, ascs "(", ⟨6, 7⟩⟩, ⟨.tIDENTIFIER, ascs "b", ⟨7, 8⟩⟩, ⟨.tRPAREN, ascs ")", ⟨8, 9⟩⟩, ⟨.tNL, [10], ⟨9, 10⟩⟩,
    ⟨.tIDENTIFIER, ascs "c", ⟨11, 12⟩⟩, ⟨.tSYMBEG, ascs ":", ⟨13, 14⟩⟩, ⟨.kEND, ascs "end", ⟨14, 17⟩⟩, ⟨.tCOMMA, ascs ",", ⟨17, 18⟩⟩, ⟨.tSYMBEG, ascs ":", ⟨19, 20⟩⟩,
    ⟨.tPLUS, ascs "+", ⟨20, 21⟩⟩, ⟨.tNL, [10], ⟨21, 22⟩⟩, ⟨.kEND, ascs "end", ⟨22, 25⟩⟩, ⟨.tNL, [10], ⟨25, 26⟩⟩] := by
  have s1 := blanks_spaces 1
  have s0 : Blanks [] := fun _ hc => by cases hc
  have nend : Name [101, 110, 100] := ⟨by unfold NameChar; decide, 101, rfl, by decide⟩
  have l9 : Line up dc .operator 25 (ascs "\n") _ := .last (p := 25) (blanks := []) (com := []) s0 (.inl rfl) (.inl rfl)
  have l8 : Line up dc .operand 22 (ascs "end\n") _ :=
    .keyword (p := 22) (blanks := []) (cps := [101, 110, 100]) (mark := []) (word := "end") (rest := ascs "\n") s0 nend
      (ends_at (by unfold NameByte; decide)) (by decide) (by unfold Colon; decide) (.start (t := .kEND) (m := .kEND) (st := EXPR_END) (by decide) rfl (by decide)) l9
  have l7 : Line up dc .argument 21 (ascs "\nend\n") _ :=
    .newline (p := 21) (blanks := []) (com := []) (rest := ascs "end\n") s0 (.inl rfl) (.inr rfl) ⟨[], asc 'e', ascs "nd\n", rfl, s0, by unfold Blanks; decide, by decide, by decide, by decide⟩ l8
  have l6 : Line up dc .operand 18 (ascs " :+\nend\n") _ :=
    .symbol (p := 18) (blanks := ascs " ") (w := ascs "+") (rest := ascs "\nend\n") s1 (.inl rfl) (.method (op := "+") (t := .tPLUS) (by decide) (by unfold LongestName; decide) (by decide) (by decide)) l7
  have l5 : Line up dc .operator 17 (ascs ", :+\nend\n") _ :=
    .infix_ (p := 17) (blanks := []) (op := ",") (rest := ascs " :+\nend\n") s0 (t := .tCOMMA) (pl' := .operand) (by decide) (by unfold Longest; decide) (by decide) (fun e => absurd e (by decide)) (by decide) l6
  have l4 : Line up dc .argument 12 (ascs " :end, :+\nend\n") _ :=
    .symbol (p := 12) (blanks := ascs " ") (w := ascs "end") (rest := ascs ", :+\nend\n") s1 (.inr rfl)
      (.keyword (cps := [101, 110, 100]) (mark := []) (word := "end") (t := .kEND) (m := .kEND) (st := EXPR_END) nend
        (.plain (by unfold NameByte; decide) (fun c t e hc => by cases e; revert hc; decide) (fun _ e => by cases e)) (by decide) (by decide) (by decide)) l5
  have l3 : Line up dc .operand 10 (ascs " c :end, :+\nend\n") _ :=
    .name (pl := .operand) (p := 10) (blanks := ascs " ") (cps := [99]) (cp := 99) (mark := []) (rest := ascs " :end, :+\nend\n") s1 ⟨by unfold NameChar; decide, 99, rfl, by decide⟩ rfl (by decide)
      (ends_at (by unfold NameByte; decide)) (by unfold Colon; decide) (.inr (by decide)) (by rw [hc, hd']; exact l4)
  have l2 : Line up dc .operator 9 (ascs "\n c :end, :+\nend\n") _ :=
    .newline (p := 9) (blanks := []) (com := []) (rest := ascs " c :end, :+\nend\n") s0 (.inl rfl) (.inl rfl)
      ⟨ascs " ", asc 'c', ascs " :end, :+\nend\n", rfl, s1, by unfold Blanks; decide, by decide, by decide, by decide⟩ l3
  have l1 : Line up dc .argument 8 (ascs ")\n c :end, :+\nend\n") _ :=
    .command (p := 8) (blanks := []) (op := ")") (rest := ascs "\n c :end, :+\nend\n") s0 (t := .tRPAREN) (pl' := .operator) (by decide) (by unfold Longest; decide)
      ⟨by decide, fun e => absurd rfl e, by decide, fun e => absurd e (by decide), fun e => absurd e (by decide), fun e => absurd e (by decide), by decide⟩ l2
  have l0 : Line up dc .operand 7 (ascs "b)\n c :end, :+\nend\n") _ :=
    .name (pl := .operand) (p := 7) (blanks := []) (cps := [98]) (cp := 98) (mark := []) (rest := ascs ")\n c :end, :+\nend\n") s0 ⟨by unfold NameChar; decide, 98, rfl, by decide⟩ rfl (by decide)
      (ends_at (by unfold NameByte; decide)) (by unfold Colon; decide) (.inr (by decide)) (by rw [hb, hd]; exact l1)
  have l : Line up dc .operand 0 (ascs "def a=(b)\n c :end, :+\nend\n") _ :=
    .definition (p := 0) (blanks := []) (sep := ascs " ") (w := ascs "a=") (rest := ascs "(b)\n c :end, :+\nend\n") s0 (by decide) s1 (by decide)
      (.name (cps := [97]) (cp := 97) (mark := [asc '=']) ⟨by unfold NameChar; decide, 97, rfl, by decide⟩ rfl (by decide) (.setter rfl (by unfold Setter; decide)) (by decide)) (.paren l0)
  rw [ha, hb, hc] at l
  exact l

example : ∃ s' ts, tokenizeUntilEof asciiExt 16 line4 = .ok (ts, s') ∧ ts.length = 15 ∧ ∀ d ∈ s'.diagnostics, d.level = .warning := by
  have ha : Admissible "(eval)" (ascs "def a=(b)\n c :end, :+\nend\n") none line4 := ⟨startOf_new _ _, by decide, by simp⟩
  obtain ⟨s', h1, h2⟩ := C62_source_partial (x := asciiExt) ha (by decide) (by
    rw [show collapse (ascs "def a=(b)\n c :end, :+\nend\n") = ascs "def a=(b)\n c :end, :+\nend\n" by decide +kernel]
    exact line4_line _ (by decide) (by decide) (by decide) _ rfl rfl) (fun _ => by decide) 16 (by decide)
  exact ⟨s', _, h1, rfl, h2⟩

def line5 : Lexer := startOf (ascs "class A\n return 1\n break\nend") (by decide +kernel)

/-- Keywords before values that may be missing. -/
theorem line5_line (up : Nat → Bool) (ha : up 65 = true) (dc : List Nat → Bool) : Line up dc .operand 0 (ascs "class A\n return 1\n break\nend") [
    ⟨.kCLASS, ascs "class", ⟨0, 5⟩⟩, ⟨.tCONSTANT, ascs "A", ⟨6, 7⟩⟩, ⟨.tNL, [10], ⟨7, 8⟩⟩, ⟨.kRETURN, ascs "return", ⟨9, 15⟩⟩, ⟨.tINTEGER, ascs "1", ⟨16, 17⟩⟩, ⟨.tNL, [10], ⟨17, 18⟩⟩,
    ⟨.kBREAK, ascs "break", ⟨19, 24⟩⟩, ⟨.tNL, [10], ⟨24, 25⟩⟩, ⟨.kEND, ascs "end", ⟨25, 28⟩⟩] := by
  have s1 := blanks_spaces 1
  have s0 : Blanks [] := fun _ hc => by cases hc
  have l6 : Line up dc .operand 25 (ascs "end") _ :=
    .keyword (p := 25) (blanks := []) (cps := [101, 110, 100]) (mark := []) (word := "end") (rest := []) s0 ⟨by unfold NameChar; decide, 101, rfl, by decide⟩
      (ends_at (by unfold NameByte; decide)) (by decide) (by unfold Colon; decide) (.start (t := .kEND) (m := .kEND) (st := EXPR_END) (by decide) rfl (by decide)) (.done s0)
  have l5 : Line up dc .operand 18 (ascs " break\nend") _ :=
    .jumpEnd (p := 18) (blanks := ascs " ") (cps := [98, 114, 101, 97, 107]) (word := "break") (t := .kBREAK) (sep := []) (com := []) (rest := ascs "end") s1
      ⟨by unfold NameChar; decide, 98, rfl, by decide⟩ (by decide) (.start (m := .kBREAK) (st := EXPR_MID) (by decide) (.inl rfl)) (by decide) s0 (.inl rfl)
      ⟨[], asc 'e', ascs "nd", rfl, s0, by unfold Blanks; decide, by decide, by decide, by decide⟩ l6
  have l4 : Line up dc .operator 17 (ascs "\n break\nend") _ :=
    .newline (p := 17) (blanks := []) (com := []) (rest := ascs " break\nend") s0 (.inl rfl) (.inl rfl)
      ⟨ascs " ", asc 'b', ascs "reak\nend", rfl, s1, by unfold Blanks; decide, by decide, by decide, by decide⟩ l5
  have l3 : Line up dc .operand 15 (ascs " 1\n break\nend") _ :=
    .number (p := 15) (blanks := ascs " ") (w := ascs "1") (rest := ascs "\n break\nend") s1 (digit_literal (by unfold NumberSpec.Dec; decide) (by decide))
      (fun c hc => by obtain rfl : asc '\n' = c := by simpa [ascs] using hc
                      exact ⟨by unfold NumberSpec.Stops; decide, fun e => absurd e (by decide)⟩) l4
  have l2 : Line up dc .operand 8 (ascs " return 1\n break\nend") _ :=
    .jump (p := 8) (blanks := ascs " ") (cps := [114, 101, 116, 117, 114, 110]) (mark := []) (word := "return") (t := .kRETURN) (rest := ascs " 1\n break\nend") s1
      ⟨by unfold NameChar; decide, 114, rfl, by decide⟩ (ends_at (by unfold NameByte; decide)) (by decide) (by unfold Colon; decide) (.start (m := .kRETURN) (st := EXPR_MID) (by decide) (.inl rfl))
      ⟨ascs " ", asc '1', ascs "\n break\nend", rfl, s1, by unfold Blanks; decide, by decide, by decide, by decide⟩ l3
  have l1 : Line up dc .argument 7 (ascs "\n return 1\n break\nend") _ :=
    .newline (p := 7) (blanks := []) (com := []) (rest := ascs " return 1\n break\nend") s0 (.inl rfl) (.inr rfl)
      ⟨ascs " ", asc 'r', ascs "eturn 1\n break\nend", rfl, s1, by unfold Blanks; decide, by decide, by decide, by decide⟩ l2
  have l0 : Line up dc .operand 5 (ascs " A\n return 1\n break\nend") _ :=
    .name (pl := .operand) (p := 5) (blanks := ascs " ") (cps := [65]) (cp := 65) (mark := []) (rest := ascs "\n return 1\n break\nend") s1 ⟨by unfold NameChar; decide, 65, rfl, by decide⟩ rfl (by decide)
      (ends_at (by unfold NameByte; decide)) (by unfold Colon; decide) (.inr (by decide)) (by rw [ha]; exact l1)
  have l : Line up dc .operand 0 (ascs "class A\n return 1\n break\nend") _ :=
    .jump (p := 0) (blanks := []) (cps := [99, 108, 97, 115, 115]) (mark := []) (word := "class") (t := .kCLASS) (rest := ascs " A\n return 1\n break\nend") s0
      ⟨by unfold NameChar; decide, 99, rfl, by decide⟩ (ends_at (by unfold NameByte; decide)) (by decide) (by unfold Colon; decide) (.start (m := .kCLASS) (st := EXPR_CLASS) (by decide) (.inr rfl))
      ⟨ascs " ", asc 'A', ascs "\n return 1\n break\nend", rfl, s1, by unfold Blanks; decide, by decide, by decide, by decide⟩ l0
  rw [ha] at l
  exact l

example : ∃ s' ts, tokenizeUntilEof asciiExt 10 line5 = .ok (ts, s') ∧ ts.length = 9 ∧ ∀ d ∈ s'.diagnostics, d.level = .warning := by
  have ha : Admissible "(eval)" (ascs "class A\n return 1\n break\nend") none line5 := ⟨startOf_new _ _, by decide, by simp⟩
  obtain ⟨s', h1, h2⟩ := C62_source_partial (x := asciiExt) ha (by decide) (by
    rw [show collapse (ascs "class A\n return 1\n break\nend") = ascs "class A\n return 1\n break\nend" by decide +kernel]
    exact line5_line _ (by decide) _) (fun _ => by decide) 10 (by decide)
  exact ⟨s', _, h1, rfl, h2⟩

def line6 : Lexer := startOf (ascs "a b: 1,\n c: 2") (by decide +kernel)

/-- Labels after a command and after a comma, on the next line. -/
theorem line6_line (up : Nat → Bool) (dc : List Nat → Bool) (ha : up 97 = false) (hd : dc [97] = false) : Line up dc .operand 0 (ascs "a b: 1,\n c: 2") [
    ⟨.tIDENTIFIER, ascs "a", ⟨0, 1⟩⟩, ⟨.tLABEL, ascs "b", ⟨2, 4⟩⟩, ⟨.tINTEGER, ascs "1", ⟨5, 6⟩⟩, ⟨.tCOMMA, ascs ",", ⟨6, 7⟩⟩, ⟨.tLABEL, ascs "c", ⟨9, 11⟩⟩,
    ⟨.tINTEGER, ascs "2", ⟨12, 13⟩⟩] := by
  have s1 := blanks_spaces 1
  have s0 : Blanks [] := fun _ hc => by cases hc
  have l3 : Line up dc .operand 11 (ascs " 2") _ :=
    .number (p := 11) (blanks := ascs " ") (w := ascs "2") (rest := []) s1 (digit_literal (by unfold NumberSpec.Dec; decide) (by decide)) (fun c hc => by cases hc) (.done s0)
  have l2 : Line up dc .operator 6 (ascs ",\n c: 2") _ :=
    .element (pl := .operator) (p := 6) (blanks := []) (c := asc ',') (t := .tCOMMA) (gap := ascs "\n ") (cps := [99]) (mark := []) (rest := ascs " 2") s0 (.inl rfl) (.inl ⟨rfl, rfl⟩)
      (.line (b := []) (com := []) (g := ascs " ") s0 (.inl rfl) (.blanks s1)) ⟨by unfold NameChar; decide, 99, rfl, by decide⟩ (by decide) (ends_at (by unfold NameByte; decide)) (by decide)
      ⟨ascs " ", asc '2', [], rfl, s1, .inl (by unfold NameByte; decide)⟩ l3
  have l1 : Line up dc .operand 4 (ascs " 1,\n c: 2") _ :=
    .number (p := 4) (blanks := ascs " ") (w := ascs "1") (rest := ascs ",\n c: 2") s1 (digit_literal (by unfold NumberSpec.Dec; decide) (by decide))
      (fun c hc => by obtain rfl : asc ',' = c := by simpa [ascs] using hc
                      exact ⟨by unfold NumberSpec.Stops; decide, fun e => absurd e (by decide)⟩) l2
  have l0 : Line up dc .argument 1 (ascs " b: 1,\n c: 2") _ :=
    .label (p := 1) (blanks := ascs " ") (cps := [98]) (mark := []) (rest := ascs " 1,\n c: 2") s1 ⟨by unfold NameChar; decide, 98, rfl, by decide⟩ (by decide)
      (ends_at (by unfold NameByte; decide)) (by decide) ⟨ascs " ", asc '1', ascs ",\n c: 2", rfl, s1, .inl (by unfold NameByte; decide)⟩ l1
  have l : Line up dc .operand 0 (ascs "a b: 1,\n c: 2") _ :=
    .name (pl := .operand) (p := 0) (blanks := []) (cps := [97]) (cp := 97) (mark := []) (rest := ascs " b: 1,\n c: 2") s0 ⟨by unfold NameChar; decide, 97, rfl, by decide⟩ rfl (by decide)
      (ends_at (by unfold NameByte; decide)) (by unfold Colon; decide) (.inr (by decide)) (by rw [ha, hd]; exact l0)
  rw [ha] at l
  exact l

example : ∃ s' ts, tokenizeUntilEof asciiExt 10 line6 = .ok (ts, s') ∧ ts.length = 6 ∧ ∀ d ∈ s'.diagnostics, d.level = .warning := by
  have ha : Admissible "(eval)" (ascs "a b: 1,\n c: 2") none line6 := ⟨startOf_new _ _, by decide, by simp⟩
  obtain ⟨s', h1, h2⟩ := C62_source_partial (x := asciiExt) ha (by decide) (by
    rw [show collapse (ascs "a b: 1,\n c: 2") = ascs "a b: 1,\n c: 2" by decide +kernel]
    exact line6_line _ _ (by decide) (by decide)) (fun _ => by decide) 10 (by decide)
  exact ⟨s', _, h1, rfl, h2⟩

def line7 : Lexer := startOf (ascs "next if 1") (by decide +kernel)

/-- A modifier directly after `next`. -/
theorem line7_line (up : Nat → Bool) (dc : List Nat → Bool) : Line up dc .operand 0 (ascs "next if 1") [
    ⟨.kNEXT, ascs "next", ⟨0, 4⟩⟩, ⟨.kIF_MOD, ascs "if", ⟨5, 7⟩⟩, ⟨.tINTEGER, ascs "1", ⟨8, 9⟩⟩] := by
  have s1 := blanks_spaces 1
  have s0 : Blanks [] := fun _ hc => by cases hc
  have l1 : Line up dc .operand 7 (ascs " 1") _ :=
    .number (p := 7) (blanks := ascs " ") (w := ascs "1") (rest := []) s1 (digit_literal (by unfold NumberSpec.Dec; decide) (by decide)) (fun c hc => by cases hc) (.done s0)
  exact .jumpIf (p := 0) (blanks := []) (cps := [110, 101, 120, 116]) (word := "next") (t := .kNEXT) (sep := ascs " ") (cps2 := [105, 102]) (mark := []) (word2 := "if") (t2 := .kIF)
    (m := .kIF_MOD) (st := EXPR_VALUE) (rest := ascs " 1") s0 ⟨by unfold NameChar; decide, 110, rfl, by decide⟩ (by decide) (.start (m := .kNEXT) (st := EXPR_MID) (by decide) (.inl rfl))
    (by decide) s1 (by decide) ⟨by unfold NameChar; decide, 105, rfl, by decide⟩ (ends_at (by unfold NameByte; decide)) (by decide) (by unfold Colon; decide) (by decide) (by decide) l1

example : ∃ s' ts, tokenizeUntilEof asciiExt 10 line7 = .ok (ts, s') ∧ ts.length = 3 ∧ ∀ d ∈ s'.diagnostics, d.level = .warning := by
  have ha : Admissible "(eval)" (ascs "next if 1") none line7 := ⟨startOf_new _ _, by decide, by simp⟩
  obtain ⟨s', h1, h2⟩ := C62_source_partial (x := asciiExt) ha (by decide) (by
    rw [show collapse (ascs "next if 1") = ascs "next if 1" by decide +kernel]
    exact line7_line _ _) (fun _ => by decide) 10 (by decide)
  exact ⟨s', _, h1, rfl, h2⟩

/-! ### A disagreement -/

def trailing : Lexer := startOf (ascs "1\n  ") (by decide +kernel)

/-- Why a line end followed by nothing but blanks is not a `newline` of the specification: the token of the line end is then reported where the last blank
is, not where the line end is. -/
theorem C62_trailing_blanks : ∃ s', tokenizeUntilEof asciiExt 5 trailing = .ok ([⟨.tINTEGER, ascs "1", ⟨0, 1⟩⟩, ⟨.tNL, [10], ⟨3, 4⟩⟩], s') := by
  have : (match tokenizeUntilEof asciiExt 5 trailing with
    | .ok (ts, _) => decide (ts = [⟨.tINTEGER, ascs "1", ⟨0, 1⟩⟩, ⟨.tNL, [10], ⟨3, 4⟩⟩])
    | _ => false) = true := by decide +kernel
  split at this
  · rename_i ts s e; exact ⟨s, by rw [e, of_decide_eq_true this]⟩
  · cases this

def trailingComment : Lexer := startOf (ascs "1 # c") (by decide +kernel)

/-- Why a comment that the source ends with is not in the specification: the source has no line end, yet a token of a line end is read, where the last
character of the comment is. -/
theorem C62_trailing_comment : 10 ∉ ascs "1 # c" ∧
    ∃ s', tokenizeUntilEof asciiExt 5 trailingComment = .ok ([⟨.tINTEGER, ascs "1", ⟨0, 1⟩⟩, ⟨.tNL, [10], ⟨4, 5⟩⟩], s') := by
  refine ⟨by decide, ?_⟩
  have : (match tokenizeUntilEof asciiExt 5 trailingComment with
    | .ok (ts, _) => decide (ts = [⟨.tINTEGER, ascs "1", ⟨0, 1⟩⟩, ⟨.tNL, [10], ⟨4, 5⟩⟩])
    | _ => false) = true := by decide +kernel
  split at this
  · rename_i ts s e; exact ⟨s, by rw [e, of_decide_eq_true this]⟩
  · cases this

end Verif.Props
