import Verif.Lemmas.LexNumber
import Verif.Lemmas.LexNumeric
import Verif.Lemmas.LexKeeps
import Verif.Lemmas.LexStop
import Verif.Model.Lexer.Main
/-! What `yylex` returns where a numeric literal stands. -/
namespace Verif.Lexer
open NumberSpec

theorem Wp.and {α : Type} {x : LexM α} {P Q : α → Lexer → Prop} {s : Lexer} (h1 : Wp x P s) (h2 : Wp x Q s) :
    Wp x (fun a s' => P a s' ∧ Q a s') s := by
  obtain ⟨a, s', e, h⟩ := h1
  obtain ⟨a', s'', e', h'⟩ := h2
  rw [e] at e'; cases e'
  exact ⟨a, s', e, h, h'⟩

/-- The lexer may read a token outside strings on the current line. -/
structure Ready (s : Lexer) : Prop where
  good : Good s.buffer
  noeof : s.buffer.eofp = false
  nonl : s.buffer.nextline = 0
  st : s.strterm = none
  ls : s.lvalStart = none
  le : s.lvalEnd = none

/-- The next bytes on the current line are `l`. -/
structure Here (b : Buffer) (l : Bytes) : Prop where
  text : ∀ i, (h : i < l.length) → b.d.bytes[b.pcur + i]? = some l[i]
  le : b.pcur + l.length ≤ b.pend

/-- A blank within a line. -/
def Blank (c : UInt8) : Prop := c = asc ' ' ∨ c = 9 ∨ c = 12 ∨ c = 11

/-- The buffer after reading a byte within a line. -/
def adv1 (b : Buffer) : Buffer := { b with pcur := b.pcur + 1 }

theorem Here.head {b : Buffer} {c : UInt8} {l : Bytes} (h : Here b (c :: l)) : b.d.bytes[b.pcur]? = some c ∧ b.pcur < b.pend := by
  have h0 := h.text 0 (by simp)
  have := h.le
  simp only [List.getElem_cons_zero, Nat.add_zero, List.length_cons] at h0 this
  exact ⟨h0, by omega⟩

theorem Here.tail {b : Buffer} {c : UInt8} {l : Bytes} (h : Here b (c :: l)) : Here (adv1 b) l := by
  refine ⟨fun i hi => ?_, ?_⟩
  · have := h.text (i + 1) (by simpa using hi)
    simp only [List.getElem_cons_succ] at this
    simp only [adv1, Buffer.d] at this ⊢
    rw [show b.pcur + 1 + i = b.pcur + (i + 1) by omega]; exact this
  · have := h.le
    simp only [List.length_cons] at this
    simp only [adv1]; omega

theorem good_adv1 {b : Buffer} (h : Good b) {c : UInt8} {l : Bytes} (hh : Here b (c :: l)) (hc : c ≠ 13) : Good (adv1 b) := by
  obtain ⟨h1, h2⟩ := hh.head
  refine ⟨h.tab, h.lc, h.ll, h.nl, h.nl2, h.stop, h.start, ?_, ?_, ?_⟩
  · have := h.lo; simp only [Lexer.adv1]; omega
  · simp only [Lexer.adv1]; omega
  · intro _ _ _
    simp only [Lexer.adv1, Buffer.d, Nat.add_sub_cancel] at h1 ⊢
    rw [h1]; simpa using hc

/-- The state after the start of the token was noted and a byte was read. -/
def flush1 (s : Lexer) : Lexer := { s with buffer := adv1 { s.buffer with ptok := s.buffer.pcur } }

theorem Ready.flush1 {s : Lexer} (h : Ready s) {c : UInt8} {l : Bytes} (hh : Here s.buffer (c :: l)) (hc : c ≠ 13) : Ready (flush1 s) := by
  have g := good_adv1 h.good hh hc
  exact ⟨⟨g.tab, g.lc, g.ll, g.nl, g.nl2, g.stop, g.start, g.lo, g.hi, g.ns⟩, h.noeof, h.nonl, h.st, h.ls, h.le⟩

theorem Here.flush1 {s : Lexer} {c : UInt8} {l : Bytes} (hh : Here s.buffer (c :: l)) : Here (flush1 s).buffer l :=
  ⟨hh.tail.text, hh.tail.le⟩

/-- Reading a byte in the main loop. -/
theorem yylexLoop_step {x : Ext} {cmd ts sp : Bool} {n : Nat} {s : Lexer} (h : Ready s) {c : UInt8} {l : Bytes} (hh : Here s.buffer (c :: l))
    (hc : c ≠ 13) {Q : Tok → Lexer → Prop}
    (hq : Wp (do match ← dispatch x c sp s.lexState cmd ts with
      | .tok t => return t
      | .retry spaceSeen => yylexLoop x cmd ts n spaceSeen
      | .ident => parseIdent x (some c) cmd) Q (flush1 s)) : Wp (yylexLoop x cmd ts (n + 1) sp) Q s := by
  obtain ⟨h1, h2⟩ := hh.head
  unfold yylexLoop
  refine Wp.bind (Wp.getS (Wp.bind ⟨_, _, rfl, Wp.bind (Wp.nextc_eq (c := some c) (b1 := adv1 { s.buffer with ptok := s.buffer.pcur }) ?_ ?_)⟩))
  · exact nextc_byte h.nonl h.noeof h2 h1 hc
  · exact hq

theorem yylexLoop_blank {x : Ext} {cmd ts sp : Bool} {n : Nat} {s : Lexer} (h : Ready s) {c : UInt8} {l : Bytes} (hh : Here s.buffer (c :: l))
    (hc : Blank c) {Q : Tok → Lexer → Prop} (hq : Wp (yylexLoop x cmd ts n true) Q (flush1 s)) : Wp (yylexLoop x cmd ts (n + 1) sp) Q s := by
  refine yylexLoop_step h hh (by rcases hc with rfl | rfl | rfl | rfl <;> decide) (Wp.bind ?_)
  unfold dispatch
  refine Wp.ite (fun e => absurd e (by rcases hc with rfl | rfl | rfl | rfl <;> decide)) fun _ => ?_
  refine Wp.ite (fun e => absurd e (by rcases hc with rfl | rfl | rfl | rfl <;> decide)) fun _ => ?_
  exact Wp.ite (fun _ => Wp.pure hq) fun e => absurd hc e

theorem yylexLoop_digit {x : Ext} {cmd ts sp : Bool} {n : Nat} {s : Lexer} (h : Ready s) {c : UInt8} {l : Bytes} (hh : Here s.buffer (c :: l))
    (hc : Dec c) {Q : Tok → Lexer → Prop} (hq : Wp (parseNumeric c) Q (flush1 s)) : Wp (yylexLoop x cmd ts (n + 1) sp) Q s := by
  have key := byte_forall (p := fun c => Dec c → c ≠ 13 ∧ ¬ (c = 0 ∨ c = 4 ∨ c = 0x1a) ∧ ¬ (c = asc ' ' ∨ c = 9 ∨ c = 12 ∨ c = 11) ∧
    (∀ d ∈ ascs "#*!=<>\"`'?&|+-.", c ≠ d) ∧ c ≠ 10 ∧ MB.u8Digit c = true) (by decide +kernel) c hc
  obtain ⟨k1, k2, k3, k4, k5, k6⟩ := key
  refine yylexLoop_step h hh k1 (Wp.bind ?_)
  unfold dispatch
  iterate 19 refine Wp.ite (fun e => absurd e (by first | exact k2 | exact k1 | exact k3 | exact k5 | exact k4 _ (by decide))) fun _ => ?_
  refine Wp.ite (fun _ => Wp.bind (hq.mono fun t s' h => Wp.pure ?_)) fun e => absurd k6 e
  exact Wp.pure h

/-- Where a literal may end. -/
def Ends (b : Buffer) (q : Nat) : Prop :=
  q = b.pend ∨ (q < b.pend ∧ ∃ c, b.d.bytes[q]? = some c ∧ Stops c ∧
    (c = asc '.' → q + 1 < b.pend ∧ ∃ x, b.d.bytes[q + 1]? = some x ∧ ¬ Dec x ∧ x ≠ 13))

theorem tail_ne {D : UInt8 → Prop} (hD : ∀ c, D c → c ≠ 10 ∧ c ≠ 13) {w : Bytes} (h : Tail D w) : ∀ c ∈ w, c ≠ 10 ∧ c ≠ 13 := by
  induction h with
  | nil => simp
  | digit hd _ ih => intro c hc; rcases List.mem_cons.1 hc with rfl | hc; exacts [hD _ hd, ih c hc]
  | sep hd _ ih =>
    intro c hc
    rcases List.mem_cons.1 hc with rfl | hc
    · exact ⟨by decide, by decide⟩
    · rcases List.mem_cons.1 hc with rfl | hc; exacts [hD _ hd, ih c hc]

theorem digits_ne {D : UInt8 → Prop} (hD : ∀ c, D c → c ≠ 10 ∧ c ≠ 13) {w : Bytes} (h : Digits D w) : ∀ c ∈ w, c ≠ 10 ∧ c ≠ 13 := by
  cases h with
  | mk hd hw => intro c hc; rcases List.mem_cons.1 hc with rfl | hc; exacts [hD _ hd, tail_ne hD hw c hc]

theorem dec_ne : ∀ c, Dec c → c ≠ 10 ∧ c ≠ 13 := byte_forall (by decide +kernel)
theorem hex_ne : ∀ c, Hex c → c ≠ 10 ∧ c ≠ 13 := byte_forall (by decide +kernel)
theorem oct_ne : ∀ c, Oct c → c ≠ 10 ∧ c ≠ 13 := byte_forall (by decide +kernel)
theorem bin_ne : ∀ c, Bin c → c ≠ 10 ∧ c ≠ 13 := byte_forall (by decide +kernel)

theorem literal_ne {k : Kind} {w : Bytes} (h : Literal k w) : ∀ c ∈ w, c ≠ 10 ∧ c ≠ 13 := by
  have whole {w : Bytes} (h : Whole w) : ∀ c ∈ w, c ≠ 10 ∧ c ≠ 13 := by
    cases h with
    | zero => decide
    | nonzero hd _ hw => intro c hc; rcases List.mem_cons.1 hc with rfl | hc; exacts [dec_ne _ hd, tail_ne dec_ne hw c hc]
  have suffix {r i : Bool} {w : Bytes} (h : Suffix r i w) : ∀ c ∈ w, c ≠ 10 ∧ c ≠ 13 := by cases h <;> decide
  have sign {w : Bytes} (h : Sign w) : ∀ c ∈ w, c ≠ 10 ∧ c ≠ 13 := by rcases h with rfl | rfl | rfl <;> decide
  have letter {c : UInt8} (h : ExpLetter c) : c ≠ 10 ∧ c ≠ 13 := by rcases h with rfl | rfl <;> decide
  have fraction {e : Bool} {w : Bytes} (h : Fraction e w) : ∀ c ∈ w, c ≠ 10 ∧ c ≠ 13 := by
    intro c hc
    cases h with
    | point h1 => rcases List.mem_cons.1 hc with rfl | hc; exacts [by decide, digits_ne dec_ne h1 c hc]
    | exp h1 h2 h3 =>
      rcases List.mem_cons.1 hc with rfl | hc
      · exact letter h1
      · rcases List.mem_append.1 hc with hc | hc; exacts [sign h2 c hc, digits_ne dec_ne h3 c hc]
    | pointExp h0 h1 h2 h3 =>
      rcases List.mem_cons.1 hc with rfl | hc
      · decide
      · rcases List.mem_append.1 hc with hc | hc
        · exact digits_ne dec_ne h0 c hc
        · rcases List.mem_cons.1 hc with rfl | hc
          · exact letter h1
          · rcases List.mem_append.1 hc with hc | hc; exacts [sign h2 c hc, digits_ne dec_ne h3 c hc]
  have based {w : Bytes} (h : Based w) : ∀ c ∈ w, c ≠ 10 ∧ c ≠ 13 := by
    intro c hc
    have two {p : UInt8} {v : Bytes} (hp : p ≠ 10 ∧ p ≠ 13) (hv : ∀ c ∈ v, c ≠ 10 ∧ c ≠ 13) (hc : c ∈ asc '0' :: p :: v) : c ≠ 10 ∧ c ≠ 13 := by
      rcases List.mem_cons.1 hc with rfl | hc
      · decide
      · rcases List.mem_cons.1 hc with rfl | hc; exacts [hp, hv c hc]
    cases h with
    | hex hp hv => exact two (by rcases hp with rfl | rfl <;> decide) (digits_ne hex_ne hv) hc
    | bin hp hv => exact two (by rcases hp with rfl | rfl <;> decide) (digits_ne bin_ne hv) hc
    | dec hp hv => exact two (by rcases hp with rfl | rfl <;> decide) (digits_ne dec_ne hv) hc
    | oct hp hv => exact two (by rcases hp with rfl | rfl <;> decide) (digits_ne oct_ne hv) hc
    | zero _ hv => rcases List.mem_cons.1 hc with rfl | hc; exacts [by decide, tail_ne oct_ne hv c hc]
  intro c hc
  cases h with
  | decimal h =>
    cases h with
    | integer h1 h2 => rcases List.mem_append.1 hc with hc | hc; exacts [whole h1 c hc, suffix h2 c hc]
    | float h1 h2 h3 =>
      rcases List.mem_append.1 hc with hc | hc
      · exact whole h1 c hc
      · rcases List.mem_append.1 hc with hc | hc; exacts [fraction h2 c hc, suffix h3 c hc]
  | based h1 h2 => rcases List.mem_append.1 hc with hc | hc; exacts [based h1 c hc, suffix h2 c hc]

theorem literal_cons {k : Kind} {w : Bytes} (h : Literal k w) : ∃ c v, w = c :: v ∧ Dec c := by
  have z : Dec (asc '0') := by unfold Dec; decide
  have whole {w : Bytes} (h : Whole w) : ∃ c v, w = c :: v ∧ Dec c := by
    cases h with
    | zero => exact ⟨_, _, rfl, z⟩
    | nonzero hd => exact ⟨_, _, rfl, hd⟩
  cases h with
  | decimal h =>
    cases h with
    | integer h1 => obtain ⟨c, v, rfl, hc⟩ := whole h1; exact ⟨_, _, rfl, hc⟩
    | float h1 => obtain ⟨c, v, rfl, hc⟩ := whole h1; exact ⟨_, _, rfl, hc⟩
  | based h1 => cases h1 <;> exact ⟨_, _, rfl, z⟩

theorem Here.ahead {s : Lexer} (hr : Ready s) {l pre : Bytes} (h : Here s.buffer l) (hp : pre ++ l ≠ []) (hpre : pre.length ≤ s.buffer.pcur)
    (hbeg : s.buffer.pbeg + pre.length ≤ s.buffer.pcur)
    (htext : ∀ i, (h : i < pre.length) → s.buffer.d.bytes[s.buffer.pcur - pre.length + i]? = some pre[i])
    (hne : ∀ c ∈ pre ++ l, c ≠ 10 ∧ c ≠ 13)
    (hend : Ends s.buffer (s.buffer.pcur + l.length)) : NumAhead s.buffer l := by
  refine ⟨hr.nonl, hr.good.pend_le, h.text, h.le, fun e => ?_, ?_, ?_, hend⟩
  · rw [hr.noeof] at e; cases e
  · have : 0 < (pre ++ l).length := List.length_pos_iff.2 hp
    simp only [List.length_append] at this
    omega
  · rcases List.eq_nil_or_concat l with rfl | ⟨l', c, rfl⟩
    · simp only [List.append_nil] at hp hne
      rcases List.eq_nil_or_concat pre with rfl | ⟨p', c, rfl⟩
      · exact absurd rfl hp
      · refine ⟨c, ?_, hne c (by simp)⟩
        have := htext p'.length (by simp)
        simp only [List.length_concat] at hpre
        rw [show (p'.concat c)[p'.length]'(by simp) = c by simp] at this
        rw [← this]; congr 1; simp only [List.length_nil, List.length_concat]; omega
    · refine ⟨c, ?_, hne c (by simp)⟩
      have := h.text l'.length (by simp)
      rw [show (l'.concat c)[l'.length]'(by simp) = c by simp] at this
      rw [← this]; congr 1; simp only [List.length_concat]; omega

theorem yylexLoop_number {x : Ext} {cmd ts : Bool} {k : Kind} {w : Bytes} (hw : Literal k w) : ∀ (blanks : Bytes), (∀ c ∈ blanks, Blank c) →
    ∀ {n : Nat} {sp : Bool} {s : Lexer}, blanks.length < n → Ready s → Here s.buffer (blanks ++ w) →
    Ends s.buffer (s.buffer.pcur + blanks.length + w.length) →
    Wp (yylexLoop x cmd ts n sp) (fun t s' => Done w k (s.buffer.pcur + blanks.length + w.length) s.diagnostics t s' ∧
      s'.buffer.ptok = s.buffer.pcur + blanks.length ∧ s'.lvalStart = none ∧ s'.lvalEnd = none ∧ s'.strterm = none ∧ s'.buffer.input = s.buffer.input) s := by
  intro blanks
  induction blanks with
  | nil =>
    intro _ n sp s hn hr hh he
    obtain ⟨n, rfl⟩ : ∃ m, n = m + 1 := ⟨n - 1, by simp at hn; omega⟩
    obtain ⟨c, v, rfl, hc⟩ := literal_cons hw
    have hc13 := (dec_ne c hc)
    have hr1 := hr.flush1 hh hc13.2
    have hh1 := hh.flush1
    simp only [List.nil_append, List.length_nil, Nat.add_zero] at *
    refine yylexLoop_digit hr hh hc ?_
    have hm : Mid (flush1 s).buffer := by
      refine { hr1.good with lt := ?_, nolf := ?_, nonl := hr1.nonl }
      · have := hr.good.lo; simp only [flush1, adv1]; omega
      · have := hh.head.1
        simp only [flush1, adv1, Buffer.d, Nat.add_sub_cancel] at this ⊢
        rw [this]; simpa using hc13.1
    have hdig : MB.u8Digit c = true := byte_forall (p := fun c => Dec c → MB.u8Digit c = true) (by decide +kernel) c hc
    have ha : NumAhead (flush1 s).buffer v := by
      refine hh1.ahead (s := flush1 s) hr1 (pre := [c]) (by simp) ?_ ?_ ?_ (literal_ne hw) ?_
      · simp [flush1, adv1]
      · have := hr.good.lo; simp only [flush1, adv1, List.length_cons, List.length_nil]; omega
      · intro i hi
        obtain rfl : i = 0 := by simpa using hi
        simpa [flush1, adv1, Buffer.d] using hh.head.1
      · have e : (flush1 s).buffer.pcur + v.length = s.buffer.pcur + (c :: v).length := by
          simp only [flush1, adv1, List.length_cons]; omega
        rw [e]; exact he
    have k1 := parseNumeric_unsigned hw ha
    have k2 := parseNumeric_wp hm (.inl hdig)
    obtain ⟨t, s', e, hd, hl, -⟩ := k1.and k2
    have hk := Keeps.parseNumeric _ _ _ hr1.nonl e
    have hpt := hk.ptok hd.quiet hl.1.same.lineCount
    refine ⟨t, s', e, ⟨hd.tok, hd.val, ?_, hd.quiet, hd.eof⟩, hpt, hl.2.2.1.trans hr.ls, hl.2.2.2.1.trans hr.le, hl.2.1.trans hr.st, hl.1.same.input⟩
    rw [hd.pos]; simp only [flush1, adv1, List.length_cons]; omega
  | cons c blanks ih =>
    intro hb n sp s hn hr hh he
    obtain ⟨n, rfl⟩ : ∃ m, n = m + 1 := ⟨n - 1, by simp at hn; omega⟩
    have hc := hb c (by simp)
    have hc13 : c ≠ 13 := by rcases hc with rfl | rfl | rfl | rfl <;> decide
    have hp : (flush1 s).buffer.pcur + blanks.length = s.buffer.pcur + (c :: blanks).length := by
      simp only [flush1, adv1, List.length_cons]; omega
    refine yylexLoop_blank hr hh hc ?_
    have := ih (fun c h => hb c (by simp [h])) (n := n) (sp := true) (s := flush1 s) (by simpa using hn) (hr.flush1 hh hc13) hh.flush1
      (by rw [hp]; exact he)
    rw [hp] at this
    exact this

/-- The token that `yylex` returns where a literal stands. -/
theorem yylex_number {x : Ext} {k : Kind} {w blanks : Bytes} (hw : Literal k w) (hb : ∀ c ∈ blanks, Blank c) {s : Lexer} (hr : Ready s)
    (hh : Here s.buffer (blanks ++ w)) (he : Ends s.buffer (s.buffer.pcur + blanks.length + w.length)) :
    Wp (yylex x) (fun t s' => t = ⟨tokOf k, w, ⟨s.buffer.pcur + blanks.length, s.buffer.pcur + blanks.length + w.length⟩⟩ ∧
      s'.buffer.pcur = s.buffer.pcur + blanks.length + w.length ∧ s'.diagnostics = s.diagnostics ∧ s'.strterm = none ∧
      s'.buffer.input = s.buffer.input) s := by
  unfold yylex
  refine Wp.bind ⟨_, _, rfl, Wp.bind ?_⟩
  unfold parserYylex
  refine Wp.bind (Wp.getS ?_)
  simp only [hr.st]
  refine Wp.bind (Wp.getS (Wp.bind (Wp.getS (Wp.bind ⟨_, _, rfl, Wp.bind (Wp.getS ?_)⟩))))
  have hf : blanks.length < 64 * (s.buffer.input.decoded.bytes.length + 1) := by
    have h1 := hh.le
    have h2 := hr.good.pend_le
    simp only [Buffer.d, List.length_append] at h1 h2
    omega
  refine (yylexLoop_number (s := { s with lval := none, strterm := none, commandStart := false, tokenSeen := true }) hw blanks hb hf
    ⟨hr.good, hr.noeof, hr.nonl, rfl, hr.ls, hr.le⟩ ⟨hh.text, hh.le⟩ he).mono ?_
  rintro t s' ⟨hd, h1, h2, h3, h4, h5⟩
  refine Wp.bind (Wp.getS (Wp.bind (Wp.getS (Wp.bind ⟨_, _, rfl, Wp.bind (Wp.getS ?_)⟩))))
  simp only [hd.val]
  refine Wp.bind (Wp.pure (Wp.bind ⟨_, _, rfl, ?_⟩))
  have ht : t ≠ .tNL := by rw [hd.tok]; cases k <;> decide
  refine Wp.ite (fun e => absurd e ht) fun _ => Wp.pure ⟨?_, hd.pos, hd.quiet, h4, h5⟩
  simp only [h2, h3, Option.getD_none, h1, hd.pos, hd.tok]

/-- A token at the start of the next line is read as if that line were loaded already. -/
theorem yylex_next_line {x : Ext} {s : Lexer} {b : Buffer} (hst : s.strterm = none) (hp : s.buffer.pcur = s.buffer.pend ∨ s.buffer.nextline ≠ 0)
    (hl : ({ s.buffer with ptok := s.buffer.pcur } : Buffer).nextlineFn = .ok (true, b)) (hL : Loaded { s.buffer with ptok := s.buffer.pcur } b) (hlt : b.pcur < b.pend) :
    yylex x s = yylex x { s with buffer := b } := by
  have key : ∀ {t : Lexer} {cmd ts sp : Bool} {n : Nat}, n ≠ 0 → t.buffer = s.buffer →
      yylexLoop x cmd ts n sp t = yylexLoop x cmd ts n sp { t with buffer := b } := by
    intro t cmd ts sp n hn ht
    obtain ⟨n, rfl⟩ : ∃ m, n = m + 1 := ⟨n - 1, by omega⟩
    have h1 : ({ s.buffer with ptok := s.buffer.pcur } : Buffer).nextc = b.readByte := by
      unfold Buffer.nextc
      rw [if_pos (hp.imp id .inr)]
      rw [hl]
      rfl
    have h2 : ({ b with ptok := b.pcur } : Buffer).nextc = b.readByte := by
      have e : ({ b with ptok := b.pcur } : Buffer) = b := congrArg (fun p => ({ b with ptok := p } : Buffer)) hL.ptok.symm
      rw [e]
      unfold Buffer.nextc
      rw [if_neg (by rw [hL.eofp, hL.nextline]; simp; omega)]
    have h3 : nextc { t with buffer := { s.buffer with ptok := s.buffer.pcur } } = nextc { t with buffer := { b with ptok := b.pcur } } := by
      simp only [nextc, h1, h2]
    unfold yylexLoop
    simp only [tokenFlush, modB, Buffer.tokenFlush, Buffer.setPtok, Bind.bind, StateT.bind, Except.bind, getState, getS, ht, h3]
  unfold yylex parserYylex
  simp only [Bind.bind, StateT.bind, Except.bind, modS, getS, hst, fuel, hL.input]
  rw [key (t := { s with lval := none, strterm := none, commandStart := false, tokenSeen := true }) (by omega) rfl]

/-- The next byte to be read is the one at `p`: on the current line, or at the start of the next line, or at the start of the
line where reading continues after heredoc bodies. -/
def _root_.Verif.Buffer.NextAt (b : Buffer) (p : Nat) : Prop :=
  b.eofp = false ∧
    ((b.nextline = 0 ∧ b.pcur = p ∧ p < b.pend) ∨
     (b.nextline = 0 ∧ b.pcur = b.pend ∧ b.d.bytes[b.pend - 1]? = some 10 ∧ b.lineCount < b.d.lines.length ∧ b.d.lStart b.lineCount = p) ∨
     (b.nextline ≠ 0 ∧ b.d.lStart b.nextline = p))

theorem tabled_nonempty {d : DecodedInput} (h : d.Tabled) {i : Nat} (hi : i < d.lines.length) (hl : d.lStart i < d.bytes.length) : d.lStart i < d.lStop i := by
  by_cases e : i + 1 < d.lines.length
  · exact h.nonempty e
  · have := h.last_stop
    rw [show d.lines.length - 1 = i by omega] at this
    omega

/-- Whatever the next byte is, the line it is on may be thought of as loaded. -/
theorem yylex_at {x : Ext} {s : Lexer} {p : Nat} (hi : Inv s) (hst : s.strterm = none) (hp : s.buffer.NextAt p) (hlen : p < s.buffer.d.bytes.length) :
    ∃ b, yylex x s = yylex x { s with buffer := b } ∧ Ready { s with buffer := b } ∧ b.input = s.buffer.input ∧ b.pcur = p ∧ p < b.pend := by
  obtain ⟨he, ⟨h1, h2, h3⟩ | ⟨h1, h2, h3, h4, h5⟩ | ⟨h1, h2⟩⟩ := hp
  · exact ⟨s.buffer, rfl, ⟨hi.good, he, h1, hst, hi.ls, hi.le⟩, rfl, h2, h3⟩
  all_goals
    have hg : Good { s.buffer with ptok := s.buffer.pcur } :=
      ⟨hi.good.tab, hi.good.lc, hi.good.ll, hi.good.nl, hi.good.nl2, hi.good.stop, hi.good.start, hi.good.lo, hi.good.hi, hi.good.ns⟩
  · rcases nextlineFn_here hg h1 he h2 with ⟨-, h⟩ | ⟨b, hl, hL⟩
    · rcases h with ⟨h6, h7⟩ | h
      · exact absurd h3 h7
      · simp only [Buffer.d] at h h4; omega
    · obtain ⟨f1, f2⟩ := hL.fresh h1
      have hd : b.d = s.buffer.d := by simp only [Buffer.d, hL.input]
      have e1 : b.pcur = p := by rw [hL.bol, hL.start, f1, hd, ← h5]
      have e2 : p < b.pend := by
        rw [hL.good.stop, f1, hd, ← h5]
        exact tabled_nonempty hi.good.tab h4 (by rw [h5]; exact hlen)
      exact ⟨b, yylex_next_line hst (.inl h2) hl hL (by omega), ⟨hL.good, hL.eofp, hL.nextline, hst, hi.ls, hi.le⟩, hL.input, e1, e2⟩
  · obtain ⟨b, e, hL⟩ := loadLine_loaded (b := { s.buffer with ptok := s.buffer.pcur }) (cr := s.buffer.crSeen) (lc := s.buffer.lineCount)
      (v := s.buffer.nextline) hg he (.inl ⟨rfl, h1, rfl⟩)
    have hl : ({ s.buffer with ptok := s.buffer.pcur } : Buffer).nextlineFn = .ok (true, b) := by
      unfold Buffer.nextlineFn
      dsimp only
      rw [if_neg h1]
      simp only [bind, Except.bind, pure, Except.pure]
      dsimp only at e
      rw [e]
    obtain ⟨f1, f2⟩ := hL.held h1
    have hd : b.d = s.buffer.d := by simp only [Buffer.d, hL.input]
    have e1 : b.pcur = p := by rw [hL.bol, hL.start, f1, hd, ← h2]
    have e2 : p < b.pend := by
      rw [hL.good.stop, f1, hd, ← h2]
      exact (hi.good.nl2 h1).2.2
    exact ⟨b, yylex_next_line hst (.inr h1) hl hL (by omega), ⟨hL.good, hL.eofp, hL.nextline, hst, hi.ls, hi.le⟩, hL.input, e1, e2⟩

/-- The text that stands at the next byte is on its line. -/
theorem here_of_slice {b : Buffer} (hg : Good b) {l : Bytes} (hne : ∀ c ∈ l, c ≠ 10) (hlt : b.pcur < b.pend)
    (h : Spec.slice b.d.bytes b.pcur (b.pcur + l.length) = l) : Here b l := by
  have hlen : b.pcur + l.length ≤ b.d.bytes.length := by
    have := congrArg List.length h
    simp only [Spec.slice, List.length_take, List.length_drop] at this
    have := hg.pend_le
    omega
  refine ⟨fun i hi => ?_, ?_⟩
  · rw [slice_get h hi, List.getElem?_eq_getElem hi]
  · refine hg.span hg.lo hlt hlen fun j h1 h2 h3 => ?_
    have := slice_get h (k := j - b.pcur) (by omega)
    rw [show b.pcur + (j - b.pcur) = j by omega, h3] at this
    exact hne 10 (List.mem_of_getElem? this.symm) rfl

end Verif.Lexer
