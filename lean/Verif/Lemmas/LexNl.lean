import Verif.Lemmas.LexRemark
/-! The end of a line as a token. -/
namespace Verif.Lexer
open Verif.Props (collapse Seq collapse_ne)

/-- The text of the lines after a line end does not continue the line before: it is not a comment, and does not start with the call of a method. -/
def StartsNew (text : Bytes) : Prop :=
  ∃ g d tl, text = g ++ d :: tl ∧ (∀ c ∈ g, Blank c) ∧ ¬ Blank d ∧ d ≠ 35 ∧ (d = 46 → tl.head? = some 46) ∧ (d = 38 → tl.head? ≠ some 46)

/-- The buffer after a line end was read as a token, in lookahead of the next line. -/
structure NlBack (b0 b : Buffer) : Prop where
  good : Good b
  input : b.input = b0.input
  eofp : b.eofp = false
  nl : b.nextline = b0.lineCount
  lc : b.lineCount = b0.lineCount + 1
  pcur : b.pcur + 1 = b0.pend
  ptok : b.ptok = b.pcur
  pend : b.pend = b0.pend

theorem newlineLoop_text {s0 : Lexer} {bs : Bytes} (h0 : AtEol s0) (hcr : 13 ∉ bs) (hbs : s0.buffer.d.bytes = bs) {d : UInt8} {tl : Bytes} (hd : ¬ Blank d) (h35 : d ≠ 35)
    (hdot : d = 46 → tl.head? = some 46) (hand : d = 38 → tl.head? ≠ some 46) : ∀ (g : Bytes) n sp b, (∀ c ∈ g, Blank c) → NlAt s0 { s0 with buffer := b } →
    Upcoming bs (g ++ d :: tl) b → g.length < n →
    Wp (newlineLoop n sp) (fun r s' => r = .tok .tNL ∧ ∃ b', NlBack s0.buffer b' ∧ s' = { s0 with buffer := b', commandStart := true, lexState := EXPR_BEG })
      { s0 with buffer := b } := by
  intro g
  induction g with
  | cons c g ih =>
    intro n sp b hb hn hu hlen
    obtain ⟨n, rfl⟩ : ∃ k', n = k' + 1 := ⟨n - 1, by simp only [List.length_cons] at hlen; omega⟩
    unfold newlineLoop
    have hc := hb c (by simp)
    refine Wp.bind (((nlRead_wp (Q := fun c s' => NlRead s0 c s') h0 hn fun _ _ h _ => h).and (Upcoming.nextc (s := { s0 with buffer := b })
      (Q := fun r s' => r = some c ∧ ∃ b', s' = { s0 with buffer := b' } ∧ Upcoming bs (g ++ d :: tl) b') hu fun b' h _ => ⟨rfl, b', rfl, h.at'⟩)).mono ?_)
    rintro r s' ⟨h1, rfl, b', rfl, h2⟩
    refine Wp.ite (fun _ => ?_) fun e => absurd (by rcases hc with rfl | rfl | rfl | rfl <;> decide) e
    refine ih n true b' (fun c hc => hb c (by simp [hc])) ?_ h2 (by simpa using hlen)
    generalize hsb : ({ s0 with buffer := b' } : Lexer) = sb at h1
    cases h1 with
    | next ch b1 s' hf hb' hr hm => exact ⟨hf, .inr ⟨hb'.read hr, hm (by rcases hc with rfl | rfl | rfl | rfl <;> decide)⟩⟩
  | nil =>
    intro n sp b hb hn hu hlen
    obtain ⟨n, rfl⟩ : ∃ k', n = k' + 1 := ⟨n - 1, by simp only [List.length_nil] at hlen; omega⟩
    unfold newlineLoop
    refine Wp.bind (((nlRead_wp (Q := fun c s' => NlRead s0 c s') h0 hn fun _ _ h _ => h).and (Upcoming.nextc (s := { s0 with buffer := b })
      (Q := fun r s' => r = some d ∧ ∃ b', s' = { s0 with buffer := b' } ∧ Took bs d tl b') hu fun b' h _ => ⟨rfl, b', rfl, h⟩)).mono ?_)
    rintro r s' ⟨h1, rfl, b', rfl, h2⟩
    have hon : OnNext s0.buffer b' := by
      generalize hsb : ({ s0 with buffer := b' } : Lexer) = sb at h1
      cases h1 with
      | next ch b1 s' hf hb' hr hm => have := hb'.read hr; rw [← hsb] at this; exact this
    have hd13 : d ≠ 13 := by
      rintro rfl
      exact hcr (List.mem_of_getElem? h2.last)
    have hlt : b'.pbeg < b'.pcur := by
      have h3 := h2.back.seq.good.lo
      have h4 : b'.pbPos < b'.pcur := by unfold Buffer.pbPos; have := h2.pos; split <;> omega
      exact Nat.lt_of_le_of_lt h3 h4
    refine Wp.ite (fun e => ?_) fun _ => ?_
    · exfalso
      simp [isC, asc] at e
      rcases e with (((e | e) | e) | e) | e
      · exact hd (.inl e)
      · exact hd (.inr (.inl e))
      · exact hd (.inr (.inr (.inl e)))
      · exact hd13 e
      · exact hd (.inr (.inr (.inr e)))
    refine Wp.ite (fun e => absurd (by simpa [isC, asc] using e) h35) fun _ => ?_
    have main : Wp (do
            if false = true then
              Lexer.pushback (some d)
              Pure.pure (Next.retry sp)
            else if (some d : MB).isNone then
              newlineLoop.liftBuf (·.eofNoDecrement)
              Pure.pure (Next.tok (← normalNewline))
            else
              let sourceline ← Lexer.liftB fun b => csub b.rubySourceline 1
              Lexer.modB fun b => { b with rubySourceline := sourceline, nextline := b.lastline }
              newlineLoop.liftBuf (·.eofNoDecrement)
              Pure.pure (Next.tok (← normalNewline)))
        (fun r s' => r = .tok .tNL ∧ ∃ b', NlBack s0.buffer b' ∧ s' = { s0 with buffer := b', commandStart := true, lexState := EXPR_BEG })
        { s0 with buffer := b' } := by
      refine Wp.ite (fun e => by cases e) fun _ => ?_
      refine Wp.ite (fun e => by cases e) fun _ => ?_
      refine Wp.bind (Wp.liftB _ (csub_of_le hon.sl) ?_)
      refine Wp.bind (Wp.modB ?_)
      have hdd : b'.d = s0.buffer.d := by simp only [Buffer.d, hon.input]
      have hlast := hon.last
      have hlc := hon.lc
      have hll := h0.good.ll
      have hstop := h0.good.stop
      have hst := h0.good.start_ge
      have hlt0 := h0.lt
      have hne : s0.buffer.d.lStart s0.buffer.lastline < s0.buffer.d.lStop s0.buffer.lastline := by omega
      have hne2 : b'.d.lStart b'.lastline < b'.d.lStop b'.lastline := by
        have h5 := hon.pbeg; have h6 := hon.good.stop; have h7 := hon.good.hi
        omega
      obtain ⟨b2, e2, hk⟩ := eofNoDecrement_ok (b := { b' with rubySourceline := b'.rubySourceline - 1, nextline := b'.lastline }) (l := s0.buffer.lastline)
        hon.good.tab (by have := hon.good.lc; show _ < b'.d.lines.length; omega) (by show b'.d.lStart _ < b'.d.lStop _; rw [hdd]; exact hne) (.inr ⟨hon.noeof, hon.prev⟩)
      refine Wp.bind ⟨(), { s0 with buffer := b2 }, by simp [newlineLoop.liftBuf, e2, Bind.bind, Except.bind, Pure.pure, Except.pure], ?_⟩
      refine Wp.bind ⟨_, _, rfl, Wp.pure ⟨rfl, b2, ?_, rfl⟩⟩
      have hd2 : b2.d = b'.d := by simp only [Buffer.d, hk.input]
      refine ⟨hk.good hon.good.tab hon.good.lc (by show _ < b'.lineCount; omega) (.inr ⟨hon.noeof, by show b'.lastline < b'.lineCount; omega, by show _ < b'.lastline; omega, hne2⟩),
        hk.input.trans hon.input, hk.eofp.trans hon.noeof, hk.nl.trans hlast, hk.lc.trans hlc, ?_, hk.ptok, ?_⟩
      · have h5 : b2.pend = b'.d.lStop s0.buffer.lastline := hk.pend
        rw [hdd] at h5
        rcases hk.back with h6 | ⟨-, h6, -⟩
        · omega
        · exfalso
          rw [hd2, h2.at'.d] at h6
          exact hcr (List.mem_of_getElem? h6)
      · have h5 : b2.pend = b'.d.lStop s0.buffer.lastline := hk.pend
        rw [h5, hdd]; exact hstop.symm
    refine Wp.ite (fun e => ?_) fun _ => main
    refine Wp.bind (Wp.map (Wp.peek h2.at'.seq.good fun r hr => ?_))
    have hd10 : d ≠ 10 := by rintro rfl; simp [isC, asc] at e
    have hin : (r = true ↔ tl.head? = some 46) := by
      have h3 : tl.head? = some 46 ↔ bs[b'.pcur]? = some 46 := by
        rw [← h2.at'.txt, collapse_head (by decide), List.head?_drop]
      rw [hr, h3]
      dsimp only
      rw [h2.at'.d]
      refine ⟨fun h => h.2, fun h => ⟨(Took.inline h2 hd10).lt ?_, h⟩⟩
      rintro rfl
      cases h3.2 h
    have : (r == isC (some d) '&') = false := by
      simp [isC, asc] at e
      rcases e with rfl | rfl
      · have := hand rfl
        cases r with
        | true => exact absurd (hin.1 rfl) this
        | false => rfl
      · have := hin.2 (hdot rfl); subst this; rfl
    rw [this]
    exact main

/-- As `NlBack`, at the end of the source. -/
structure NlLast (b0 b : Buffer) : Prop where
  good : Good b
  input : b.input = b0.input
  nl : b.nextline = 0
  fin : b.eofp = true ∨ (b.eofp = false ∧ b.lineCount = b.d.lines.length)
  pcur : b.pcur + 1 = b0.pend
  ptok : b.ptok = b.pcur
  pend : b.pend = b0.pend

theorem newlineLoop_last {s0 : Lexer} {bs : Bytes} (h0 : AtEol s0) (hcr : 13 ∉ bs) (hbs : s0.buffer.d.bytes = bs) (hend : s0.buffer.pend = bs.length) {n : Nat} {sp : Bool} (hn : 0 < n) :
    Wp (newlineLoop n sp) (fun r s' => r = .tok .tNL ∧ ∃ b', NlLast s0.buffer b' ∧ s' = { s0 with buffer := b', commandStart := true, lexState := EXPR_BEG }) s0 := by
  obtain ⟨n, rfl⟩ : ∃ k', n = k' + 1 := ⟨n - 1, by omega⟩
  unfold newlineLoop
  obtain ⟨c, b', e, hnc⟩ := nextc_good h0.good
  refine Wp.bind ⟨c, { s0 with buffer := b' }, by simp [Lexer.nextc, e, Bind.bind, Except.bind, Pure.pure, Except.pure], ?_⟩
  have hll := h0.good.ll
  have hstop := h0.good.stop
  have hst := h0.good.start_ge
  have hlt0 := h0.lt
  have hlc := h0.good.lc
  have hne : s0.buffer.d.lStart s0.buffer.lastline < s0.buffer.d.lStop s0.buffer.lastline := by omega
  have back : ∀ b2 : Buffer, b2.input = s0.buffer.input → b2.lineCount ≤ b2.d.lines.length → s0.buffer.lastline < b2.lineCount → b2.nextline = 0 →
      (b2.eofp = true ∨ (b2.eofp = false ∧ b2.lineCount = b2.d.lines.length)) →
      ((b2.eofp = true ∧ b2.lastline = s0.buffer.lastline) ∨ (b2.eofp = false ∧ b2.prevline = some s0.buffer.lastline)) →
      Wp (do
        newlineLoop.liftBuf (·.eofNoDecrement)
        Pure.pure (Next.tok (← normalNewline)))
        (fun r s' => r = .tok .tNL ∧ ∃ b', NlLast s0.buffer b' ∧ s' = { s0 with buffer := b', commandStart := true, lexState := EXPR_BEG })
        { s0 with buffer := b2 } := by
    intro b2 hin h1 h2 h3 h4 h5
    have hd : b2.d = s0.buffer.d := by simp only [Buffer.d, hin]
    obtain ⟨b', e2, hk⟩ := eofNoDecrement_ok (b := b2) (l := s0.buffer.lastline) (by rw [hd]; exact h0.good.tab) (by omega) (by rw [hd]; exact hne) h5
    refine Wp.bind ⟨(), { s0 with buffer := b' }, by simp [newlineLoop.liftBuf, e2, Bind.bind, Except.bind, Pure.pure, Except.pure], ?_⟩
    refine Wp.bind ⟨_, _, rfl, Wp.pure ⟨rfl, b', ?_, rfl⟩⟩
    have hd2 : b'.d = b2.d := by simp only [Buffer.d, hk.input]
    have hpe : b'.pend = s0.buffer.pend := by rw [hk.pend, hd]; exact hstop.symm
    refine ⟨hk.good (by rw [hd]; exact h0.good.tab) h1 h2 (.inl h3), hk.input.trans hin, hk.nl.trans h3, ?_, ?_, hk.ptok, hpe⟩
    · rw [hk.eofp, hk.lc, hd2]; exact h4
    · rcases hk.back with h6 | ⟨-, h6, -⟩
      · omega
      · exfalso
        rw [hd2, hd, hbs] at h6
        exact hcr (List.mem_of_getElem? h6)
  have none_ : ∀ b2 : Buffer, c = none → Wp (do
        newlineLoop.liftBuf (·.eofNoDecrement)
        Pure.pure (Next.tok (← normalNewline)))
        (fun r s' => r = .tok .tNL ∧ ∃ b', NlLast s0.buffer b' ∧ s' = { s0 with buffer := b', commandStart := true, lexState := EXPR_BEG })
        { s0 with buffer := b2 } → Wp (do
        if isC c ' ' || c == some 9 || c == some 12 || c == some 13 || c == some 11 then newlineLoop n true
        else if isC c '#' then
          Lexer.pushback c
          return .retry sp
        else
          let leading ← if isC c '&' || isC c '.' then (· == isC c '&') <$> Lexer.peek '.' else Pure.pure false
          if leading then
            Lexer.pushback c
            return .retry sp
          else if c.isNone then
            newlineLoop.liftBuf (·.eofNoDecrement)
            return .tok (← normalNewline)
          else
            let sourceline ← Lexer.liftB fun b => csub b.rubySourceline 1
            Lexer.modB fun b => { b with rubySourceline := sourceline, nextline := b.lastline }
            newlineLoop.liftBuf (·.eofNoDecrement)
            return .tok (← normalNewline))
        (fun r s' => r = .tok .tNL ∧ ∃ b', NlLast s0.buffer b' ∧ s' = { s0 with buffer := b', commandStart := true, lexState := EXPR_BEG })
        { s0 with buffer := b2 } := by
    rintro b2 rfl h
    exact h
  cases hnc with
  | here ch b' h1 hr =>
    have h2 := hr.lt; have h3 := hr.good.hi; have h4 := hr.same.pend; have := h0.eol
    omega
  | load ch b1 b' hl hr =>
    exfalso
    have h2 := hl.after; have h3 := hr.lt; have h4 := hr.good.hi; have h5 := hr.good.pend_le
    have h6 : b'.d = s0.buffer.d := by simp only [Buffer.d, hr.same.input, hl.input]
    rw [h6, hbs] at h5
    omega
  | eof he => rw [h0.noeof] at he; cases he
  | eofNow he hnl hp hx => exact none_ _ rfl (back { s0.buffer with eofp := true } rfl hlc hll h0.nonl (.inl rfl) (.inl ⟨rfl, rfl⟩))
  | eofLoad _ hl hp hx hR =>
    obtain ⟨h1, h2⟩ := hl.fresh h0.nonl
    refine none_ _ rfl (back b' hl.input hl.good.lc (by omega) hl.nextline (.inr ⟨hl.eofp, ?_⟩) (.inr ⟨hl.eofp, hl.prev⟩))
    by_contra hne2
    have h3 := hl.good.lc
    have h4 := hl.good.tab.nonempty (i := b'.lastline) (by omega)
    have := hl.start; have := hl.bol; have := hl.good.stop
    omega

/-- Where the token ends a line. -/
theorem yylex_code_nl {x : Ext} {s : Lexer} {Q : Token → Lexer → Prop} (hs : s.strterm = none)
    (h : Wp (yylexLoop x s.commandStart s.tokenSeen (64 * (s.buffer.d.bytes.length + 1)) false)
      (fun t s2 => t = .tNL ∧ s2.lval = none ∧ tBegin s2 ≤ tEnd s2 ∧ tEnd s2 ≤ s2.buffer.d.bytes.length ∧
        Q ⟨.tNL, [10], ⟨tBegin s2, tBegin s2 + 1⟩⟩ { s2 with lvalStart := none, lvalEnd := none, lval := none })
      { s with lval := none, commandStart := false, tokenSeen := true }) : Wp (yylex x) Q s := by
  unfold yylex
  have h' : Wp (parserYylex x) (fun t s2 => t = .tNL ∧ s2.lval = none ∧ tBegin s2 ≤ tEnd s2 ∧ tEnd s2 ≤ s2.buffer.d.bytes.length ∧
        Q ⟨.tNL, [10], ⟨tBegin s2, tBegin s2 + 1⟩⟩ { s2 with lvalStart := none, lvalEnd := none, lval := none }) { s with lval := none } := by
    unfold parserYylex
    refine Wp.bind (Wp.getS ?_)
    split
    · rename_i e; simp only [hs] at e; cases e
    · rename_i e; simp only [hs] at e; cases e
    · exact Wp.bind (Wp.getS (Wp.bind (Wp.getS (Wp.bind (Wp.modS (Wp.bind (Wp.fuel h)))))))
  refine Wp.bind (Wp.modS (Wp.bind (h'.mono fun t s2 h2 => ?_)))
  obtain ⟨rfl, hlv, h1, h2, hq⟩ := h2
  refine Wp.bind (Wp.getS (Wp.bind (Wp.getS (Wp.bind (Wp.modS (Wp.bind (Wp.getS ?_)))))))
  dsimp only
  rw [hlv]
  refine Wp.bind ?_
  refine ⟨Spec.slice s2.buffer.d.bytes (tBegin s2) (tEnd s2), { s2 with lvalStart := none, lvalEnd := none, lval := none }, ?_,
    Wp.bind (Wp.modS (Wp.ite (fun _ => Wp.pure hq) fun e => absurd rfl e))⟩
  have hb := substrAt_ok (b := s2.buffer) h1 h2
  have hl : (Lexer.liftB fun b => b.substrAt (tBegin s2) (tEnd s2)) { s2 with lvalStart := none, lvalEnd := none, lval := none } =
      .ok (some (Spec.slice s2.buffer.d.bytes (tBegin s2) (tEnd s2)), { s2 with lvalStart := none, lvalEnd := none, lval := none }) := by
    simp [Lexer.liftB, hb, Bind.bind, Except.bind, Pure.pure, Except.pure]
  show (Functor.map (fun o : Option Bytes => o.getD []) (Lexer.liftB fun b => b.substrAt (tBegin s2) (tEnd s2))) _ = _
  simp only [Functor.map, StateT.map, Bind.bind, Except.bind, hlv, hl, Pure.pure, Except.pure, Option.getD_some]

/-- States in which the end of a line is a token. -/
def EndsLine (st : LexState) : Prop := st.isSome (EXPR_BEG ||| EXPR_CLASS ||| EXPR_FNAME ||| EXPR_DOT) = false ∧ st.isSome EXPR_LABELED = false

theorem isAll_false {st a b : Nat} (h : LexState.isSome st b = false) (hb : b ≠ 0) : LexState.isAll st (a ||| b) = false := by
  simp only [LexState.isSome, bne_eq_false_iff_eq] at h
  simp only [LexState.isAll, beq_eq_false_iff_ne, ne_eq]
  intro e
  have h1 : (st &&& (a ||| b)) &&& b = b := by rw [e, Nat.and_or_distrib_right, Nat.and_self]; exact or_and_self' a b
  rw [Nat.and_assoc, show (a ||| b) &&& b = b by rw [Nat.and_or_distrib_right, Nat.and_self]; exact or_and_self' a b, h] at h1
  exact hb h1.symm
where
  or_and_self' (a b : Nat) : (a &&& b) ||| b = b := by
    apply Nat.eq_of_testBit_eq
    intro i
    simp only [Nat.testBit_or, Nat.testBit_and]
    cases a.testBit i <;> cases b.testBit i <;> rfl

theorem lexNewline_ends {ts sp : Bool} {s : Lexer} (h : EndsLine s.lexState) {Q : Next → Lexer → Prop}
    (hq : Wp (newlineLoop (64 * (s.buffer.d.bytes.length + 1)) sp) Q { s with tokenSeen := ts }) : Wp (lexNewline ts sp) Q s := by
  unfold lexNewline
  refine Wp.bind (Wp.modS (Wp.bind (Wp.getS ?_)))
  dsimp only
  rw [h.1, isAll_false h.2 (by decide)]
  refine Wp.ite (fun e => by simp at e) fun _ => ?_
  exact Wp.bind (Wp.fuel hq)

/-- The end of a line is a token, and the lexer goes on with the next line. -/
structure NlToken (x : Ext) (bs rest : Bytes) (p : Nat) (s : Lexer) (r : Token) (s' : Lexer) : Prop where
  tok : r = ⟨.tNL, [10], ⟨p, p + 1⟩⟩
  strterm : s'.strterm = none
  ls : s'.lvalStart = none
  le : s'.lvalEnd = none
  diag : s'.diagnostics = s.diagnostics
  state : s'.lexState = EXPR_BEG
  go : ∃ b, yylex x s' = yylex x { s' with buffer := b } ∧ Upcoming bs rest b ∧ b.pcur = p + 1

theorem NlBack.go {x : Ext} {bs rest : Bytes} {s : Lexer} {b0 : Buffer} (h : NlBack b0 s.buffer) (hs : Seq b0) (hu : Upcoming bs rest b0) (hp : b0.pcur = b0.pend) (hne : rest ≠ [])
    (hst : s.strterm = none) : ∃ b, yylex x s = yylex x { s with buffer := b } ∧ Upcoming bs rest b ∧ b.pcur = b0.pend := by
  have hd : s.buffer.d = b0.d := by simp only [Buffer.d, h.input]
  have hll := hs.good.ll
  have hnz : s.buffer.nextline ≠ 0 := by rw [h.nl]; omega
  have hg : Good { s.buffer with ptok := s.buffer.pcur } :=
    ⟨h.good.tab, h.good.lc, h.good.ll, h.good.nl, h.good.nl2, h.good.stop, h.good.start, h.good.lo, h.good.hi, h.good.ns⟩
  obtain ⟨b, hl, hL⟩ := loadLine_loaded hg h.eofp (lc := s.buffer.lineCount) (v := s.buffer.nextline) (cr := s.buffer.crSeen) (.inl ⟨rfl, hnz, rfl⟩)
  have hfn : ({ s.buffer with ptok := s.buffer.pcur } : Buffer).nextlineFn = .ok (true, b) := by
    unfold Buffer.nextlineFn
    dsimp only
    rw [if_neg hnz]
    have hl' : ({ s.buffer with ptok := s.buffer.pcur, nextline := 0 } : Buffer).loadLine s.buffer.nextline = .ok b := hl
    rw [hl']; rfl
  obtain ⟨h1, h2⟩ := hL.held hnz
  have hdb : b.d = b0.d := by simp only [Buffer.d, hL.input, h.input]
  have h1' : b.lastline = b0.lineCount := h1.trans h.nl
  have h2' : b.lineCount = b0.lineCount + 1 := h2.trans h.lc
  have hpc : b.pcur = b0.pend := by
    have h3 := hL.good.llen
    have h4 := hL.good.tab.next (i := b0.lastline) (by have := hs.lc; omega)
    rw [hL.bol, hL.start, h1', hs.lc, h4, hdb, hs.good.stop]
  have hlen : b0.pend < bs.length := by
    by_contra hx
    have h3 := hu.txt
    rw [hp, List.drop_eq_nil_iff.2 (by omega)] at h3
    exact hne (by rw [← h3]; simp [collapse])
  have hlt : b.pcur < b.pend := by
    have h3 := tabled_nonempty hL.good.tab hL.good.llen (by rw [← hL.start, ← hL.bol, hpc, hdb, hu.d]; exact hlen)
    rw [← hL.start, ← hL.good.stop, ← hL.bol] at h3
    exact h3
  exact ⟨b, yylex_next_line hst (.inr hnz) hfn hL hlt, ⟨⟨hL.good, hL.nextline, by omega, by rw [hL.eofp]; simp⟩, by rw [hdb]; exact hu.d, by rw [hpc, ← hp]; exact hu.txt⟩, hpc⟩

theorem yylex_newline {x : Ext} {bs g com rest : Bytes} {s : Lexer} (h : Upcoming bs (g ++ (com ++ 10 :: rest)) s.buffer) (hb : SkipsTo x bs s.lexState g (com ++ 10 :: rest))
    (hc : Remark com) (hcr : 13 ∉ bs)
    (hn : StartsNew rest) (he : EndsLine s.lexState) (hst : s.strterm = none) (hls : s.lvalStart = none) (hle : s.lvalEnd = none) :
    Wp (yylex x) (NlToken x bs rest (s.buffer.pcur + (g ++ com).length) s) s := by
  have hlen : (g ++ (com ++ 10 :: rest)).length ≤ bs.length := by
    rw [← h.txt]
    exact Nat.le_trans (collapse_length _ (Nat.le_refl _)) (by simp)
  simp only [List.length_append, List.length_cons] at hlen
  refine yylex_code_nl hst ?_
  refine hb.run (s := { s with lval := none, commandStart := false, tokenSeen := true }) rfl hst hls hle (by rw [h.d]; omega) h fun n b sp tk cs hn' hu hp _ => ?_
  obtain ⟨n, rfl⟩ : ∃ k', n = k' + 1 := ⟨n - 1, by omega⟩
  refine yylexLoop_eol (s := { s with lval := none, commandStart := false, tokenSeen := tk, comments := cs, buffer := b }) hu hc hcr hst hls hle fun b1 tk1 cs1 h2 hone => ?_
  dsimp only at hone hp
  refine lexNewline_ends (s := { s with lval := none, commandStart := false, tokenSeen := tk1, comments := cs1, buffer := b1 }) he ?_
  have h0 : AtEol ({ s with lval := none, commandStart := false, tokenSeen := s.tokenSeen, comments := cs1, buffer := b1 } : Lexer) := by
    have h3 := h2.eol
    exact ⟨h3.1, h3.2, h3.3, h3.4, h3.5, h3.6, h3.7, h3.8, hst, hls, hle⟩
  obtain ⟨g1, d, tl, rfl, hg, hd, h35, hdot, hand⟩ := hn
  simp only [List.length_append, List.length_cons] at hlen
  have hup : Upcoming bs (g1 ++ d :: tl) b1 := h2.up
  have := newlineLoop_text h0 hcr hup.d hd h35 hdot hand g1 (64 * (b1.d.bytes.length + 1)) sp b1 hg ⟨.refl _, .inl rfl⟩ hup (by rw [hup.d]; omega)
  refine this.mono ?_
  rintro r s' ⟨rfl, b', hk, rfl⟩
  have hpe := h0.eol
  dsimp only at hpe
  have hk1 := hk.pcur
  have hk2 := hk.ptok
  dsimp only at hk1
  have hb2 : tBegin ({ s with lval := none, commandStart := true, tokenSeen := s.tokenSeen, comments := cs1, buffer := b', lexState := EXPR_BEG } : Lexer) = s.buffer.pcur + (g ++ com).length := by
    simp only [tBegin, hls, Option.getD_none, List.length_append]; omega
  have he2 : tEnd ({ s with lval := none, commandStart := true, tokenSeen := s.tokenSeen, comments := cs1, buffer := b', lexState := EXPR_BEG } : Lexer) = s.buffer.pcur + (g ++ com).length := by
    simp only [tEnd, hle, Option.getD_none, List.length_append]; omega
  refine ⟨rfl, rfl, ?_, ?_, ?_⟩
  · rw [hb2, he2]; exact Nat.le_refl _
  · rw [he2]
    have := hk.good.hi; have := hk.good.pend_le
    show _ ≤ b'.d.bytes.length
    simp only [List.length_append]
    omega
  · rw [hb2]
    refine ⟨rfl, hst, rfl, rfl, rfl, rfl, ?_⟩
    obtain ⟨b2, e, h3, h4⟩ := NlBack.go (x := x) (s := { s with lval := none, commandStart := true, tokenSeen := s.tokenSeen, comments := cs1, buffer := b', lexState := EXPR_BEG, lvalStart := none, lvalEnd := none })
      (b0 := b1) hk hup.seq hup hpe (by simp) hst
    exact ⟨b2, e, h3, by simp only [List.length_append]; omega⟩

/-- At the end of the input. -/
theorem yylexLoop_none {x : Ext} {cmd ts sp : Bool} {n : Nat} {s : Lexer} {b : Buffer} (e : ({ s.buffer with ptok := s.buffer.pcur } : Buffer).nextc = .ok (none, b)) {Q : Tok → Lexer → Prop}
    (hq : Q .END_OF_INPUT { s with buffer := b }) : Wp (yylexLoop x cmd ts (n + 1) sp) Q s := by
  unfold yylexLoop
  refine Wp.bind (Wp.getS (Wp.bind ⟨_, _, rfl, Wp.bind ⟨none, { s with buffer := b }, ?_, Wp.pure hq⟩⟩))
  have e' : s.buffer.tokenFlush.nextc = .ok (none, b) := e
  simp [Lexer.nextc, e', Bind.bind, Except.bind, Pure.pure, Except.pure]

/-- After the last line end of the source there is nothing. -/
theorem NlLast.end {x : Ext} {bs : Bytes} {s : Lexer} {b0 : Buffer} (h : NlLast b0 s.buffer) (hbs : s.buffer.d.bytes = bs) (hlf : bs[b0.pend - 1]? = some 10)
    (hstt : s.lexState = EXPR_BEG) (hst : s.strterm = none) (hls : s.lvalStart = none) (hle : s.lvalEnd = none) :
    Wp (yylex x) (fun t s' => t.tokenType = .END_OF_INPUT ∧ s'.diagnostics = s.diagnostics) s := by
  have hg : Good { s.buffer with ptok := s.buffer.pcur } :=
    ⟨h.good.tab, h.good.lc, h.good.ll, h.good.nl, h.good.nl2, h.good.stop, h.good.start, h.good.lo, h.good.hi, h.good.ns⟩
  have hend : ∀ (s2 : Lexer) (b : Buffer), s2.lval = none → s2.lvalStart = none → s2.lvalEnd = none → s2.buffer = b → b.ptok ≤ b.pcur → b.pcur ≤ b.d.bytes.length →
      s2.diagnostics = s.diagnostics → Finish (fun t s' => t.tokenType = .END_OF_INPUT ∧ s'.diagnostics = s.diagnostics) .END_OF_INPUT s2 := by
    rintro s2 b h1 h2 h3 rfl h4 h5 h6
    refine ⟨by decide, _, .inr ⟨h1, ?_, ?_, rfl⟩, rfl, h6⟩
    · simp only [tBegin, tEnd, h2, h3, Option.getD_none]; exact h4
    · simp only [tEnd, h3, Option.getD_none]; exact h5
  have hpc := h.pcur
  have hpe := h.pend
  refine yylex_code hst ?_
  obtain ⟨n, hn⟩ : ∃ k', 64 * (s.buffer.d.bytes.length + 1) = k' + 2 := ⟨64 * (s.buffer.d.bytes.length + 1) - 2, by omega⟩
  rw [hn]
  obtain ⟨c, b1, e, hnc⟩ := nextc_good hg
  have hpl := h.good.pend_le
  cases hnc with
  | eof he => exact yylexLoop_none (s := { s with lval := none, commandStart := false, tokenSeen := true }) e (hend _ _ rfl hls hle rfl (Nat.le_refl _) (by show s.buffer.pcur ≤ s.buffer.d.bytes.length; omega) rfl)
  | load ch b1 b' hl hr => have := (hl.atEnd h.nl).1; dsimp only at this; omega
  | eofNow _ _ hp _ => dsimp only at hp; omega
  | eofLoad _ hl _ _ _ => have := (hl.atEnd h.nl).1; dsimp only at this; omega
  | here ch b' h1 hr =>
    have hno : s.buffer.eofp = false := hr.noeof
    have hlc : s.buffer.lineCount = s.buffer.d.lines.length := by
      rcases h.fin with h2 | h2
      · rw [hno] at h2; cases h2
      · exact h2.2
    have hch : ch = 10 := by
      by_contra hne
      have h3 := (hr.byte hne).2
      have h4 : s.buffer.d.bytes[s.buffer.pcur]? = some 10 := by rw [hbs, show s.buffer.pcur = b0.pend - 1 by omega]; exact hlf
      have h5 : s.buffer.d.bytes[s.buffer.pcur]? = some ch := h3
      rw [h4] at h5
      exact hne (by simpa using h5.symm)
    subst hch
    have hpe' := (hr.lf rfl).1
    have hb' := hr.eq
    unfold yylexLoop
    refine Wp.bind (Wp.getS (Wp.bind ⟨_, _, rfl, Wp.bind ⟨some 10, { s with lval := none, commandStart := false, tokenSeen := true, buffer := b1 }, ?_, Wp.bind ?_⟩⟩))
    · have e' : s.buffer.tokenFlush.nextc = .ok (some 10, b1) := e
      simp [Lexer.nextc, e', Bind.bind, Except.bind, Pure.pure, Except.pure]
    refine dispatch_nl (lexNewline_skip (by rw [hstt]; exact ⟨by decide, by decide⟩) ?_)
    have hg1 : Good { b1 with ptok := b1.pcur } :=
      ⟨hr.good.tab, hr.good.lc, hr.good.ll, hr.good.nl, hr.good.nl2, hr.good.stop, hr.good.start, hr.good.lo, hr.good.hi, hr.good.ns⟩
    obtain ⟨c, b2, e2, hnc2⟩ := nextc_good hg1
    have hs := hr.same
    have hnl1 : b1.nextline = 0 := hs.nextline.trans h.nl
    have hno1 : b1.eofp = false := by rw [hb']; exact hno
    have hlc1 : b1.lineCount = b1.d.lines.length := by rw [hs.lineCount]; simp only [Buffer.d, hs.input]; exact hlc
    have hpl1 := hr.good.pend_le
    have hno2 : ∀ b3, Loaded { b1 with ptok := b1.pcur } b3 → False := fun b3 hl => by
      have h5 := (hl.fresh hnl1).2
      have h6 := hl.good.lc
      simp only [Buffer.d, hl.input] at h6 hlc1 h5
      omega
    cases hnc2 with
    | eof he => rw [show ({ b1 with ptok := b1.pcur } : Buffer).eofp = b1.eofp from rfl, hno1] at he; cases he
    | load ch b1 b' hl hr => exact (hno2 _ hl).elim
    | eofLoad _ hl _ _ _ => exact (hno2 _ hl).elim
    | here ch b' h1 hr2 =>
      have h5 := hr2.lt; have h6 := hr2.good.hi; have h7 := hr2.same.pend
      dsimp only at h5 h7
      omega
    | eofNow _ _ hp _ =>
      exact yylexLoop_none (s := { s with lval := none, commandStart := false, tokenSeen := s.tokenSeen, buffer := b1 }) e2
        (hend _ _ rfl hls hle rfl (Nat.le_refl _) (by show b1.pcur ≤ b1.d.bytes.length; have := hr.good.hi; omega) rfl)

/-- The end of the last line is a token, and then the source ends. -/
structure LastToken (x : Ext) (p : Nat) (s : Lexer) (r : Token) (s' : Lexer) : Prop where
  tok : r = ⟨.tNL, [10], ⟨p, p + 1⟩⟩
  diag : s'.diagnostics = s.diagnostics
  go : Wp (yylex x) (fun t s2 => t.tokenType = .END_OF_INPUT ∧ s2.diagnostics = s'.diagnostics) s'

theorem yylex_lastline {x : Ext} {bs g com : Bytes} {s : Lexer} (h : Upcoming bs (g ++ (com ++ [10])) s.buffer) (hb : SkipsTo x bs s.lexState g (com ++ [10])) (hc : Remark com)
    (hcr : 13 ∉ bs) (he : EndsLine s.lexState) (hst : s.strterm = none) (hls : s.lvalStart = none) (hle : s.lvalEnd = none) :
    Wp (yylex x) (LastToken x (s.buffer.pcur + (g ++ com).length) s) s := by
  have hlen : (g ++ (com ++ [10])).length ≤ bs.length := by
    rw [← h.txt]
    exact Nat.le_trans (collapse_length _ (Nat.le_refl _)) (by simp)
  simp only [List.length_append, List.length_cons] at hlen
  refine yylex_code_nl hst ?_
  refine hb.run (s := { s with lval := none, commandStart := false, tokenSeen := true }) rfl hst hls hle (by rw [h.d]; omega) h fun n b sp tk cs hn' hu hp _ => ?_
  obtain ⟨n, rfl⟩ : ∃ k', n = k' + 1 := ⟨n - 1, by omega⟩
  refine yylexLoop_eol (s := { s with lval := none, commandStart := false, tokenSeen := tk, comments := cs, buffer := b }) hu hc hcr hst hls hle fun b1 tk1 cs1 h2 hone => ?_
  dsimp only at hone hp
  refine lexNewline_ends (s := { s with lval := none, commandStart := false, tokenSeen := tk1, comments := cs1, buffer := b1 }) he ?_
  have h0 : AtEol ({ s with lval := none, commandStart := false, tokenSeen := s.tokenSeen, comments := cs1, buffer := b1 } : Lexer) := by
    have h3 := h2.eol
    exact ⟨h3.1, h3.2, h3.3, h3.4, h3.5, h3.6, h3.7, h3.8, hst, hls, hle⟩
  have hup : Upcoming bs [] b1 := h2.up
  have hpe := h0.eol
  dsimp only at hpe
  have hend : b1.pend = bs.length := by
    have h3 := hup.txt
    have h4 : bs.length ≤ b1.pcur := by
      by_contra h5
      rw [collapse_plain fun h => hcr (List.mem_of_mem_drop h)] at h3
      exact h5 (List.drop_eq_nil_iff.1 h3)
    have h5 := hup.seq.good.pend_le
    rw [hup.d] at h5
    omega
  refine (newlineLoop_last (n := 64 * (b1.d.bytes.length + 1)) (sp := sp) h0 hcr hup.d hend (by omega)).mono ?_
  rintro r s' ⟨rfl, b', hk, rfl⟩
  have hk1 := hk.pcur
  have hk2 := hk.ptok
  dsimp only at hk1
  have hb2 : tBegin ({ s with lval := none, commandStart := true, tokenSeen := s.tokenSeen, comments := cs1, buffer := b', lexState := EXPR_BEG } : Lexer) = s.buffer.pcur + (g ++ com).length := by
    simp only [tBegin, hls, Option.getD_none, List.length_append]; omega
  have he2 : tEnd ({ s with lval := none, commandStart := true, tokenSeen := s.tokenSeen, comments := cs1, buffer := b', lexState := EXPR_BEG } : Lexer) = s.buffer.pcur + (g ++ com).length := by
    simp only [tEnd, hle, Option.getD_none, List.length_append]; omega
  have hdb : b'.d.bytes = bs := by rw [← hup.d]; simp only [Buffer.d, hk.input]
  refine ⟨rfl, rfl, ?_, ?_, ?_⟩
  · rw [hb2, he2]; exact Nat.le_refl _
  · rw [he2]
    have := hk.good.hi; have := hk.good.pend_le
    show _ ≤ b'.d.bytes.length
    simp only [List.length_append]
    omega
  · rw [hb2]
    refine ⟨rfl, rfl, ?_⟩
    have hlast : bs[b1.pcur - 1]? = some 10 := h2.last
    rw [hpe] at hlast
    exact NlLast.end (x := x) (s := { s with lval := none, commandStart := true, tokenSeen := s.tokenSeen, comments := cs1, buffer := b', lexState := EXPR_BEG, lvalStart := none, lvalEnd := none })
      (b0 := b1) hk hdb hlast rfl hst rfl rfl

/-- Where the next line continues the line before. -/
theorem newlineLoop_lead {s0 : Lexer} {bs : Bytes} (h0 : AtEol s0) {d : UInt8} {tl : Bytes}
    (hd : d = 35 ∨ (d = 46 ∧ tl.head? ≠ some 46) ∨ (d = 38 ∧ tl.head? = some 46)) : ∀ (g : Bytes) n sp b, (∀ c ∈ g, Blank c) →
    Upcoming bs (g ++ d :: tl) b → g.length < n →
    Wp (newlineLoop n sp) (fun r s' => ∃ sp' b', r = .retry sp' ∧ Upcoming bs (d :: tl) b' ∧ b'.pcur = b.pcur + g.length ∧ s' = { s0 with buffer := b' })
      { s0 with buffer := b } := by
  intro g
  induction g with
  | cons c g ih =>
    intro n sp b hb hu hlen
    obtain ⟨n, rfl⟩ : ∃ k', n = k' + 1 := ⟨n - 1, by simp only [List.length_cons] at hlen; omega⟩
    unfold newlineLoop
    have hc := hb c (by simp)
    refine Wp.bind (Upcoming.nextc (s := { s0 with buffer := b }) hu fun b' h hm => ?_)
    refine Wp.ite (fun _ => ?_) fun e => absurd (by rcases hc with rfl | rfl | rfl | rfl <;> decide) e
    refine (ih n true b' (fun c hc => hb c (by simp [hc])) h.at' (by simpa using hlen)).mono ?_
    rintro r s' ⟨sp', b2, h1, h2, h3, h4⟩
    refine ⟨sp', b2, h1, h2, ?_, h4⟩
    have := hm.one (by rcases hc with rfl | rfl | rfl | rfl <;> decide)
    dsimp only at this
    simp only [List.length_cons]; omega
  | nil =>
    intro n sp b hb hu hlen
    obtain ⟨n, rfl⟩ : ∃ k', n = k' + 1 := ⟨n - 1, by simp only [List.length_nil] at hlen; omega⟩
    unfold newlineLoop
    refine Wp.bind (Upcoming.nextc (s := { s0 with buffer := b }) hu fun b' h2 hm => ?_)
    refine Wp.ite (fun e => absurd e (by rcases hd with rfl | ⟨rfl, -⟩ | ⟨rfl, -⟩ <;> decide)) fun _ => ?_
    rcases hd with rfl | hd
    · refine Wp.ite (fun _ => ?_) fun e => absurd rfl e
      refine Wp.bind (Took.pushback (s := { s0 with buffer := b' }) h2 fun h3 => Wp.pure ⟨sp, _, rfl, h3, ?_, rfl⟩)
      show b'.pbPos = _
      rw [hm.back]; rfl
    refine Wp.ite (fun e => absurd e (by rcases hd with ⟨rfl, -⟩ | ⟨rfl, -⟩ <;> decide)) fun _ => ?_
    refine Wp.ite (fun _ => ?_) fun e => absurd (by rcases hd with ⟨rfl, -⟩ | ⟨rfl, -⟩ <;> decide) e
    refine Wp.bind (Wp.map (Wp.peek h2.at'.seq.good fun r hr => ?_))
    have hd10 : d ≠ 10 := by rcases hd with ⟨rfl, -⟩ | ⟨rfl, -⟩ <;> decide
    have hin : (r = true ↔ tl.head? = some 46) := by
      have h3 : tl.head? = some 46 ↔ bs[b'.pcur]? = some 46 := by
        rw [← h2.at'.txt, collapse_head (by decide), List.head?_drop]
      rw [hr, h3]
      dsimp only
      rw [h2.at'.d]
      refine ⟨fun h => h.2, fun h => ⟨(Took.inline h2 hd10).lt ?_, h⟩⟩
      rintro rfl
      cases h3.2 h
    have : (r == isC (some d) '&') = true := by
      rcases hd with ⟨rfl, h3⟩ | ⟨rfl, h3⟩
      · cases r with
        | true => exact absurd (hin.1 rfl) h3
        | false => rfl
      · have := hin.2 h3; subst this; rfl
    rw [this]
    refine Wp.ite (fun _ => ?_) fun e => absurd rfl e
    refine Wp.bind (Took.pushback (s := { s0 with buffer := b' }) h2 fun h3 => Wp.pure ⟨sp, _, rfl, h3, ?_, rfl⟩)
    show b'.pbPos = _
    rw [hm.back]; rfl

/-- One line end and blanks before a comment or the call of a method. -/
theorem skips_lead {x : Ext} {bs com g tl : Bytes} {d : UInt8} {st : LexState} (hc : Remark com) (hg : ∀ c ∈ g, Blank c) (hcr : 13 ∉ bs) (he : EndsLine st)
    (hd : d = 35 ∨ (d = 46 ∧ tl.head? ≠ some 46) ∨ (d = 38 ∧ tl.head? = some 46)) : SkipsTo x bs st (com ++ 10 :: g) (d :: tl) := by
  rintro cmd ts Q n sp s rfl hst hls hle hn hu hq
  simp only [List.length_append, List.length_cons] at hn
  have hlen : (com ++ 10 :: g ++ d :: tl).length ≤ bs.length := by
    rw [← hu.txt]
    exact Nat.le_trans (collapse_length _ (Nat.le_refl _)) (by simp)
  simp only [List.length_append, List.length_cons] at hlen
  obtain ⟨n, rfl⟩ : ∃ k', n = k' + 1 := ⟨n - 1, by omega⟩
  refine yylexLoop_eol (com := com) (rest := g ++ d :: tl) (by simpa using hu) hc hcr hst hls hle fun b1 tk1 cs1 h2 hone => ?_
  refine lexNewline_ends (s := { s with tokenSeen := tk1, comments := cs1, buffer := b1 }) he ?_
  have hup : Upcoming bs (g ++ d :: tl) b1 := h2.up
  have h0 : AtEol ({ s with tokenSeen := ts, comments := cs1, buffer := b1 } : Lexer) := by
    have h3 := h2.eol
    exact ⟨h3.1, h3.2, h3.3, h3.4, h3.5, h3.6, h3.7, h3.8, hst, hls, hle⟩
  refine (newlineLoop_lead h0 hd g _ sp b1 hg hup (by rw [hup.d]; omega)).mono ?_
  rintro r s' ⟨sp', b', rfl, h3, h4, rfl⟩
  refine hq n b' sp' ts cs1 ?_ h3 ?_ fun h => absurd (h 10 (by simp)) (by unfold Blank; decide)
  · simp only [List.length_append, List.length_cons]; omega
  · simp only [List.length_append, List.length_cons]; omega

end Verif.Lexer
