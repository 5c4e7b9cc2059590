import Verif.Lemmas.LexComment
/-! One pass of the retry loop: what it establishes; newlines. -/
namespace Verif.Lexer
variable {s : Lexer}

/-- The literal being read fits the input. -/
def StOk (b : Buffer) : Option StrTerm → Prop
  | none => True
  | some (.string l) => ∀ e, l.heredocEnd = some e → EndOk b.d e
  | some (.heredoc h) => HereOk b.d h ∧ HereAt b h

/-- What the literal being read may still add to the measure. -/
def stW (d : DecodedInput) : Option StrTerm → Nat
  | none => 0
  | some (.string l) => strW l
  | some (.heredoc h) => hereT d h

/-- Where the token starts and ends, before `yylex` takes note of it. -/
def tBegin (s : Lexer) : Nat := s.lvalStart.getD s.buffer.ptok
/-- See `tBegin`. -/
def tEnd (s : Lexer) : Nat := s.lvalEnd.getD s.buffer.pcur

/-- Up to where the input was used. -/
def front (b : Buffer) : Nat := if b.nextline = 0 then b.pcur else b.pend

theorem front_ge {b : Buffer} (h : Good b) : b.pcur ≤ front b := by
  unfold front; split
  · exact Nat.le_refl _
  · exact h.hi

/-- Only a line end follows, or not even that. -/
def LastEnd (bs : Bytes) (p : Nat) : Prop := bs.length ≤ p + 1 ∨ (bs.length = p + 2 ∧ bs[p]? = some 13 ∧ bs[p + 1]? = some 10)

/-- The token is not before `p` and does not reach past what was used of the input.  Not so for the first part of a here document,
and for a newline after which nothing but the end of the input was found. -/
structure Ord (p : Nat) (t : Tok) (s' : Lexer) : Prop where
  str : Straight s'.buffer
  low : p ≤ tBegin s'
  up : (t ≠ .tNL ∧ s'.buffer.nextline = 0 ∧ ((∃ h, s'.strterm = some (.heredoc h)) ∨ tEnd s' ≤ s'.buffer.pcur)) ∨
    (t = .tNL ∧ s'.strterm = none ∧ (tBegin s' + 1 ≤ front s'.buffer ∨ (tBegin s' ≤ front s'.buffer ∧ LastEnd s'.buffer.d.bytes (tBegin s'))))
  lit : ∀ l, s'.strterm = some (.string l) → l.heredocEnd = none
  here : ∀ h, s'.strterm = some (.heredoc h) → (t = .tSTRING_BEG ∨ t = .tXSTRING_BEG) ∧ ∃ v, s'.lval = some v ∧ v.take 2 = [60, 60]

theorem Ord.mono {p q : Nat} {t : Tok} {s' : Lexer} (h : Ord p t s') (hq : q ≤ p) : Ord q t s' :=
  ⟨h.str, Nat.le_trans hq h.low, h.up, h.lit, h.here⟩

/-- After a token other than the end of input; `k` bounds what is left, `p` is a bound for the position. -/
structure TokOk (p k : Nat) (s : Lexer) (t : Tok) (s' : Lexer) : Prop where
  adv : Adv s.buffer s'.buffer
  good : Good s'.buffer
  st : StOk s'.buffer s'.strterm
  le : tBegin s' ≤ tEnd s'
  hi : tEnd s' ≤ s.buffer.d.bytes.length
  nl : t = .tNL → tBegin s' < s.buffer.d.bytes.length
  meas : s'.buffer.R + stW s.buffer.d s'.strterm ≤ k
  ord : Straight s.buffer → Ord p t s'

/-- Back to the head of the retry loop. -/
structure RetryOk (s s' : Lexer) : Prop where
  adv : Adv s.buffer s'.buffer
  good : Good s'.buffer
  st : s'.strterm = none
  ls : s'.lvalStart = none
  le : s'.lvalEnd = none
  meas : s'.buffer.R ≤ s.buffer.R + 7
  ord : Straight s.buffer → Straight s'.buffer ∧ s.buffer.ptok ≤ front s'.buffer

/-- On to reading a name. -/
structure IdentOk (s s' : Lexer) : Prop where
  adv : Adv s.buffer s'.buffer
  mid : Mid s'.buffer
  noeof : s'.buffer.eofp = false
  ptok : s'.buffer.ptok ≤ s'.buffer.pcur
  st : s'.strterm = none
  ls : s'.lvalStart = none
  le : s'.lvalEnd = none
  meas : s'.buffer.R ≤ s.buffer.R
  ord : Straight s.buffer → Straight s'.buffer ∧ s.buffer.ptok ≤ s'.buffer.ptok ∧ s.buffer.ptok < s'.buffer.pcur

/-- What one pass of the retry loop ends with. -/
def XPost (s : Lexer) (r : Next) (s' : Lexer) : Prop :=
  match r with
  | .tok t => t = .END_OF_INPUT ∨ TokOk s.buffer.ptok (s.buffer.R + 7) s t s'
  | .retry _ => RetryOk s s'
  | .ident => IdentOk s s'

/-- With what is recorded about comments. -/
def DPost (s : Lexer) (r : Next) (s' : Lexer) : Prop := Com s s' ∧ XPost s r s'

theorem DPost.mono {a b s' : Lexer} {r : Next} (h : DPost b r s') (ha : Adv a.buffer b.buffer) (hc : Com a b)
    (hR : b.buffer.R ≤ a.buffer.R) (hp : a.buffer.ptok ≤ b.buffer.ptok) (hq : Straight a.buffer → Straight b.buffer) : DPost a r s' := by
  have hd : b.buffer.d = a.buffer.d := by simp only [Buffer.d, ha.input]
  refine ⟨hc.trans ha.input h.1, ?_⟩
  have h2 := h.2
  cases r with
  | tok t =>
    refine h2.imp id fun h => ?_
    exact ⟨ha.trans h.adv, h.good, h.st, h.le, hd ▸ h.hi, hd ▸ h.nl, by have := h.meas; rw [hd] at this; omega, fun h1 => (h.ord (hq h1)).mono hp⟩
  | retry _ => exact ⟨ha.trans h2.adv, h2.good, h2.st, h2.ls, h2.le, by have := h2.meas; omega,
      fun h1 => ⟨(h2.ord (hq h1)).1, Nat.le_trans hp (h2.ord (hq h1)).2⟩⟩
  | ident => exact ⟨ha.trans h2.adv, h2.mid, h2.noeof, h2.ptok, h2.st, h2.ls, h2.le, by have := h2.meas; omega,
      fun h1 => ⟨(h2.ord (hq h1)).1, Nat.le_trans hp (h2.ord (hq h1)).2.1, Nat.lt_of_le_of_lt hp (h2.ord (hq h1)).2.2⟩⟩

theorem DPost.end {s' : Lexer} (h : Com s s') : DPost s (.tok .END_OF_INPUT) s' := ⟨h, .inl rfl⟩

/-- The state before a line end is dealt with. -/
structure AtEol (s : Lexer) : Prop where
  good : Good s.buffer
  noeof : s.buffer.eofp = false
  nonl : s.buffer.nextline = 0
  eol : s.buffer.pcur = s.buffer.pend
  lt : s.buffer.pbeg < s.buffer.pend
  ptok : s.buffer.ptok < s.buffer.pcur
  lo : s.buffer.pbeg ≤ s.buffer.ptok
  ns : s.buffer.pbeg < s.buffer.ptok → s.buffer.d.bytes[s.buffer.ptok]? = some 10 → s.buffer.d.bytes[s.buffer.ptok - 1]? ≠ some 13
  st : s.strterm = none
  ls : s.lvalStart = none
  le : s.lvalEnd = none

/-- Back to the end of line `l`. -/
structure BackAt (b : Buffer) (l : Nat) (b' : Buffer) : Prop where
  input : b'.input = b.input
  lc : b'.lineCount = b.lineCount
  nl : b'.nextline = b.nextline
  eofp : b'.eofp = b.eofp
  lastline : b'.lastline = l
  pbeg : b'.pbeg = b.d.lStart l
  pend : b'.pend = b.d.lStop l
  ptok : b'.ptok = b'.pcur
  lo : b'.pbeg ≤ b'.pcur
  near : b'.pend ≤ b'.pcur + 2
  lt : b'.pcur < b'.pend
  ns : b'.pbeg < b'.pcur → b'.pcur < b'.pend → b'.d.bytes[b'.pcur]? = some 10 → b'.d.bytes[b'.pcur - 1]? ≠ some 13
  back : b'.pcur + 1 = b'.pend ∨ (b'.pcur + 2 = b'.pend ∧ b'.d.bytes[b'.pcur]? = some 13 ∧ b'.d.bytes[b'.pcur + 1]? = some 10)

theorem eofNoDecrement_ok {b : Buffer} {l : Nat} (ht : b.d.Tabled) (hl : l < b.d.lines.length) (hne : b.d.lStart l < b.d.lStop l)
    (hp : (b.eofp = true ∧ b.lastline = l) ∨ (b.eofp = false ∧ b.prevline = some l)) :
    ∃ b', b.eofNoDecrement = .ok b' ∧ BackAt b l b' := by
  have key : b.eofNoDecrement = (do
      let line ← b.input.lineAt l
      let b2 : Buffer := { b with lastline := l, pbeg := line.start }
      let b2 := { b2 with pend := b2.pbeg + (← line.len) }
      let b2 := { b2 with pcur := b2.pend }
      let b2 ← b2.pushbackByte
      return b2.setPtok b2.pcur) := by
    unfold Buffer.eofNoDecrement
    rcases hp with ⟨h1, h2⟩ | ⟨h1, h2⟩
    · subst h2
      cases b with
      | mk _ _ pv => cases pv <;> (dsimp only at h1; subst h1; rfl)
    · cases b
      dsimp only at h1 h2
      subst h1 h2; rfl
  rw [key]
  obtain ⟨ln, h1, h2, h3⟩ := ht.lineAt hl
  have h1' : b.input.lineAt l = .ok ln := h1
  rw [h1']
  have hlen : ln.len = .ok (ln.stop - ln.start) := csub_of_le (by omega)
  simp only [Bind.bind, Except.bind, hlen, Pure.pure, Except.pure]
  rw [pushbackByte_eq _ (by dsimp only; omega)]
  dsimp only
  refine ⟨_, rfl, ?_⟩
  have hs : ln.start + (ln.stop - ln.start) = ln.stop := by omega
  have hpb : ∀ b2 : Buffer, b2.pcur = ln.stop → b2.pbeg = ln.start → b2.d = b.d → b2.pbPos = ln.stop - 1 ∧
      (ln.start < ln.stop - 1 → b.d.bytes[ln.stop - 1]? = some 10 → b.d.bytes[ln.stop - 1 - 1]? ≠ some 13) ∨
      (b2.pbPos = ln.stop - 2 ∧ ln.start < ln.stop - 1 ∧ b.d.bytes[ln.stop - 2]? = some 13 ∧ b.d.bytes[ln.stop - 1]? = some 10) := by
    intro b2 e2 e3 e4
    unfold Buffer.pbPos
    rw [e2, e3, e4]
    by_cases hc : ln.stop - 1 > ln.start ∧ b.d.bytes[ln.stop - 1]? = some 10 ∧ b.d.bytes[ln.stop - 1 - 1]? = some 13
    · rw [if_pos hc]; exact .inr ⟨rfl, hc.1, hc.2.2, hc.2.1⟩
    · rw [if_neg hc]; exact .inl ⟨rfl, fun h5 h6 h7 => hc ⟨h5, h6, h7⟩⟩
  rcases hpb { b with lastline := l, pbeg := ln.start, pcur := ln.start + (ln.stop - ln.start), pend := ln.start + (ln.stop - ln.start) }
      hs rfl rfl with ⟨e5, e6⟩ | ⟨e5, e6, e7, e8⟩
  · refine ⟨rfl, rfl, rfl, rfl, rfl, h2, hs.trans h3, rfl, ?_, ?_, ?_, ?_, ?_⟩
    · show ln.start ≤ Buffer.pbPos _; rw [e5]; omega
    · show ln.start + _ ≤ Buffer.pbPos _ + 2; rw [e5]; omega
    · show Buffer.pbPos _ < ln.start + _; rw [e5]; omega
    · show ln.start < Buffer.pbPos _ → Buffer.pbPos _ < _ → b.d.bytes[Buffer.pbPos _]? = _ → b.d.bytes[Buffer.pbPos _ - 1]? ≠ _
      rw [e5]; intro h5 _ h6; exact e6 h5 h6
    · exact .inl (by show Buffer.pbPos _ + 1 = ln.start + _; rw [e5]; omega)
  · refine ⟨rfl, rfl, rfl, rfl, rfl, h2, hs.trans h3, rfl, ?_, ?_, ?_, ?_, ?_⟩
    · show ln.start ≤ Buffer.pbPos _; rw [e5]; omega
    · show ln.start + _ ≤ Buffer.pbPos _ + 2; rw [e5]; omega
    · show Buffer.pbPos _ < ln.start + _; rw [e5]; omega
    · show ln.start < Buffer.pbPos _ → Buffer.pbPos _ < _ → b.d.bytes[Buffer.pbPos _]? = _ → b.d.bytes[Buffer.pbPos _ - 1]? ≠ _
      rw [e5]; intro h5 _ h6; rw [e7] at h6; cases h6
    · refine .inr ⟨?_, ?_, ?_⟩
      · show Buffer.pbPos _ + 2 = ln.start + _; rw [e5]; omega
      · show b.d.bytes[Buffer.pbPos _]? = _; rw [e5]; exact e7
      · show b.d.bytes[Buffer.pbPos _ + 1]? = _; rw [e5, show ln.stop - 2 + 1 = ln.stop - 1 by omega]; exact e8

/-- The next line was loaded from the line end of `b`. -/
structure OnNext (b b' : Buffer) : Prop where
  good : Good b'
  input : b'.input = b.input
  noeof : b'.eofp = false
  nonl : b'.nextline = 0
  prev : b'.prevline = some b.lastline
  last : b'.lastline = b.lineCount
  lc : b'.lineCount = b.lineCount + 1
  pbeg : b'.pbeg = b'.d.lStart b'.lastline
  sl : 0 < b'.rubySourceline
  meas : b'.R + 17 ≤ b.R
  after : b.pend ≤ b'.pbeg

theorem _root_.Verif.Loaded.onNext {b b' : Buffer} (hn : b.nextline = 0) (h : Loaded b b') : OnNext b b' :=
  ⟨h.good, h.input, h.eofp, h.nextline, h.prev, (h.fresh hn).1, (h.fresh hn).2, h.start, h.sl, (h.atEnd hn).2, by rw [← h.bol]; exact h.after⟩

theorem OnNext.read {b b1 b2 : Buffer} {ch : UInt8} (h : OnNext b b1) (hr : ReadIn b1 ch b2) : OnNext b b2 := by
  have hs := hr.same
  refine ⟨hr.good, hs.input.trans h.input, by rw [hr.eq]; exact hr.noeof, hs.nextline.trans h.nonl, hs.prevline.trans h.prev,
    hs.lastline.trans h.last, hs.lineCount.trans h.lc, ?_, by rw [hs.sl]; exact h.sl, ?_, by rw [hs.pbeg]; exact h.after⟩
  · rw [hs.pbeg, h.pbeg, hs.lastline]; simp only [Buffer.d, hs.input]
  · have := hr.meas h.nonl; have := h.meas; omega

theorem OnNext.str {b b' : Buffer} (h : OnNext b b') : Straight b' :=
  ⟨fun _ => .inl (by rw [h.last, h.lc]), fun e => absurd h.nonl e, .inl h.pbeg⟩

theorem OnNext.adv {b b' : Buffer} (h : OnNext b b') : Adv b b' := ⟨h.input, by rw [h.lc]; omega, .inl h.nonl⟩

/-- What `newlineLoop` reads. -/
inductive NlRead (s : Lexer) : MB → Lexer → Prop where
  | next (ch b1 s') : Fr s s' → OnNext s.buffer b1 → ReadIn b1 ch s'.buffer → (ch ≠ 10 → Mid s'.buffer) → NlRead s (some ch) s'
  | eof (l s') : Fr s s' → Good s'.buffer → s'.buffer.eofp = true → Adv s.buffer s'.buffer → s'.buffer.nextline = 0 → s'.buffer.lastline = l →
      s'.buffer.d.lStart l < s'.buffer.d.lStop l → s'.buffer.R ≤ s.buffer.R → (l = s.buffer.lastline ∨ s.buffer.pend ≤ s'.buffer.d.lStart l) →
      (Straight s.buffer → s'.buffer.d.lStop l = s'.buffer.d.bytes.length) → NlRead s none s'
  | last (s') : Fr s s' → OnNext s.buffer s'.buffer → (Straight s.buffer → s.buffer.pend = s'.buffer.d.bytes.length) → NlRead s none s'

/-- The states in which `newlineLoop` reads. -/
def NlAt (s0 s : Lexer) : Prop := Fr s0 s ∧ (s.buffer = s0.buffer ∨ (OnNext s0.buffer s.buffer ∧ Mid s.buffer))

theorem BackAt.good {b b' : Buffer} {l : Nat} (h : BackAt b l b') (ht : b.d.Tabled) (hlc : b.lineCount ≤ b.d.lines.length)
    (hl : l < b.lineCount) (hn : b.nextline = 0 ∨ (b.eofp = false ∧ b.nextline < b.lineCount ∧ l < b.nextline ∧
      b.d.lStart b.nextline < b.d.lStop b.nextline)) : Good b' := by
  have hd : b'.d = b.d := by simp only [Buffer.d, h.input]
  exact {
    tab := by rw [hd]; exact ht
    lc := by rw [hd, h.lc]; exact hlc
    ll := by rw [h.lastline, h.lc]; exact hl
    nl := by rw [h.nl, h.lc]; rcases hn with e | e <;> omega
    nl2 := by
      rw [h.nl, h.eofp, h.lastline, hd]
      rcases hn with e | e
      · intro h; exact absurd e h
      · intro _; exact ⟨e.1, e.2.2⟩
    stop := by rw [h.pend, h.lastline, hd]
    start := by rw [h.pbeg, h.lastline, hd]; exact .inl rfl
    lo := h.lo
    hi := Nat.le_of_lt h.lt
    ns := h.ns }

theorem _root_.Verif.Good.at_end {b : Buffer} (h : Good b) (hn : b.nextline = 0) (hst : Straight b)
    (hx : b.d.bytes[b.pend - 1]? ≠ some 10 ∨ b.lineCount = b.d.lines.length) : b.d.lStop b.lastline = b.d.bytes.length := by
  by_cases e : b.lastline + 1 < b.d.lines.length
  · rcases hx with hx | hx
    · rw [h.stop] at hx; exact absurd (h.tab.last_lf e) hx
    · rcases hst.cur hn with e2 | e2
      · omega
      · exact e2
  · have h5 := h.tab.last_stop
    rw [show b.d.lines.length - 1 = b.lastline by have := h.llen; omega] at h5
    exact h5

theorem nlRead_wp {s0 : Lexer} {Q : MB → Lexer → Prop} (h0 : AtEol s0) (h : NlAt s0 s) (hq : ∀ c s', NlRead s0 c s' → (c ≠ none → s'.buffer.R + 8 ≤ s.buffer.R) → Q c s') :
    Wp Lexer.nextc Q s := by
  obtain ⟨hf, h | ⟨h, hm⟩⟩ := h
  · have hg : Good s.buffer := by rw [h]; exact h0.good
    obtain ⟨c, b', e, hn⟩ := nextc_good hg
    refine ⟨c, { s with buffer := b' }, by simp [Lexer.nextc, e, Bind.bind, Except.bind, Pure.pure, Except.pure], ?_⟩
    have hf' : Fr s0 { s with buffer := b' } := hf
    rw [h] at hn
    cases hn with
    | here ch b' h1 hr =>
      have h2 := hr.lt; have h3 := hr.good.hi; have h4 := hr.same.pend; have := h0.eol
      omega
    | load ch b1 b' hl hr =>
      have h1 := (hl.onNext h0.nonl).read hr
      refine hq _ _ (.next ch b1 _ hf' (hl.onNext h0.nonl) hr ?_) ?_
      · intro hne
        obtain ⟨h2, h3⟩ := hr.byte hne
        exact { h1.good with
          lt := by show b'.pbeg < b'.pcur; have := hr.lt; have := hl.good.lo; have := hr.same.pbeg; omega
          nolf := by
            show b'.d.bytes[b'.pcur - 1]? ≠ _
            rw [h2]; simp only [Buffer.d, hr.same.input, Nat.add_sub_cancel]
            simp only [Buffer.d] at h3; rw [h3]; simpa using hne
          nonl := h1.nonl }
      · intro _
        have h2 := hr.meas (hl.onNext h0.nonl).nonl
        have := hl.meas
        show b'.R + 8 ≤ _
        rw [h]; omega
    | eof he => rw [h0.noeof] at he; cases he
    | eofNow he hn hp hx =>
      refine hq _ _ (.eof s0.buffer.lastline _ hf' ?_ rfl ⟨rfl, Nat.le_refl _, .inr (.inl rfl)⟩ h0.nonl rfl ?_ eofNow_fw.meas (.inl rfl) ?_) (by simp)
      · exact { h0.good with nl2 := fun h => absurd hn h }
      · show s0.buffer.d.lStart _ < s0.buffer.d.lStop _
        rw [← h0.good.stop]
        have := h0.good.start_ge; have := h0.lt; omega
      · intro hst
        exact h0.good.at_end hn hst (hx.imp (·.2) id)
    | eofLoad _ hl hp hx hR =>
      refine hq _ _ (.last _ hf' (hl.onNext h0.nonl) fun hst => ?_) (by simp)
      show s0.buffer.pend = b'.d.bytes.length
      have hd : b'.d = s0.buffer.d := by simp only [Buffer.d, hl.input]
      rcases hst.cur h0.nonl with e | e
      · have h1 := (hl.fresh h0.nonl).1
        have h2 := hl.good.llen
        have h3 := hl.good.tab.next (i := s0.buffer.lastline) (by omega)
        rw [← hx, ← hp, hl.bol, hl.start, h1, ← e, h3, h0.good.stop, hd]
      · rw [h0.good.stop, hd]; exact e
  · refine Wp.nextc hm ?_
    intro c s1 hr
    cases c with
    | none =>
      have hs := hr.loc.1.same
      obtain ⟨h1, h2⟩ := hr.isNone rfl
      refine hq _ _ (.eof s1.buffer.lastline _ (hf.trans hr.loc.2) hr.good h1 ?_ (hs.nextline.trans h.nonl) rfl ?_ ?_ (.inr ?_) fun _ => ?_) (by simp)
      · exact h.adv.trans ⟨hs.input, by rw [hs.lineCount]; exact Nat.le_refl _, .inr (.inl hs.nextline)⟩
      · have := (hr.mid (by simp)).lt
        have h3 := hr.good.hi
        rw [← hr.good.stop]
        have := hr.good.start_ge
        omega
      · have := hr.loc.1.meas; have := h.meas; omega
      · have h3 := h.after
        have h4 := h.pbeg
        simp only [Buffer.d, hs.input, hs.lastline] at h3 h4 ⊢
        omega
      · have h3 := (hr.mid (by simp)).nolf
        rcases hr.atEnd rfl with e | e
        · rw [h.noeof] at e; cases e
        · rw [← hr.good.stop]
          have h4 : s1.buffer.pcur = s1.buffer.pend := by rw [h2, e, hs.pend]
          rw [h4, hr.good.stop] at h3
          by_cases e2 : s1.buffer.lastline + 1 < s1.buffer.d.lines.length
          · exact absurd (hr.good.tab.last_lf e2) h3
          · have h5 := hr.good.tab.last_stop
            rw [show s1.buffer.d.lines.length - 1 = s1.buffer.lastline by have := hr.good.llen; omega, ← hr.good.stop] at h5
            exact h5
    | some ch =>
      have h1 := hr.isSome ch rfl
      refine hq _ _ (.next ch s.buffer _ (hf.trans hr.loc.2) h h1 ?_) ?_
      · intro hne; exact hr.mid (by simpa using hne)
      · exact hr.meas

theorem TokOk.newline {s s' : Lexer} {p k : Nat} (ha : Adv s.buffer s'.buffer) (hg : Good s'.buffer) (hst : s'.strterm = none)
    (hls : s'.lvalStart = none) (hle : s'.lvalEnd = none) (hp : s'.buffer.ptok ≤ s'.buffer.pcur) (hp' : s'.buffer.ptok < s'.buffer.pend)
    (hR : s'.buffer.R ≤ k) (ho : Straight s.buffer → Straight s'.buffer ∧ p ≤ s'.buffer.ptok ∧
      (s'.buffer.ptok + 1 ≤ front s'.buffer ∨ (s'.buffer.ptok ≤ front s'.buffer ∧ LastEnd s'.buffer.d.bytes s'.buffer.ptok))) : TokOk p k s .tNL s' := by
  have hd : s'.buffer.d = s.buffer.d := by simp only [Buffer.d, ha.input]
  have h1 := hg.pend_le
  have h2 := hg.hi
  rw [hd] at h1
  refine ⟨ha, hg, by rw [hst]; trivial, ?_, ?_, fun _ => ?_, ?_, fun h3 => ?_⟩
  · unfold tBegin tEnd; rw [hls, hle]; exact hp
  · unfold tEnd; rw [hle]; show s'.buffer.pcur ≤ _; omega
  · unfold tBegin; rw [hls]; show s'.buffer.ptok < _; omega
  · rw [hst]; exact hR
  · obtain ⟨h4, h5, h6⟩ := ho h3
    have e : tBegin s' = s'.buffer.ptok := by unfold tBegin; rw [hls]; rfl
    refine ⟨h4, by rw [e]; exact h5, .inr ⟨rfl, hst, by rw [e]; exact h6⟩, ?_, ?_⟩
    · intro l h; rw [hst] at h; cases h
    · intro l h; rw [hst] at h; cases h

/-- Give up looking at the next line. -/
theorem newlineBack_wp {s0 : Lexer} {l : Nat} (h0 : AtEol s0) (hf : Fr s0 s)
    (ht : s.buffer.d.Tabled) (hlc : s.buffer.lineCount ≤ s.buffer.d.lines.length)
    (hl : l < s.buffer.lineCount) (hn : s.buffer.nextline = 0 ∨ (s.buffer.eofp = false ∧ s.buffer.nextline < s.buffer.lineCount ∧ l < s.buffer.nextline ∧
      s.buffer.d.lStart s.buffer.nextline < s.buffer.d.lStop s.buffer.nextline))
    (hne : s.buffer.d.lStart l < s.buffer.d.lStop l) (ha : Adv s0.buffer s.buffer)
    (hp : (s.buffer.eofp = true ∧ s.buffer.lastline = l) ∨ (s.buffer.eofp = false ∧ s.buffer.prevline = some l))
    (hR : ∀ b', BackAt s.buffer l b' → b'.R ≤ s0.buffer.R + 7)
    (hlo : l = s0.buffer.lastline ∨ s0.buffer.pend ≤ s.buffer.d.lStart l)
    (hst : Straight s0.buffer → (s.buffer.nextline ≠ 0 ∧ s.buffer.nextline + 1 = s.buffer.lineCount) ∨
      (s.buffer.nextline = 0 ∧ s.buffer.d.lStop l = s.buffer.d.bytes.length)) :
    Wp (do
      newlineLoop.liftBuf (·.eofNoDecrement)
      Pure.pure (Next.tok (← normalNewline))) (DPost s0) s := by
  obtain ⟨b', h1, h2⟩ := eofNoDecrement_ok ht (by omega) hne hp
  refine Wp.bind ⟨(), { s with buffer := b' }, by simp [newlineLoop.liftBuf, h1, Bind.bind, Except.bind, Pure.pure, Except.pure], ?_⟩
  refine Wp.bind ⟨_, _, rfl, Wp.pure ?_⟩
  have hg := h2.good ht hlc hl hn
  refine ⟨.of_eq hf.2.2.2.1 hf.2.2.2.2, .inr (.newline ?_ hg (hf.1.trans h0.st) (hf.2.1.trans h0.ls) (hf.2.2.1.trans h0.le) ?_ ?_ (hR b' h2) ?_)⟩
  · refine ha.trans ⟨h2.input, ?_, .inr (.inl h2.nl)⟩
    show _ ≤ b'.lineCount; rw [h2.lc]; exact Nat.le_refl _
  · show b'.ptok ≤ b'.pcur; rw [h2.ptok]; exact Nat.le_refl _
  · show b'.ptok < b'.pend; rw [h2.ptok]; exact h2.lt
  · intro h3
    have hd : b'.d = s.buffer.d := by simp only [Buffer.d, h2.input]
    have hd0 : s.buffer.d = s0.buffer.d := by simp only [Buffer.d, ha.input]
    refine ⟨⟨?_, ?_, .inl ?_⟩, ?_, ?_⟩
    · show b'.nextline = 0 → _ ∨ b'.d.lStop b'.lastline = b'.d.bytes.length
      rw [h2.nl, h2.lastline, hd]
      intro e
      rcases hst h3 with h4 | h4
      · exact absurd e h4.1
      · exact .inr h4.2
    · show b'.nextline ≠ 0 → b'.nextline + 1 = b'.lineCount
      rw [h2.nl, h2.lc]
      intro e
      rcases hst h3 with h4 | h4
      · exact h4.2
      · exact absurd h4.1 e
    · show b'.pbeg = b'.d.lStart b'.lastline
      rw [h2.pbeg, h2.lastline, hd]
    · show s0.buffer.ptok ≤ b'.ptok
      rw [h2.ptok]
      rcases hlo with rfl | h4
      · have h5 := h0.ptok
        have h6 := h0.eol
        have h7 := h0.good.stop
        have h8 := h2.pend
        rw [hd0] at h8
        rcases h2.back with h9 | ⟨h9, h10, h11⟩
        · omega
        · by_cases e : s0.buffer.ptok ≤ b'.pcur
          · exact e
          · exfalso
            have e2 : s0.buffer.ptok = b'.pcur + 1 := by omega
            rw [hd, hd0] at h10 h11
            by_cases e3 : s0.buffer.pbeg < s0.buffer.ptok
            · refine h0.ns e3 ?_ ?_
              · rw [e2]; exact h11
              · rw [e2]; exact h10
            · have h12 := h0.lo
              have e4 : s0.buffer.pbeg = b'.pcur + 1 := by omega
              rcases h3.mark with h13 | h13
              · have h14 := h2.lo; have h15 := h2.pbeg
                rw [hd0] at h15
                omega
              · rw [e4] at h13; exact h13 h10
      · have := h2.pbeg; have := h2.lo; have := h0.ptok; have := h0.eol; omega
    · show b'.ptok + 1 ≤ front b' ∨ (b'.ptok ≤ front b' ∧ LastEnd b'.d.bytes b'.ptok)
      rw [h2.ptok]
      rcases hst h3 with ⟨h4, _⟩ | ⟨_, h4⟩
      · refine .inl ?_
        unfold front
        rw [if_neg (by rw [h2.nl]; exact h4)]
        exact h2.lt
      · refine .inr ⟨front_ge hg, ?_⟩
        have h5 : b'.d.bytes.length = b'.pend := by rw [hd, ← h4, ← h2.pend]
        rcases h2.back with h9 | ⟨h9, h10, h11⟩
        · exact .inl (by omega)
        · exact .inr ⟨by omega, h10, h11⟩

/-- Pushing back restores exactly. -/
theorem Wp.pushback_read {Q : Unit → Lexer → Prop} {b : Buffer} {ch : UInt8} (hr : ReadIn b ch s.buffer) (hq : Q () { s with buffer := b }) :
    Wp (Lexer.pushback (some ch)) Q s := by
  refine ⟨(), { s with buffer := b }, ?_, hq⟩
  have h0 : 0 < s.buffer.pcur := by have := hr.lt; omega
  have e : { s.buffer with pcur := s.buffer.pbPos } = b := by
    rw [hr.back]
    conv_lhs => rw [hr.eq]
  simp [Lexer.pushback, Buffer.pushback, pushbackByte_eq _ h0, e, Bind.bind, Except.bind, Pure.pure, Except.pure]

theorem newlineLoop_wp {s0 : Lexer} (h0 : AtEol s0) : ∀ n sp (s : Lexer), NlAt s0 s → s.buffer.R + 2 ≤ n →
    Wp (newlineLoop n sp) (DPost s0) s := by
  intro n
  induction n with
  | zero => intro _ _ _ h; omega
  | succ n ih =>
    intro sp s ha hn
    unfold newlineLoop
    refine Wp.bind (nlRead_wp h0 ha ?_)
    intro c s1 hr hR
    have retry : ∀ ch b1, Fr s0 s1 → OnNext s0.buffer b1 → ReadIn b1 ch s1.buffer →
        Wp (do Lexer.pushback (some ch); Pure.pure (Next.retry sp)) (DPost s0) s1 := by
      intro ch b1 hf hb hr
      refine Wp.bind (Wp.pushback_read hr (Wp.pure ⟨.of_eq hf.2.2.2.1 hf.2.2.2.2, ?_⟩))
      refine ⟨hb.adv, hb.good, hf.1.trans h0.st, hf.2.1.trans h0.ls, hf.2.2.1.trans h0.le, by show b1.R ≤ _; have := hb.meas; omega,
        fun _ => ⟨hb.str, ?_⟩⟩
      show _ ≤ front b1
      have := front_ge hb.good; have := hb.good.lo; have := hb.after; have := h0.ptok; have := h0.eol
      omega
    refine Wp.ite (fun h => ?_) (fun h => ?_)
    · cases hr with
      | next ch b1 s' hf hb hr hm =>
        have hne : ch ≠ 10 := by
          rintro rfl; revert h; decide
        exact ih true s1 ⟨hf, .inr ⟨hb.read hr, hm hne⟩⟩ (by have := hR (by simp); omega)
      | _ => simp [isC] at h
    · refine Wp.ite (fun h => ?_) (fun h => ?_)
      · cases hr with
        | next ch b1 s' hf hb hr hm => exact retry ch b1 hf hb hr
        | _ => simp [isC] at h
      · have main : ∀ leading : Bool, (leading = true → c ≠ none) → Wp (do
            if leading then
              Lexer.pushback c
              Pure.pure (Next.retry sp)
            else if c.isNone then
              newlineLoop.liftBuf (·.eofNoDecrement)
              Pure.pure (Next.tok (← normalNewline))
            else
              let sourceline ← Lexer.liftB fun b => csub b.rubySourceline 1
              Lexer.modB fun b => { b with rubySourceline := sourceline, nextline := b.lastline }
              newlineLoop.liftBuf (·.eofNoDecrement)
              Pure.pure (Next.tok (← normalNewline))) (DPost s0) s1 := by
          intro leading hl
          refine Wp.ite (fun h => ?_) (fun h => ?_)
          · have hl' := hl h
            cases hr with
            | next ch b1 s' hf hb hr hm => exact retry ch b1 hf hb hr
            | _ => exact absurd rfl hl'
          · have hgood : ∀ b1, OnNext s0.buffer b1 → b1.d = s0.buffer.d := fun b1 h => by simp only [Buffer.d, h.input]
            have hstop := h0.good.stop
            have hst := h0.good.start_ge
            have hlt := h0.lt
            have hll := h0.good.ll
            refine Wp.ite (fun h => ?_) (fun h => ?_)
            · cases hr with
              | next => simp at h
              | eof l s' hf hg he hadv hnl hlast hne hR hlo hfin =>
                refine newlineBack_wp (l := l) h0 hf hg.tab hg.lc (by rw [← hlast]; exact hg.ll) (.inl hnl) hne hadv (.inl ⟨he, hlast⟩) ?_ hlo
                  (fun h => .inr ⟨hnl, hfin h⟩)
                intro b' hb
                have : b'.R ≤ s1.buffer.R := by
                  unfold Buffer.R Buffer.unread Buffer.curW Buffer.d
                  rw [hb.input, hb.lc, hb.eofp, he]
                  simp
                omega
              | last s' hf hb hfin =>
                have hd := hgood _ hb
                refine newlineBack_wp (l := s0.buffer.lastline) h0 hf hb.good.tab hb.good.lc (by rw [hb.lc]; omega) (.inl hb.nonl)
                  (by rw [hd]; omega) hb.adv (.inr ⟨hb.noeof, hb.prev⟩) ?_ (.inl rfl)
                  (fun h => .inr ⟨hb.nonl, by rw [hd, ← hstop, hfin h, hd]⟩)
                intro b' hk
                have h1 := hk.near
                have h2 := hb.meas
                have h3 := hk.pbeg
                have : b'.R ≤ s1.buffer.R + 16 := by
                  unfold Buffer.R Buffer.unread Buffer.curW Buffer.d
                  rw [hk.input, hk.lc, hk.eofp, hk.nl, hb.nonl, hb.noeof, hk.lastline]
                  simp only [Bool.false_eq_true, if_false, ne_eq, not_true_eq_false]
                  rw [if_pos h3]
                  omega
                omega
            · cases hr with
              | eof => simp at h
              | last => simp at h
              | next ch b1 s' hf hb hr hm =>
                have hb2 := hb.read hr
                have hd := hgood _ hb2
                refine Wp.bind (Wp.liftB _ (csub_of_le hb2.sl) ?_)
                refine Wp.bind (Wp.modB ?_)
                have hlast := hb2.last
                have hlc := hb2.lc
                have hne2 : s1.buffer.d.lStart s1.buffer.lastline < s1.buffer.d.lStop s1.buffer.lastline := by
                  have h1 := hb2.pbeg; have h2 := hb2.good.stop; have h3 := hb2.good.hi
                  have h4 := hr.lt; have h5 := hb.good.lo; have h6 := hr.same.pbeg
                  omega
                refine newlineBack_wp (l := s0.buffer.lastline) h0 hf hb2.good.tab hb2.good.lc ?_ (.inr ⟨hb2.noeof, ?_, ?_, hne2⟩)
                  ?_ ⟨hb2.input, ?_, .inr (.inr ?_)⟩ (.inr ⟨hb2.noeof, hb2.prev⟩) ?_ (.inl rfl)
                  (fun _ => .inl ⟨by show s1.buffer.lastline ≠ 0; omega, by show s1.buffer.lastline + 1 = s1.buffer.lineCount; omega⟩)
                · show _ < s1.buffer.lineCount; omega
                · show s1.buffer.lastline < s1.buffer.lineCount; omega
                · show _ < s1.buffer.lastline; omega
                · show s1.buffer.d.lStart _ < s1.buffer.d.lStop _; rw [hd]; omega
                · show _ ≤ s1.buffer.lineCount; omega
                · show _ ≤ s1.buffer.lastline; omega
                · intro b' hk
                  have h1 : b'.R ≤ s0.buffer.R := by
                    have e0 := hb2.input
                    have h2 := hb2.good.llen
                    have h3 := hb2.good.tab.next (i := s0.buffer.lineCount - 1) (by omega)
                    have h4 := hb2.good.tab.stop_le h2
                    rw [show s0.buffer.lineCount - 1 + 1 = s0.buffer.lineCount by omega] at h3
                    unfold Buffer.R Buffer.unread Buffer.curW
                    rw [show b'.d = s1.buffer.d by simp only [Buffer.d, hk.input], ← hd, hk.lc, hk.eofp, hk.nl]
                    dsimp only
                    rw [hb2.noeof, hlc, hlast]
                    simp only [Bool.false_eq_true, if_false, ne_eq]
                    rw [hlast] at h4 hne2
                    rw [if_pos (by omega), Nat.add_sub_cancel]
                    omega
                  omega
        refine Wp.ite (fun h => ?_) (fun h => ?_)
        · refine Wp.bind ?_
          refine Wp.map (Wp.peek ?_ ?_)
          · cases hr with
            | next ch b1 s' hf hb hr hm => exact hr.good
            | eof l s' hf hg => exact hg
            | last s' hf hb => exact hb.good
          · intro r _
            exact main _ (fun _ => by rintro rfl; simp [isC] at h)
        · exact main false (by simp)

theorem lexNewline_wp {ts sp : Bool} (h : AtEol s) : Wp (lexNewline ts sp) (DPost s) s := by
  unfold lexNewline
  refine Wp.bind (Wp.modS ?_)
  generalize hs1 : ({ s with tokenSeen := ts } : Lexer) = s1
  have hsame : Same s s1 := by rw [← hs1]; exact ⟨rfl, rfl, rfl, rfl, rfl, rfl⟩
  have h1 : AtEol s1 := by rw [← hs1]; exact ⟨h.good, h.noeof, h.nonl, h.eol, h.lt, h.ptok, h.lo, h.ns, h.st, h.ls, h.le⟩
  refine Wp.mono (Q' := DPost s1) ?_ fun r s' hd => hd.mono hsame.fw.1.adv (.of_eq hsame.2.2.2.2.1 hsame.2.2.2.2.2) (by rw [hsame.1]; exact Nat.le_refl _)
    (by rw [hsame.1]; exact Nat.le_refl _) (by rw [hsame.1]; exact id)
  refine Wp.bind (Wp.getS ?_)
  refine Wp.ite (fun _ => ?_) (fun _ => ?_)
  · refine Wp.bind (Wp.getS ?_)
    refine Wp.ite (fun _ => ?_) (fun _ => ?_)
    · refine Wp.bind ⟨_, _, rfl, Wp.pure ?_⟩
      refine ⟨.of_eq rfl rfl, .inr (.newline (.refl _) h1.good h1.st h1.ls h1.le (Nat.le_of_lt h1.ptok) ?_ ?_ fun h2 => ⟨?_, Nat.le_refl _, .inl ?_⟩)⟩
      · have := h1.ptok; have := h1.eol; show s1.buffer.ptok < s1.buffer.pend; omega
      · show s1.buffer.R ≤ _; omega
      · exact ⟨h2.cur, h2.held, h2.mark⟩
      · show s1.buffer.ptok + 1 ≤ front s1.buffer
        unfold front; rw [if_pos h1.nonl]; exact h1.ptok
    · exact Wp.pure ⟨.refl _, .refl _, h1.good, h1.st, h1.ls, h1.le, by omega,
        fun h2 => ⟨h2, by have := front_ge h1.good; have := h1.ptok; omega⟩⟩
  · refine Wp.bind (Wp.fuel ?_)
    exact newlineLoop_wp h1 _ _ _ ⟨.refl _, .inl rfl⟩ (by have := fuel_ok h1.good rfl; omega)

end Verif.Lexer
