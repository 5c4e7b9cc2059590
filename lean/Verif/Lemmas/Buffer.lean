import Verif.Model.Buffer
import Verif.Lemmas.Lines
import Mathlib.Tactic.ByContra
/-!
The reader: invariant `Good`, the measure `R`, and what `nextc` and `pushback` do from a good state.
-/
namespace Verif
open Spec

/-- The byte table of a buffer. -/
abbrev Buffer.d (b : Buffer) : DecodedInput := b.input.decoded

/-- What is assumed of a custom decoder: it does not change the bytes. -/
def Input.DecOk (i : Input) : Prop :=
  ∀ f, i.decoder = some f → ∀ enc bs, f enc i.decoded.bytes = .ok bs → bs = i.decoded.bytes

/-- Invariant of the reader. -/
structure Good (b : Buffer) : Prop where
  tab : b.d.Tabled
  lc : b.lineCount ≤ b.d.lines.length
  ll : b.lastline < b.lineCount
  nl : b.nextline < b.lineCount
  nl2 : b.nextline ≠ 0 → b.eofp = false ∧ b.lastline < b.nextline ∧ b.d.lStart b.nextline < b.d.lStop b.nextline
  stop : b.pend = b.d.lStop b.lastline
  start : b.pbeg = b.d.lStart b.lastline ∨ (b.d.lStart b.lastline = 0 ∧ b.pbeg = 3)
  lo : b.pbeg ≤ b.pcur
  hi : b.pcur ≤ b.pend
  ns : b.pbeg < b.pcur → b.pcur < b.pend → b.d.bytes[b.pcur]? = some 10 → b.d.bytes[b.pcur - 1]? ≠ some 13

/-- Bytes of the lines not loaded yet. -/
def Buffer.unread (b : Buffer) : Nat := b.d.bytes.length - b.d.lStop (b.lineCount - 1)

/-- Weight of what is left on the current line. -/
def Buffer.curW (b : Buffer) : Nat :=
  if b.eofp then 0
  else if b.nextline ≠ 0 then 8 * (b.d.lStop b.nextline - b.d.lStart b.nextline)
  else if b.pbeg = b.d.lStart b.lastline then 8 * (b.pend - b.pcur) else 32 * (b.pend - b.pcur)

/-- The measure: what is left to read. -/
def Buffer.R (b : Buffer) : Nat := 8 * b.unread + 17 * (b.d.lines.length - b.lineCount) + b.curW

/-- Fields that stay the same while reading within one line. -/
structure SameLine (b b' : Buffer) : Prop where
  input : b'.input = b.input
  lineCount : b'.lineCount = b.lineCount
  prevline : b'.prevline = b.prevline
  lastline : b'.lastline = b.lastline
  nextline : b'.nextline = b.nextline
  pbeg : b'.pbeg = b.pbeg
  pend : b'.pend = b.pend
  sl : b'.rubySourceline = b.rubySourceline

theorem SameLine.refl (b : Buffer) : SameLine b b := ⟨rfl, rfl, rfl, rfl, rfl, rfl, rfl, rfl⟩
theorem SameLine.trans {a b c : Buffer} (h : SameLine a b) (h' : SameLine b c) : SameLine a c :=
  ⟨h'.input.trans h.input, h'.lineCount.trans h.lineCount, h'.prevline.trans h.prevline, h'.lastline.trans h.lastline,
   h'.nextline.trans h.nextline, h'.pbeg.trans h.pbeg, h'.pend.trans h.pend, h'.sl.trans h.sl⟩

/-- A good state inside a line: something was read from this line, and not its line feed. -/
structure Mid (b : Buffer) : Prop extends Good b where
  lt : b.pbeg < b.pcur
  nolf : b.d.bytes[b.pcur - 1]? ≠ some 10
  nonl : b.nextline = 0

namespace Good
variable {b : Buffer}

theorem pend_le (h : Good b) : b.pend ≤ b.d.bytes.length := by
  rw [h.stop]; exact h.tab.stop_le (by have := h.lc; have := h.ll; omega)

theorem start_ge (h : Good b) : b.d.lStart b.lastline ≤ b.pbeg := by
  rcases h.start with h | h <;> omega

theorem start_le3 (h : Good b) : b.pbeg ≤ b.d.lStart b.lastline + 3 := by
  rcases h.start with h | h <;> omega

theorem llen (h : Good b) : b.lastline < b.d.lines.length := by have := h.lc; have := h.ll; omega

theorem byte (h : Good b) {j : Nat} (hj : j < b.pend) : ∃ c, b.d.bytes[j]? = some c := by
  have := h.pend_le
  exact ⟨b.d.bytes[j], by simp [show j < b.d.bytes.length by omega]⟩

/-- A byte before the last one of the line is not a line feed. -/
theorem inner (h : Good b) {j : Nat} (h1 : b.pbeg ≤ j) (h2 : j + 1 < b.pend) : b.d.bytes[j]? ≠ some 10 :=
  h.tab.inner h.llen (by have := h.start_ge; omega) (by rw [← h.stop]; exact h2)

/-- Reading on after a byte that is not a line feed stays on the line. -/
theorem span (h : Good b) {i k : Nat} (h1 : b.pbeg ≤ i) (h2 : i < b.pend)
    (hk : i + k ≤ b.d.bytes.length) (hno : ∀ j, i ≤ j → j < i + k → b.d.bytes[j]? ≠ some 10) : i + k ≤ b.pend := by
  by_cases e : b.lastline + 1 < b.d.lines.length
  · have h3 := h.tab.last_lf e
    rw [← h.stop] at h3
    by_contra hc
    exact hno (b.pend - 1) (by omega) (by omega) h3
  · have h3 := h.tab.last_stop
    rw [show b.d.lines.length - 1 = b.lastline by have := h.llen; omega, ← h.stop] at h3
    omega

theorem unread_le (h : Good b) : b.unread + b.pend ≤ b.d.bytes.length := by
  have h1 := h.tab.stop_mono (i := b.lastline) (j := b.lineCount - 1) (by have := h.ll; omega)
    (by have := h.ll; have := h.lc; omega)
  have h2 := h.tab.stop_le (i := b.lineCount - 1) (by have := h.ll; have := h.lc; omega)
  rw [h.stop, Buffer.unread]; omega

/-- The loops have enough steps. -/
theorem R_le (h : Good b) : b.R + 64 ≤ 64 * (b.d.bytes.length + 1) := by
  have h1 := h.unread_le
  have h2 := h.tab.count
  have h5 : b.unread ≤ b.d.bytes.length := by omega
  have h3 : b.curW ≤ 32 * (b.d.bytes.length - b.unread) := by
    unfold Buffer.curW
    split
    · omega
    · split
      · have h4 := h.tab.stop_mono (i := b.nextline) (j := b.lineCount - 1) (by have := h.nl; omega)
          (by have := h.ll; have := h.lc; omega)
        have h6 := h.tab.stop_le (i := b.lineCount - 1) (by have := h.ll; have := h.lc; omega)
        unfold Buffer.unread at *; omega
      · split <;> omega
  have h7 := h.ll
  unfold Buffer.R
  omega

end Good

/-- Position after pushing a byte back. -/
def Buffer.pbPos (b : Buffer) : Nat :=
  if b.pcur - 1 > b.pbeg ∧ b.d.bytes[b.pcur - 1]? = some 10 ∧ b.d.bytes[b.pcur - 1 - 1]? = some 13 then b.pcur - 2
  else b.pcur - 1

theorem pushbackByte_eq (b : Buffer) (h : 0 < b.pcur) : b.pushbackByte = .ok { b with pcur := b.pbPos } := by
  unfold Buffer.pushbackByte Buffer.pbPos
  rw [csub_of_le h]
  simp only [bind, Except.bind, Buffer.byteAt, Input.byteAt, pure, Except.pure]
  split <;> simp_all [Nat.sub_sub]

/-- Measure on one line. -/
theorem R_sameLine {b b' : Buffer} (h : SameLine b b') (hn : b.nextline = 0) (he : b.eofp = false)
    (hp : b.pcur ≤ b'.pcur) (hc : b'.pcur ≤ b'.pend) : b'.R + 8 * (b'.pcur - b.pcur) ≤ b.R := by
  unfold Buffer.R Buffer.unread Buffer.curW Buffer.d
  rw [h.input, h.lineCount, h.nextline, h.lastline, h.pbeg, h.pend, he, hn]
  have := h.pend
  simp only [Bool.false_eq_true, if_false, ne_eq, not_true_eq_false]
  split <;> split <;> omega

theorem R_mid {b b' : Buffer} (h : Mid b) (h' : Good b') (hs : SameLine b b') (hp : b.pcur ≤ b'.pcur)
    (he : b.eofp = true → b'.eofp = true ∧ b'.pcur = b.pcur) : b'.R + 8 * (b'.pcur - b.pcur) ≤ b.R := by
  by_cases e : b.eofp = true
  · have h1 := (he e).2
    have : b'.R = b.R := by
      unfold Buffer.R Buffer.unread Buffer.curW Buffer.d
      rw [hs.input, hs.lineCount, hs.nextline, hs.lastline, hs.pbeg, hs.pend, e, (he e).1]
      simp
    omega
  · exact R_sameLine hs h.nonl (by simpa using e) hp h'.hi

/-- What reading one character `ch` within a line does. -/
structure ReadIn0 (b : Buffer) (ch : UInt8) (b' : Buffer) : Prop where
  eq : b' = { b with pcur := b'.pcur }
  noeof : b.eofp = false
  lt : b.pcur < b'.pcur
  good : Good b'
  byte : ch ≠ 10 → b'.pcur = b.pcur + 1 ∧ b.d.bytes[b.pcur]? = some ch
  lf : ch = 10 → b'.pcur = b'.pend ∧ b.d.bytes[b'.pcur - 1]? = some 10
  back : b'.pbPos = b.pcur

/-- Also: it is what the code does. -/
structure ReadIn (b : Buffer) (ch : UInt8) (b' : Buffer) : Prop extends ReadIn0 b ch b' where
  rd : b.readByte = .ok (some ch, b')

/-- Reading a byte where there is one. -/
theorem readByte_in {b : Buffer} (h : Good b) (he : b.eofp = false) (hlt : b.pcur < b.pend) :
    ∃ ch b', b.readByte = .ok (some ch, b') ∧ ReadIn b ch b' := by
  suffices hh : ∃ ch b', b.readByte = .ok (some ch, b') ∧ ReadIn0 b ch b' by
    obtain ⟨ch, b', e, h⟩ := hh
    exact ⟨ch, b', e, { h with rd := e }⟩
  obtain ⟨c, hc⟩ := h.byte hlt
  unfold Buffer.readByte
  simp only [Input.byteAt]
  rw [hc]; dsimp only
  have hends : c = 10 → b.pcur + 1 = b.pend := by
    intro e
    by_contra hne
    exact h.inner h.lo (by have := h.hi; omega) (by rw [hc, e])
  have plain : Good { b with pcur := b.pcur + 1 } → (b.pbeg < b.pcur → c = 10 → b.d.bytes[b.pcur - 1]? ≠ some 13) →
      ReadIn0 b c { b with pcur := b.pcur + 1 } := by
    intro hg hcr
    refine ⟨rfl, he, Nat.lt_succ_self _, hg, fun _ => ⟨rfl, hc⟩, fun e => ⟨hends e, ?_⟩, ?_⟩
    · simpa [e] using hc
    · unfold Buffer.pbPos
      dsimp only [Buffer.d]
      simp only [Nat.add_sub_cancel]
      rw [if_neg]
      rintro ⟨h1, h2, h3⟩
      rw [hc] at h2
      exact hcr h1 (by simpa using h2) h3
  have hgood : c ≠ 13 → Good { b with pcur := b.pcur + 1 } := fun h13 =>
    { h with lo := by have := h.lo; dsimp; omega
             hi := by dsimp; omega
             ns := by
              intro _ _ _
              dsimp only [Buffer.d]
              simp only [Nat.add_sub_cancel]
              rw [hc]; simpa using h13 }
  by_cases h13 : c = 13
  · rw [if_pos h13]
    unfold Buffer.parserCr Buffer.peek Buffer.peekN Buffer.isEolN
    dsimp only
    simp only [Nat.add_zero]
    by_cases hend : b.pcur + 1 ≥ b.pend
    · simp only [hend, decide_true, if_true, bind, Except.bind, pure, Except.pure, Bool.false_eq_true, if_false]
      refine ⟨c, _, rfl, plain ?_ (fun _ e => by simp [h13] at e)⟩
      exact { h with lo := by have := h.lo; dsimp; omega
                     hi := by dsimp; omega
                     ns := by intro _ h2; dsimp at h2; omega }
    · obtain ⟨c2, hc2⟩ := h.byte (j := b.pcur + 1) (by omega)
      simp only [hend, decide_false, Bool.false_eq_true, if_false, Input.uncheckedByteAt]
      rw [hc2]; dsimp only
      simp only [bind, Except.bind, pure, Except.pure]
      by_cases h10 : c2 = 10
      · simp only [h10, beq_self_eq_true, if_true]
        have hends2 : b.pcur + 2 = b.pend := by
          by_contra hne
          exact h.inner (j := b.pcur + 1) (by have := h.lo; omega) (by omega) (by rw [hc2, h10])
        refine ⟨10, _, rfl, rfl, he, by dsimp; omega, ?_, fun h => absurd rfl h, fun _ => ⟨hends2, ?_⟩, ?_⟩
        · exact { h with lo := by have := h.lo; dsimp; omega
                         hi := by dsimp; omega
                         ns := by intro _ h2; dsimp at h2; omega }
        · dsimp only; rw [show b.pcur + 1 + 1 - 1 = b.pcur + 1 by omega, hc2, h10]
        · unfold Buffer.pbPos
          dsimp only [Buffer.d]
          rw [if_pos]
          · omega
          · refine ⟨by have := h.lo; omega, ?_, ?_⟩
            · rw [show b.pcur + 1 + 1 - 1 = b.pcur + 1 by omega, hc2, h10]
            · rw [show b.pcur + 1 + 1 - 1 - 1 = b.pcur by omega, hc, h13]
      · have : (10 == c2) = false := by simpa using fun e : (10 : UInt8) = c2 => h10 e.symm
        simp only [this, Bool.false_eq_true, if_false]
        refine ⟨c, _, rfl, plain ?_ (fun _ e => by simp [h13] at e)⟩
        exact { h with lo := by have := h.lo; dsimp; omega
                       hi := by dsimp; omega
                       ns := by
                        intro _ _ h3
                        dsimp only [Buffer.d] at h3
                        rw [hc2] at h3
                        exact absurd (by simpa using h3) h10 }
  · rw [if_neg h13]
    refine ⟨c, _, rfl, plain (hgood h13) ?_⟩
    intro h1 h2 h3
    exact h.ns h1 hlt (by rw [hc, h2]) h3

/-- A new line was loaded. -/
structure Loaded (b b' : Buffer) : Prop where
  good : Good b'
  input : b'.input = b.input
  eofp : b'.eofp = false
  was : b.eofp = false
  nextline : b'.nextline = 0
  bol : b'.pcur = b'.pbeg
  start : b'.pbeg = b'.d.lStart b'.lastline
  ptok : b'.ptok = b'.pcur
  prev : b'.prevline = some b.lastline
  later : b.lastline < b'.lastline
  sl : 0 < b'.rubySourceline
  after : b.pend ≤ b'.pcur
  meas : b'.R ≤ b.R
  atEnd : b.nextline = 0 → b.pcur = b.pend ∧ b'.R + 17 ≤ b.R
  fresh : b.nextline = 0 → b'.lastline = b.lineCount ∧ b'.lineCount = b.lineCount + 1
  held : b.nextline ≠ 0 → b'.lastline = b.nextline ∧ b'.lineCount = b.lineCount
  hli : b'.heredocLineIndent = b.heredocLineIndent
  hi : b'.heredocIndent = b.heredocIndent

theorem loadLine_loaded {b : Buffer} (h : Good b) (he : b.eofp = false) {lc v : Nat} {cr : Bool}
    (hv : (v = b.nextline ∧ v ≠ 0 ∧ lc = b.lineCount) ∨
      (b.nextline = 0 ∧ v = b.lineCount ∧ lc = b.lineCount + 1 ∧ lc ≤ b.d.lines.length ∧ b.pcur = b.pend)) :
    ∃ b', ({ b with nextline := 0, lineCount := lc, crSeen := cr } : Buffer).loadLine v = .ok b' ∧ Loaded b b' := by
  have hlt : v < b.d.lines.length := by have := h.lc; have := h.nl; omega
  have hlater : b.lastline < v := by
    have := h.ll
    rcases hv with hv | hv
    · rw [hv.1]; exact (h.nl2 (by omega)).2.1
    · omega
  obtain ⟨l, hl, hs, hst⟩ := h.tab.lineAt hlt
  have hl' : b.input.lineAt v = .ok l := hl
  have h1 := h.tab.start_le hlt
  have h2 := h.tab.stop_le_start hlater hlt
  unfold Buffer.loadLine Buffer.tokenFlush Buffer.setPtok
  simp only [bind, Except.bind, pure, Except.pure, hl']
  refine ⟨_, rfl, ?_⟩
  have hR : ∀ b' : Buffer, b'.input = b.input → b'.lineCount = lc → b'.nextline = 0 → b'.eofp = false →
      b'.lastline = v → b'.pbeg = l.start → b'.pcur = l.start → b'.pend = l.stop →
      b'.R ≤ b.R ∧ (b.nextline = 0 → b.pcur = b.pend ∧ b'.R + 17 ≤ b.R) := by
    intro b' e1 e2 e3 e4 e5 e6 e7 e8
    unfold Buffer.R Buffer.unread Buffer.curW Buffer.d
    rw [e1, e2, e3, e4, e5, e6, e7, e8, hs, hst, he]
    simp only [Bool.false_eq_true, if_false, ne_eq, not_true_eq_false, if_true]
    rcases hv with ⟨rfl, hne, rfl⟩ | ⟨hn, rfl, rfl, hle, hp⟩
    · rw [if_pos hne]; simp only [hne]; simp
    · rw [hn]
      simp only [not_true_eq_false, if_false]
      have h3 := h.tab.next (i := b.lineCount - 1) (by have := h.ll; omega)
      have hlc : b.lineCount - 1 + 1 = b.lineCount := by have := h.ll; omega
      rw [hlc] at h3
      have h4 := h.tab.stop_le hlt
      rw [h3] at h1
      simp only [Buffer.d] at *
      rw [h3, Nat.add_sub_cancel]
      constructor
      · split <;> omega
      · intro _; constructor
        · exact hp
        · split <;> omega
  split
  all_goals
    exact {
      good := {
        tab := h.tab
        lc := by have := h.lc; dsimp [Buffer.d] at *; omega
        ll := by have := h.nl; dsimp; omega
        nl := by have := h.ll; dsimp; omega
        nl2 := fun h => absurd rfl h
        stop := hst
        start := Or.inl hs
        lo := Nat.le_refl _
        hi := by dsimp [Buffer.d] at *; omega
        ns := fun h => absurd h (Nat.lt_irrefl _) }
      input := rfl
      eofp := he
      was := he
      nextline := rfl
      bol := rfl
      start := hs
      ptok := rfl
      prev := rfl
      later := hlater
      sl := Nat.succ_pos _
      after := by rw [h.stop]; dsimp [Buffer.d] at *; omega
      meas := by refine (hR _ ?_ ?_ ?_ ?_ ?_ ?_ ?_ ?_).1 <;> first | rfl | exact he
      atEnd := by refine (hR _ ?_ ?_ ?_ ?_ ?_ ?_ ?_ ?_).2 <;> first | rfl | exact he
      fresh := by intro h0; dsimp only; omega
      held := by intro h0; dsimp only; omega
      hli := rfl
      hi := rfl }

/-- What `nextc` may do. -/
inductive NextC (b : Buffer) : MB → Buffer → Prop where
  | here (ch b') : b.nextline = 0 → ReadIn b ch b' → NextC b (some ch) b'
  | load (ch b1 b') : Loaded b b1 → ReadIn b1 ch b' → NextC b (some ch) b'
  | eof : b.eofp = true → NextC b none b
  | eofNow : b.eofp = false → b.nextline = 0 → b.pcur = b.pend →
      ((b.pbeg < b.pend ∧ b.d.bytes[b.pend - 1]? ≠ some 10) ∨ b.lineCount = b.d.lines.length) → NextC b none { b with eofp := true }
  | eofLoad (b1) : Loaded b b1 → b1.pcur = b1.pend → b1.pend = b1.d.bytes.length → b1.R + 17 ≤ b.R →
      NextC b none b1

theorem readByte_loaded {b b1 : Buffer} (hg : Good b) (h : Loaded b b1) : ∃ c b', b1.readByte = .ok (c, b') ∧ NextC b c b' := by
  by_cases hlt : b1.pcur < b1.pend
  · obtain ⟨ch, b', e, hr⟩ := readByte_in h.good h.eofp hlt
    exact ⟨_, _, e, .load _ _ _ h hr⟩
  · have hpe : b1.pcur = b1.pend := by have := h.good.hi; omega
    have hend : b1.pend = b1.d.bytes.length := by
      by_cases e : b1.lastline + 1 < b1.d.lines.length
      · have h1 := h.good.tab.nonempty e
        have := h.start; have := h.bol; have := h.good.stop
        omega
      · have h3 := h.good.tab.last_stop
        rw [show b1.d.lines.length - 1 = b1.lastline by have := h.good.llen; omega, ← h.good.stop] at h3
        exact h3
    have hR : b1.R + 17 ≤ b.R := by
      by_cases e : b.nextline = 0
      · exact (h.atEnd e).2
      · have h1 := (hg.nl2 e).2.2
        have h2 := (h.held e).1
        have h3 := h.start; have h4 := h.bol; have h5 := h.good.stop
        simp only [Buffer.d, h.input, h2] at h1 h3 h5
        omega
    refine ⟨none, b1, ?_, .eofLoad _ h hpe hend hR⟩
    unfold Buffer.readByte
    simp only [Input.byteAt]
    rw [show b1.input.decoded.bytes[b1.pcur]? = none from by
      have : b1.input.decoded.bytes.length ≤ b1.pcur := by rw [hpe, hend]; exact Nat.le_refl _
      simp [this]]

theorem nextlineFn_eof {b : Buffer} (hn : b.nextline = 0) (he : b.eofp = true) : b.nextlineFn = .ok (false, b) := by
  have hself : { b with nextline := 0 } = b := by cases b; simp_all
  unfold Buffer.nextlineFn
  dsimp only
  rw [if_pos hn, if_pos he]
  exact congrArg (fun x => Except.ok (false, x)) hself

theorem nextlineFn_here {b : Buffer} (h : Good b) (hn : b.nextline = 0) (he : b.eofp = false) (hpe : b.pcur = b.pend) :
    (b.nextlineFn = .ok (false, { b with eofp := true }) ∧ ((b.pbeg < b.pend ∧ b.d.bytes[b.pend - 1]? ≠ some 10) ∨ b.lineCount = b.d.lines.length)) ∨
    ∃ b1, b.nextlineFn = .ok (true, b1) ∧ Loaded b b1 := by
  have hgoto : ({ b with nextline := 0, eofp := true } : Buffer).gotoEol = { b with eofp := true } := by
    cases b; simp_all [Buffer.gotoEol]
  have hget : (b.lineCount = b.d.lines.length ∧ ({ b with nextline := 0 } : Buffer).getline = none) ∨
      ∃ b1, ({ b with nextline := 0, lineCount := b.lineCount + 1, crSeen := false } : Buffer).loadLine b.lineCount
        = .ok b1 ∧ Loaded b b1 ∧ ({ b with nextline := 0 } : Buffer).getline
          = some (b.lineCount, { b with nextline := 0, lineCount := b.lineCount + 1 }) := by
    unfold Buffer.getline Input.linesCount
    by_cases hlc : b.lineCount < b.d.lines.length
    · right
      obtain ⟨b1, e1, hl⟩ := loadLine_loaded (cr := false) (lc := b.lineCount + 1) (v := b.lineCount) h he
        (.inr ⟨hn, rfl, rfl, hlc, hpe⟩)
      exact ⟨b1, e1, hl, by dsimp only; rw [if_pos hlc]⟩
    · left
      exact ⟨by have := h.lc; omega, by dsimp only; rw [if_neg hlc]⟩
  unfold Buffer.nextlineFn
  dsimp only
  rw [if_pos hn, if_neg (by simp [he])]
  by_cases hlt : b.pend > b.pbeg
  · obtain ⟨c, hc⟩ := h.byte (j := b.pend - 1) (by omega)
    rw [if_pos hlt]
    simp only [Input.uncheckedByteAt]
    rw [hc]
    simp only [Functor.map, Except.map, bind, Except.bind, pure, Except.pure]
    by_cases h10 : (c != 10) = true
    · simp only [h10, if_true]
      exact .inl ⟨congrArg (fun x => Except.ok (false, x)) hgoto, .inl ⟨hlt, by simpa using h10⟩⟩
    · simp only [h10, if_false, Bool.false_eq_true]
      rcases hget with ⟨h1, h2⟩ | ⟨b1, h1, h2, h3⟩
      · rw [h2]
        exact .inl ⟨congrArg (fun x => Except.ok (false, x)) hgoto, .inr h1⟩
      · rw [h3]; dsimp only; rw [h1]
        exact .inr ⟨b1, rfl, h2⟩
  · rw [if_neg hlt]
    simp only [bind, Except.bind, pure, Except.pure, Bool.false_eq_true, if_false]
    rcases hget with ⟨h1, h2⟩ | ⟨b1, h1, h2, h3⟩
    · rw [h2]
      exact .inl ⟨congrArg (fun x => Except.ok (false, x)) hgoto, .inr h1⟩
    · rw [h3]; dsimp only; rw [h1]
      exact .inr ⟨b1, rfl, h2⟩

theorem nextc_good {b : Buffer} (h : Good b) : ∃ c b', b.nextc = .ok (c, b') ∧ NextC b c b' := by
  unfold Buffer.nextc
  by_cases hin : b.pcur = b.pend ∨ b.eofp = true ∨ b.nextline ≠ 0
  · rw [if_pos hin]
    by_cases hv : b.nextline = 0
    · by_cases he : b.eofp = true
      · rw [nextlineFn_eof hv he]
        exact ⟨none, b, rfl, .eof he⟩
      · have he' : b.eofp = false := by simpa using he
        have hpe : b.pcur = b.pend := by
          rcases hin with h | h | h
          · exact h
          · exact absurd h he
          · exact absurd hv h
        rcases nextlineFn_here h hv he' hpe with ⟨h1, h2⟩ | ⟨b1, h1, h2⟩
        · rw [h1]
          exact ⟨_, _, rfl, .eofNow he' hv hpe h2⟩
        · rw [h1]
          exact readByte_loaded h h2
    · unfold Buffer.nextlineFn
      dsimp only
      rw [if_neg hv]
      obtain ⟨b1, e1, hl⟩ := loadLine_loaded (cr := b.crSeen) (lc := b.lineCount) (v := b.nextline) h (h.nl2 hv).1
        (.inl ⟨rfl, hv, rfl⟩)
      simp only [bind, Except.bind, pure, Except.pure]
      rw [e1]
      exact readByte_loaded h hl
  · rw [if_neg hin]
    simp only [not_or, Bool.not_eq_true, ne_eq, Classical.not_not] at hin
    obtain ⟨ch, b', e, hr⟩ := readByte_in h hin.2.1 (by have := h.hi; omega)
    exact ⟨_, _, e, .here _ _ hin.2.2 hr⟩

end Verif
