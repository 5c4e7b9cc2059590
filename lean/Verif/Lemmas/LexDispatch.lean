import Verif.Lemmas.LexNewline
/-! The branches of the retry loop. -/
namespace Verif.Lexer
variable {s : Lexer}

/-- The state after the first character `c` of a token was read. -/
structure At (s : Lexer) (c : UInt8) : Prop where
  good : Good s.buffer
  noeof : s.buffer.eofp = false
  nonl : s.buffer.nextline = 0
  lt : s.buffer.pbeg < s.buffer.pcur
  lo : s.buffer.pbeg ≤ s.buffer.ptok
  tok : s.buffer.ptok < s.buffer.pcur
  ns : s.buffer.pbeg < s.buffer.ptok → s.buffer.d.bytes[s.buffer.ptok]? = some 10 → s.buffer.d.bytes[s.buffer.ptok - 1]? ≠ some 13
  plain : c ≠ 10 → Mid s.buffer ∧ s.buffer.ptok + 1 = s.buffer.pcur ∧ s.buffer.d.bytes[s.buffer.ptok]? = some c
  lf : c = 10 → s.buffer.pcur = s.buffer.pend
  st : s.strterm = none
  ls : s.lvalStart = none
  le : s.lvalEnd = none
  small : Small s.buffer
  dec : s.buffer.input.DecOk

theorem Loc.adv {a b : Lexer} (h : Loc a b) : Adv a.buffer b.buffer := h.1.fw.adv
theorem Loc.com {a b : Lexer} (h : Loc a b) : Com a b := h.2.com

theorem OpPost.mono {a b s' : Lexer} {r : Next} (h : Loc a b) (hp : OpPost b r s') : OpPost a r s' := by
  obtain ⟨t, h1, h2, h3, h4, h5⟩ := hp
  exact ⟨t, h1, h2, h3.mono h, h4.trans h.2.2.2.2.1, h5.trans h.2.2.2.2.2⟩

theorem At.spost {c : UInt8} (h : At s c) {t : Tok} {s' : Lexer} (hp : SPost s t s') (ht : t ≠ .tNL) :
    t = .END_OF_INPUT ∨ TokOk s.buffer.ptok (s.buffer.R + 7) s t s' := by
  refine hp.imp id ?_
  rintro ⟨h1, h2, h3, h4, h5⟩
  have hd : s'.buffer.d = s.buffer.d := by simp only [Buffer.d, h1.same.input]
  have hR := h1.meas
  have hst : StOk s'.buffer s'.strterm ∧ stW s.buffer.d s'.strterm ≤ 4 := by
    rcases h5 with h5 | ⟨l, h5, h6⟩
    · rw [h5, h.st]; exact ⟨trivial, by simp [stW]⟩
    · rw [h5]; exact ⟨(by intro e he; rw [h6] at he; cases he), (strW_le l).1⟩
  refine ⟨h1.fw.adv, h2, hst.1, ?_, ?_, fun e => absurd e ht, by have := hst.2; omega, fun h6 => ⟨h6.same h1.same, ?_, .inl ⟨ht, ?_, .inr ?_⟩, ?_, ?_⟩⟩
  · unfold tBegin tEnd; rw [h3, h4, h.ls, h.le]; exact h1.ptok (Nat.le_of_lt h.tok)
  · unfold tEnd; rw [h4, h.le, ← hd]; exact Good.pcur_le h2
  · unfold tBegin; rw [h3, h.ls]; exact h1.low _ (Nat.le_refl _) h.tok
  · rw [h1.same.nextline]; exact h.nonl
  · unfold tEnd; rw [h4, h.le]; exact Nat.le_refl _
  · intro l e
    rcases h5 with h5 | ⟨l', h5, h6⟩
    · rw [h5, h.st] at e; cases e
    · rw [h5] at e; cases e; exact h6
  · intro l e
    rcases h5 with h5 | ⟨l', h5, h6⟩
    · rw [h5, h.st] at e; cases e
    · rw [h5] at e; cases e

theorem At.op {c : UInt8} (h : At s c) {r : Next} {s' : Lexer} (hp : OpPost s r s') : DPost s r s' := by
  obtain ⟨t, rfl, h2, h3, h4, h5⟩ := hp
  exact ⟨.of_eq h4 h5, h.spost h3 h2⟩

/-- A token read by a function that does not touch the recorded comments. -/
theorem At.tok_wp {c : UInt8} (h : At s c) {x : LexM Tok} (hx : Wp x (SPost s) s) (hr : Ret TN x) (hq : Quiet x) :
    Wp (do Pure.pure (Next.tok (← x))) (DPost s) s := by
  refine Wp.bind (((hx.ret hr).quiet hq).mono ?_)
  rintro t s' ⟨⟨h1, h2⟩, h3, h4⟩
  exact Wp.pure ⟨.of_eq h3 h4, h.spost h1 h2⟩

theorem At.retry {c : UInt8} (h : At s c) {s' : Lexer} {b : Bool} (hl : Loc s s') (hg : Good s'.buffer) : DPost s (.retry b) s' :=
  ⟨hl.com, hl.adv, hg, hl.2.1.trans h.st, hl.2.2.1.trans h.ls, hl.2.2.2.1.trans h.le, by have := hl.1.meas; omega,
    fun h1 => ⟨h1.same hl.1.same, by have := front_ge hg; have := hl.1.pcur; have := h.tok; omega⟩⟩

theorem At.ident {c : UInt8} (h : At s c) {s' : Lexer} (hl : Loc s s') (hm : Mid s'.buffer) (he : s'.buffer.eofp = false) : DPost s .ident s' :=
  ⟨hl.com, hl.adv, hm, he, hl.1.ptok (Nat.le_of_lt h.tok), hl.2.1.trans h.st, hl.2.2.1.trans h.ls, hl.2.2.2.1.trans h.le, by have := hl.1.meas; omega,
    fun h1 => ⟨h1.same hl.1.same, hl.1.low _ (Nat.le_refl _) h.tok, by have := hl.1.pcur; have := h.tok; omega⟩⟩

/-! ### Comments -/

theorem At.lineComment (h : At s 35) : Spec.LineComment s.buffer.d.bytes s.buffer.ptok s.buffer.pend := by
  obtain ⟨hm, h1, h2⟩ := h.plain (by decide)
  have hhi := h.good.hi
  exact ⟨h2, by omega, h.good.pend_le, fun k h3 h4 => h.good.inner (by have := h.lo; omega) h4, h.good.lineEnd⟩

theorem AtEol_iff : AtEol s ↔ Good s.buffer ∧ s.buffer.eofp = false ∧ s.buffer.nextline = 0 ∧ s.buffer.pcur = s.buffer.pend ∧
    s.buffer.pbeg < s.buffer.pend ∧ s.buffer.ptok < s.buffer.pcur ∧ s.buffer.pbeg ≤ s.buffer.ptok ∧
    (s.buffer.pbeg < s.buffer.ptok → s.buffer.d.bytes[s.buffer.ptok]? = some 10 → s.buffer.d.bytes[s.buffer.ptok - 1]? ≠ some 13) ∧ s.strterm = none ∧ s.lvalStart = none ∧ s.lvalEnd = none :=
  ⟨fun h => ⟨h.good, h.noeof, h.nonl, h.eol, h.lt, h.ptok, h.lo, h.ns, h.st, h.ls, h.le⟩,
   fun ⟨h1, h2, h3, h4, h5, h6, h7, h8, h9, h10, h11⟩ => ⟨h1, h2, h3, h4, h5, h6, h7, h8, h9, h10, h11⟩⟩

theorem Wp.gotoEolP {Q : Unit → Lexer → Prop} (hg : Good s.buffer) (hn : s.buffer.nextline = 0) (he : s.buffer.eofp = false)
    (hq : ∀ s', Loc s s' → Good s'.buffer → s'.buffer.pcur = s.buffer.pend → s'.buffer.eofp = false → s'.buffer.nextline = 0 →
      s'.buffer.ptok = s.buffer.ptok → Q () s') : Wp Lexer.gotoEol Q s := by
  obtain ⟨a, s', e, h⟩ := Wp.gotoEol (Q := fun _ s' => Loc s s' ∧ Good s'.buffer ∧ s'.buffer.pcur = s.buffer.pend ∧ s'.buffer.eofp = false ∧
    s'.buffer.nextline = 0) hg hn he (fun s' h1 h2 h3 h4 h5 => ⟨h1, h2, h3, h4, h5⟩)
  refine ⟨a, s', e, hq s' h.1 h.2.1 h.2.2.1 h.2.2.2.1 h.2.2.2.2 ?_⟩
  cases e; rfl

theorem lexComment_wp {x : Ext} {ts sp : Bool} (h : At s 35) : Wp (lexComment x ts sp) (DPost s) s := by
  unfold lexComment
  refine Wp.bind (Wp.modS ?_)
  obtain ⟨hm, ht1, ht2⟩ := h.plain (by decide)
  have hhi := h.good.hi
  have hlc := h.lineComment
  refine Wp.bind (Wp.liftB _ (csub_of_le hhi) ?_)
  refine Wp.bind (Wp.pcur ?_)
  have hsum : s.buffer.pcur + (s.buffer.pend - s.buffer.pcur) = s.buffer.pend := by omega
  refine Wp.bind ((magicComment_wp (s := { s with tokenSeen := ts }) (str := s.buffer.pcur) (len := s.buffer.pend - s.buffer.pcur)
    h.dec h.good.tab hm.pos h.small (by rw [hsum]; exact h.good.pend_le)).mono ?_)
  rintro r s1 ⟨h1, h2⟩
  rw [hsum] at h1
  have hcom : Com s s1 := by
    obtain ⟨ms, e, hms⟩ := h1.mag
    refine ⟨⟨[], by rw [h1.com]; simp, by simp⟩, ms, e, ?_⟩
    intro m hm
    have := hms m hm
    rw [show s.buffer.pcur = s.buffer.ptok + 1 by omega] at this
    exact this.spec hlc
  cases r with
  | none => exact Wp.done (.end hcom)
  | some magic =>
    have hb : s1.buffer = s.buffer := h2 rfl
    dsimp only
    have fin : Wp (do
        Lexer.gotoEol
        pushComment (← currentLoc)
        lexNewline ts sp) (DPost s) s1 := by
      refine Wp.bind (Wp.gotoEolP (by rw [hb]; exact h.good) (by rw [hb]; exact h.nonl) (by rw [hb]; exact h.noeof) ?_)
      intro s2 h3 h4 h5 h6 h7 h8
      rw [hb] at h5 h8
      have hd : s2.buffer.d = s.buffer.d := by simp only [Buffer.d, h3.1.same.input, hb]
      refine Wp.bind (Wp.getB ?_)
      refine Wp.bind (pushComment_wp h4 (.inl ?_) ?_)
      · show Spec.LineComment _ s2.buffer.ptok s2.buffer.pcur
        rw [hd, h5, h8]; exact hlc
      · intro s3 e1 e2 e3 e4 hcom'
        have hsl : SameLine s.buffer s2.buffer := by have := h3.1.same; rw [hb] at this; exact this
        have hlb : LocB s.buffer s2.buffer := by have := h3.1; rw [hb] at this; exact this
        refine (lexNewline_wp (s := s3) ?_).mono fun r s' hp => hp.mono (a := s) ?_ ?_ ?_ ?_ ?_
        · rw [AtEol_iff, e1, e2, e3, e4]
          refine ⟨h4, h6, h7, by rw [h5, hsl.pend], by rw [hsl.pbeg, hsl.pend]; have := h.lt; omega, by rw [h5, h8]; have := h.tok; omega, by rw [hsl.pbeg, h8]; exact h.lo,
            by rw [h8, hd, ht2]; simp, ?_, ?_, ?_⟩
          · rw [h3.2.1, h1.st]; exact h.st
          · rw [h3.2.2.1, h1.ls]; exact h.ls
          · rw [h3.2.2.2.1, h1.le]; exact h.le
        · rw [e1]; exact hlb.fw.adv
        · exact (hcom.trans (by rw [hb]) h3.com).trans (by rw [h3.1.same.input, hb]) hcom'
        · rw [e1]; exact hlb.fw.meas
        · rw [e1, h8]; exact Nat.le_refl _
        · rw [e1]; exact fun h => h.same hsl
    have top : ∀ t : Bool, Wp (do
        if t then Lexer.liftB (fun b => setFileEncoding b b.pcur b.pend) else Pure.pure ()
        Lexer.gotoEol
        pushComment (← currentLoc)
        lexNewline ts sp) (DPost s) s1 := by
      intro t
      refine Wp.ite (fun _ => ?_) (fun _ => ?_)
      · refine Wp.bind (Wp.liftB _ (setFileEncoding_ok ?_ ?_) fin)
        · rw [hb]; exact hhi
        · rw [hb]; exact h.good.pend_le
      · exact fin
    refine Wp.ite (fun _ => ?_) (fun _ => ?_)
    · obtain ⟨t, e⟩ := commentAtTop_ok (b := s1.buffer) (by rw [hb]; exact hm.pos)
      exact Wp.bind (Wp.liftB t e (top t))
    · exact top false

/-! ### Embedded documents -/

theorem _root_.Verif.Loaded.lf {b b' : Buffer} (h : Loaded b b') : b'.d.bytes[b'.pbeg - 1]? = some 10 := by
  have h1 := h.good.llen
  have h2 := h.later
  have := h.good.tab.next (i := b'.lastline - 1) (by omega)
  rw [show b'.lastline - 1 + 1 = b'.lastline by omega] at this
  rw [h.start, this]
  exact h.good.tab.last_lf (by omega)

theorem wordAt_end {bs : Bytes} {i : Nat} (h : bs[i]? = some 61)
    (hw : Spec.slice bs (i + 1) (i + 1 + (ascs "end").length) = ascs "end" ∧
      (bs[i + 1 + (ascs "end").length]? = none ∨ ∃ c, bs[i + 1 + (ascs "end").length]? = some c ∧ WordEnd c)) : Spec.WordAt bs i "=end" := by
  have e1 : (ascs "=end").length = 1 + (ascs "end").length := by decide
  have e2 : ascs "=end" = 61 :: ascs "end" := by decide
  unfold Spec.WordAt
  rw [e1, ← Nat.add_assoc]
  refine ⟨?_, hw.2⟩
  rw [slice_cons h (by omega), e2, hw.1]

theorem wordAt_begin {bs : Bytes} {i : Nat} (h : bs[i]? = some 61)
    (hw : Spec.slice bs (i + 1) (i + 1 + (ascs "begin").length) = ascs "begin" ∧
      (bs[i + 1 + (ascs "begin").length]? = none ∨ ∃ c, bs[i + 1 + (ascs "begin").length]? = some c ∧ WordEnd c)) : Spec.WordAt bs i "=begin" := by
  have e1 : (ascs "=begin").length = 1 + (ascs "begin").length := by decide
  have e2 : ascs "=begin" = 61 :: ascs "begin" := by decide
  unfold Spec.WordAt
  rw [e1, ← Nat.add_assoc]
  refine ⟨?_, hw.2⟩
  rw [slice_cons h (by omega), e2, hw.1]

/-- At the start of the last line of an embedded document that starts at `i`. -/
structure DocEnd (i : Nat) (s s' : Lexer) : Prop where
  fw : FwB s.buffer s'.buffer
  good : Good s'.buffer
  noeof : s'.buffer.eofp = false
  nonl : s'.buffer.nextline = 0
  lo : i < s'.buffer.pbeg
  bol : s'.buffer.pbeg < s'.buffer.pcur
  lf : s'.buffer.d.bytes[s'.buffer.pbeg - 1]? = some 10
  word : Spec.WordAt s'.buffer.d.bytes s'.buffer.pbeg "=end"

theorem embdocLoop_wp {bl : Verif.Loc} {i : Nat} : ∀ n (s : Lexer), Good s.buffer → s.buffer.eofp = false → s.buffer.nextline = 0 →
    i < s.buffer.pend → s.buffer.R + 2 ≤ n →
    Wp (embdocLoop bl n) (fun r s' => Fr s s' ∧ (r = true → DocEnd i s s')) s := by
  intro n
  induction n with
  | zero => intro s _ _ _ _ h; omega
  | succ n ih =>
    intro s hg he hn hi hf
    unfold embdocLoop
    refine Wp.bind (Wp.gotoEolP hg hn he ?_)
    intro s1 h1 hg1 h2 he1 hn1 _
    refine Wp.bind (Wp.nextcG hg1 ?_)
    intro b0 c s2 hr
    have hpe : s1.buffer.pcur = s1.buffer.pend := by rw [h2, h1.1.same.pend]
    cases c with
    | none =>
      refine Wp.ite (fun _ => ?_) (fun h => absurd rfl h)
      refine Wp.bind (Wp.pu (Pu.compileError _ _) ?_)
      intro _ s3 h3
      exact Wp.pure ⟨h1.2.trans (hr.same_fr.trans h3.fw.2), by simp⟩
    | some ch =>
      refine Wp.ite (fun h => by cases h) (fun _ => ?_)
      have hld : Loaded s1.buffer b0 := by
        obtain ⟨h3, h4⟩ := hr.isSome ch rfl
        rcases hr.src with e | e | e
        · exfalso
          have h5 := h4.lt
          have h6 := h4.good.hi
          rw [h4.same.pend, e] at h6
          rw [e] at h5
          omega
        · exfalso
          have := h4.noeof
          rw [e] at this; cases this
        · exact e
      obtain ⟨h3, h4⟩ := hr.isSome ch rfl
      have hsl := h4.same
      have hd : s2.buffer.d = b0.d := by simp only [Buffer.d, hsl.input]
      have hlo : i < b0.pbeg := by
        have := hld.after; have := hld.bol; have := h1.1.same.pend; omega
      have body : ∀ stop : Bool, (stop = true → DocEnd i s s2) → Wp (do
          if stop then Pure.pure true
          else
            Lexer.pushback (some ch)
            embdocLoop bl n) (fun r s' => Fr s s' ∧ (r = true → DocEnd i s s')) s2 := by
        intro stop hs
        refine Wp.ite (fun h => Wp.pure ⟨h1.2.trans hr.same_fr, fun _ => hs h⟩) (fun _ => ?_)
        refine Wp.bind (Wp.pushback_read h4 ?_)
        have hR := (hld.atEnd hn1).2
        have hR1 := h1.1.meas
        refine (ih _ hld.good hld.eofp hld.nextline ?_ ?_).mono ?_
        · show i < b0.pend
          have := hld.good.lo; have := hld.good.hi; omega
        · show b0.R + 2 ≤ n; omega
        · rintro r s' ⟨h5, h6⟩
          refine ⟨h1.2.trans (hr.same_fr.trans h5), fun e => ?_⟩
          have := h6 e
          exact { this with fw := h1.1.fw.trans ((hld.fw hg1).trans this.fw) }
      refine Wp.ite (fun h => ?_) (fun _ => body false (by simp))
      have hch : ch = 61 := by simpa [isC, asc] using h
      have hm : Mid s2.buffer := hr.mid (by rw [hch]; decide)
      obtain ⟨r, e, hr2⟩ := isWordMatch_ok hm (w := ascs "end") (by decide) (by decide)
      refine Wp.bind (Wp.liftB r e (body r ?_))
      intro hrt
      have hby := h4.byte (by rw [hch]; decide)
      refine ⟨h1.1.fw.trans hr.fw.1, hr.good, hr.noeof, hr.nonl, by rw [hsl.pbeg]; exact hlo, hr.pos, ?_, ?_⟩
      · rw [hd, hsl.pbeg]; exact hld.lf
      · have := hr2.1 hrt
        rw [hd, hby.1, hld.bol] at this
        rw [hd, hsl.pbeg]
        rw [hch, hld.bol] at hby
        refine wordAt_end hby.2 this

theorem lexEq_wp {sp : Bool} (h : At s 61) : Wp (lexEq sp) (DPost s) s := by
  unfold lexEq
  obtain ⟨hm, ht1, ht2⟩ := h.plain (by decide)
  have body : ∀ doc : Bool, (doc = true → Spec.LineStart s.buffer.d.bytes (s.buffer.pcur - 1) ∧
      Spec.WordAt s.buffer.d.bytes (s.buffer.pcur - 1) "=begin") → Wp (do
      if doc then
        let b ← Lexer.pcurSub 1
        let beginLoc : Verif.Loc := ⟨b, (← Lexer.pcur) + 5⟩
        Lexer.gotoEol
        if ← embdocLoop beginLoc (← Lexer.fuel) then
          Lexer.gotoEol
          pushComment (beginLoc.withEnd (← Lexer.pcur))
          return .retry sp
        else done .END_OF_INPUT
      else lexEqOp) (DPost s) s := by
    intro doc hdoc
    refine Wp.ite (fun e => ?_) (fun _ => (lexEqOp_wp hm).mono fun _ _ => h.op)
    obtain ⟨hd1, hd2⟩ := hdoc e
    have hpos := h.lt
    refine Wp.bind (Wp.pcurSub (by omega) ?_)
    refine Wp.bind (Wp.pcur ?_)
    refine Wp.bind (Wp.gotoEolP h.good h.nonl h.noeof ?_)
    intro s1 h1 hg1 h2 he1 hn1 _
    refine Wp.bind (Wp.fuel ?_)
    refine Wp.bind ((embdocLoop_wp (i := s.buffer.pcur - 1) _ s1 hg1 he1 hn1 ?_ ?_).mono ?_)
    · have := h.good.hi; have := h1.1.same.pend; omega
    · have := fuel_ok (b := s1.buffer) hg1 rfl; omega
    rintro r s2 ⟨h3, h4⟩
    refine Wp.ite (fun e => ?_) (fun _ => Wp.done (.end (h1.2.trans h3).com))
    obtain ⟨hf, hg2, he2, hn2, hlo, hb, hlf, hw⟩ := h4 e
    refine Wp.bind (Wp.gotoEolP hg2 hn2 he2 ?_)
    intro s3 h5 hg3 h6 he3 hn3 _
    refine Wp.bind (Wp.pcur ?_)
    have hd2' : s2.buffer.d = s.buffer.d := by simp only [Buffer.d, hf.input, h1.1.same.input]
    have hd3 : s3.buffer.d = s2.buffer.d := by simp only [Buffer.d, h5.1.same.input]
    refine Wp.bind (pushComment_wp hg3 (.inr ?_) ?_)
    · show Spec.DocComment _ (s.buffer.pcur - 1) s3.buffer.pcur
      rw [hd3, h6]
      have hb2 := hg2.hi
      refine ⟨hd2' ▸ hd1, hd2' ▸ hd2, hg2.pend_le, s2.buffer.pbeg, hlo, by omega, hlf, hw, ?_, hg2.lineEnd⟩
      intro m hm1 hm2
      exact hg2.inner hm1 hm2
    · intro s4 e1 e2 e3 e4 hc
      have hfr : Fr s s3 := h1.2.trans (h3.trans h5.2)
      have hfw : FwB s.buffer s3.buffer := h1.1.fw.trans (hf.trans h5.1.fw)
      refine Wp.pure ⟨hfr.com.trans hfw.input hc, ?_, ?_, ?_, ?_, ?_, ?_, fun h7 => ⟨?_, ?_⟩⟩
      · rw [e1]; exact hfw.adv
      · rw [e1]; exact hg3
      · rw [e2, hfr.1]; exact h.st
      · rw [e3, hfr.2.1]; exact h.ls
      · rw [e4, hfr.2.2.1]; exact h.le
      · rw [e1]; have := hfw.meas; omega
      · rw [e1]; exact hfw.str h7
      · rw [e1]; have := front_ge hg3; have := hfw.pcur; have := h.tok; omega
  refine Wp.bind (Wp.getB ?_)
  refine Wp.ite (fun hb => ?_) (fun _ => body false (by simp))
  obtain ⟨r, e, hr⟩ := isWordMatch_ok hm (w := ascs "begin") (by decide) (by decide)
  refine Wp.bind (Wp.liftB r e (body r ?_))
  intro hrt
  have hbol : s.buffer.pcur = s.buffer.pbeg + 1 := by simpa [Buffer.wasBol] using hb
  have := hr.1 hrt
  rw [hbol] at this ⊢
  rw [show s.buffer.ptok = s.buffer.pbeg by omega] at ht2
  exact ⟨h.good.lineStart, wordAt_begin ht2 this⟩

/-! ### `<` -/

theorem lexLtOp2_wp {sp l p} (hl : Loc p s) (hm : Mid s.buffer) : Wp (lexLtOp (some 60) sp l) (OpPost p) s := by
  unfold lexLtOp
  repeat' ostep
  all_goals (rename_i h1; exact absurd rfl h1)

theorem lexLt_wp {sp l} (h : At s 60) : Wp (lexLt sp l) (DPost s) s := by
  unfold lexLt
  obtain ⟨hm, ht1, ht2⟩ := h.plain (by decide)
  refine Wp.bind (Wp.nextc hm ?_)
  intro c s1 hr
  refine Wp.bind (Wp.getS ?_)
  refine Wp.ite (fun hc => ?_) (fun _ => (lexLtOp_wp hr).mono fun _ _ => h.op)
  have hc' : c = some 60 := by
    simp only [Bool.and_eq_true] at hc
    simpa [isC, asc] using hc.1.1.1
  subst hc'
  obtain ⟨hb1, hb2⟩ := (hr.isSome 60 rfl).byte (by decide)
  have hsl := hr.loc.1.same
  have hd : s1.buffer.d = s.buffer.d := by simp only [Buffer.d, hsl.input]
  have hpt : s1.buffer.ptok = s.buffer.ptok := by rw [hr.eqB]
  have hne := (hr.some_eof (by simp)).2.1
  have hm1 : Mid s1.buffer := hr.mid (by decide)
  refine Wp.bind ((((heredocIdentifier_wp hm1 hne (by omega) ?_).ret Ret.heredocIdentifier).quiet Quiet.heredocIdentifier).mono ?_)
  · intro j h1 h2
    unfold PlainAt
    rw [hd]
    rcases (by omega : j = s.buffer.ptok ∨ j = s.buffer.pcur) with e | e
    · rw [e, ht2]; decide
    · rw [e, hb2]; decide
  rintro r s2 ⟨⟨h1, h2⟩, h3, h4⟩
  have hcom : Com s s2 := .of_eq (h3.trans hr.loc.2.2.2.2.1) (h4.trans hr.loc.2.2.2.2.2)
  cases r with
  | none =>
    obtain ⟨h5, h6, h7, h8⟩ := h1
    exact (lexLtOp2_wp (hr.loc.trans h5) h6).mono fun _ _ => h.op
  | some t =>
    refine Wp.done ⟨hcom, ?_⟩
    rcases h1 with h1 | h1
    · exact .inl h1
    · refine .inr ?_
      obtain ⟨j, h5, h6, h7, h8, hv⟩ := h1.loc
      obtain ⟨here, h9, h10, h11, h12⟩ := h1.next
      have hm1 := hr.loc.1.meas
      have hlb : Adv s1.buffer s2.buffer := ⟨h1.same.input, by rw [h1.same.lineCount]; exact Nat.le_refl _, .inr (.inl h1.same.nextline)⟩
      refine ⟨hr.loc.1.fw.adv.trans hlb, h1.good, ?_, ?_, ?_, ?_, ?_, fun hst => ⟨(hst.same hsl).same h1.same, ?_, .inl ⟨h2, ?_, .inl ⟨_, h9⟩⟩, ?_, ?_⟩⟩
      · rw [h9]
        refine ⟨?_, h11.adv hlb⟩
        have : s2.buffer.d = s1.buffer.d := by simp only [Buffer.d, h1.same.input]
        rw [this]; exact h10
      · unfold tBegin tEnd; rw [h5, h6]; show s1.buffer.ptok ≤ j; omega
      · unfold tEnd; rw [h6, ← hd]; exact h8
      · intro e; exact absurd e h2
      · rw [h9, ← hd]; show _ + hereT _ _ ≤ _; omega
      · unfold tBegin; rw [h5, ← hpt]; exact Nat.le_refl _
      · rw [h1.same.nextline, hsl.nextline]; exact h.nonl
      · intro l e; rw [h9] at e; cases e
      · intro _ _
        refine ⟨h1.tok, _, hv, ?_⟩
        rw [hd, hpt]
        rw [← ht1] at hb2
        rw [slice_cons ht2 (by omega), slice_cons hb2 (by omega)]; rfl

/-! ### `.` -/

theorem lexDotDigit_wp {sp : Bool} {x : UInt8} (hm : Mid s.buffer) (he : s.buffer.eofp = false) (hlt : s.buffer.pcur < s.buffer.pend)
    (hx : s.buffer.d.bytes[s.buffer.pcur]? = some x) (hd : MB.isDigit (some x) = true) :
    Wp (lexDotDigit sp) (fun r s' => (∃ b, r = .retry b) ∧ Loc s s' ∧ Good s'.buffer) s := by
  unfold lexDotDigit
  have hx10 : x ≠ 10 ∧ x ≠ 13 := by constructor <;> (rintro rfl; revert hd; decide)
  have hprev : ∃ r, (do
      if (← csub s.buffer.pcur 1) > s.buffer.pbeg then return s.buffer.byteAt (← csub s.buffer.pcur 2) else return none : Res MB) = .ok r := by
    rw [csub_of_le (by have := hm.pos; omega)]
    simp only [Bind.bind, Except.bind]
    split
    · rw [csub_of_le (by omega)]; exact ⟨_, rfl⟩
    · exact ⟨_, rfl⟩
  obtain ⟨prev, hprev⟩ := hprev
  refine Wp.bind (Wp.liftB prev hprev ?_)
  refine Wp.bind ((parseNumeric_dot hm ?_).mono ?_)
  · intro s1 c s2 hb hr
    have hd1 : s1.buffer.d = s.buffer.d := by simp only [Buffer.d, hb.same.input]
    rcases hr.of_byte (by rw [hd1, hb.pcur]; exact hx) hx10.1 hx10.2 with e | e
    · rw [e]; exact hd
    · exact absurd e (hr.not_none (by rw [hb.eofp]; exact he) (by rw [hb.pcur, hb.same.pend]; exact hlt))
  rintro _ s1 ⟨h1, h2⟩
  wsteps
  rename_i s2 h3 _ s3 h4
  refine Wp.tokenFlush ?_
  intro s4 h5 h6 _
  wsteps
  exact ⟨⟨_, rfl⟩, h1.trans (h3.loc.trans (h4.loc.trans h5)), h6.good (by rw [h4.1, h3.1]; exact h2)⟩

theorem lexDot_wp {sp l} (h : At s 46) : Wp (lexDot sp l) (DPost s) s := by
  unfold lexDot
  obtain ⟨hm, ht1, ht2⟩ := h.plain (by decide)
  refine Wp.bind (Wp.getS ?_)
  wstep; wstep
  rename_i s1 h1
  have hm1 : Mid s1.buffer := by rw [h1.1]; exact hm
  refine Wp.bind (Wp.nextc hm1 ?_)
  intro c s2 hr
  refine Wp.ite (fun hc => ?_) (fun hc => ?_)
  · have hc' : c = some 46 := by simpa [isC, asc] using hc
    have hm2 : Mid s2.buffer := hr.mid (by rw [hc']; decide)
    refine Wp.bind (Wp.nextc hm2 ?_)
    intro c2 s3 hr2
    refine Wp.ite (fun _ => ?_) (fun _ => ?_)
    · exact (lexDot3_wp hr2.good).mono fun _ _ hp => h.op (hp.mono (h1.loc.trans (hr.loc.trans hr2.loc)))
    · wsteps
      refine Wp.done (h.op (OpPost.loc (by loc_tac) (by good_tac) (by tnl_tac)))
  · by_cases hdig : MB.isDigit c = true
    · cases c with
      | none => simp [MB.isDigit] at hdig
      | some x =>
        have hri := hr.isSome x rfl
        refine Wp.bind (Wp.pushback_read hri ?_)
        refine Wp.ite (fun _ => ?_) (fun hn => absurd hdig hn)
        have hx10 : x ≠ 10 := by rintro rfl; revert hdig; decide
        refine (lexDotDigit_wp (s := { s2 with buffer := s1.buffer }) hm1 hri.noeof ?_ (hri.byte hx10).2 hdig).mono ?_
        · show s1.buffer.pcur < s1.buffer.pend
          have := hri.lt; have := hri.good.hi; have := hri.same.pend; omega
        · rintro r s' ⟨⟨b, rfl⟩, h3, h4⟩
          refine h.retry ((h1.loc.trans ?_).trans h3) h4
          exact ⟨.refl _, hr.loc.2⟩
    · wstep; wstep; wstep
      · rename_i h9; exact absurd h9 hdig
      · wsteps
        refine Wp.done (h.op (OpPost.loc (by loc_tac) (by good_tac) (by tnl_tac)))

/-! ### The rest -/

theorem space_cases (x : UInt8) (h : MB.isSpace (some x) = true) (h10 : ¬x = 10) (h32 : ¬x = 32) (h9 : ¬x = 9) (h12 : ¬x = 12)
    (h13 : ¬x = 13) (h11 : ¬x = 11) : False := by
  have : ∀ x : UInt8, MB.isSpace (some x) = true → x = 10 ∨ x = 32 ∨ x = 9 ∨ x = 12 ∨ x = 13 ∨ x = 11 := by
    refine u8_forall ?_
    decide +kernel
  have := this x h
  tauto

theorem isWholeMatch_ok (b : Buffer) (w : Bytes) (indent : Nat) : ∃ r, b.isWholeMatch w indent = .ok r := by
  unfold Buffer.isWholeMatch
  dsimp only
  generalize (if indent > 0 then b.skipWs b.pbeg else b.pbeg) = i
  split
  · exact ⟨_, rfl⟩
  · rename_i hc
    obtain ⟨r, h1, _⟩ := substrAt_total b i (i + w.length)
    rw [csub_of_le (by omega)]
    simp only [Bind.bind, Except.bind, Pure.pure, Except.pure, h1]
    split
    · exact ⟨_, rfl⟩
    · exact ⟨_, rfl⟩

theorem lexBackslash_wp (h : At s 92) : Wp lexBackslash (DPost s) s := by
  unfold lexBackslash
  obtain ⟨hm, ht1, ht2⟩ := h.plain (by decide)
  refine Wp.bind (Wp.nextc hm ?_)
  intro c s1 hr
  have tok : ∀ t : Tok, t ≠ .tNL → Wp (done t) (DPost s) s1 := fun t ht => Wp.done (h.op (.loc hr.loc hr.good ht))
  refine Wp.ite (fun _ => Wp.pure (h.retry hr.loc hr.good)) (fun h10 => ?_)
  refine Wp.ite (fun _ => tok _ (by decide)) (fun h32 => ?_)
  refine Wp.ite (fun hsp => ?_) (fun _ => ?_)
  · refine Wp.ite (fun _ => tok _ (by decide)) (fun h9 => ?_)
    refine Wp.ite (fun _ => tok _ (by decide)) (fun h12 => ?_)
    refine Wp.ite (fun _ => tok _ (by decide)) (fun h13 => ?_)
    refine Wp.ite (fun _ => tok _ (by decide)) (fun h11 => ?_)
    exfalso
    cases c with
    | none => simp [MB.isSpace] at hsp
    | some x =>
      simp only [beq_iff_eq, Option.some.injEq] at h10 h9 h12 h13 h11
      exact space_cases x hsp h10 (fun e => h32 (by rw [e]; rfl)) h9 h12 h13 h11
  · wsteps
    exact Wp.done (h.op (OpPost.loc (by loc_tac) (by good_tac) (by decide)))

theorem lexUnderscore_wp (h : At s 95) : Wp lexUnderscore (DPost s) s := by
  unfold lexUnderscore
  obtain ⟨hm, ht1, ht2⟩ := h.plain (by decide)
  have body : ∀ stop : Bool, Wp (do
      if stop then
        Lexer.modB fun b => { b with eofp := true }
        done .END_OF_INPUT
      else
        Lexer.newtok
        return .ident) (DPost s) s := by
    intro stop
    refine Wp.ite (fun _ => ?_) (fun _ => ?_)
    · exact Wp.bind (Wp.modB (Wp.done (.end (.of_eq rfl rfl))))
    · refine Wp.bind (Wp.newtok ?_)
      intro s1 h1 h2 h3 _
      exact Wp.pure (h.ident h1 (h2.mid hm) (h2.eofp.trans h.noeof))
  refine Wp.bind (Wp.getB ?_)
  refine Wp.ite (fun hb => ?_) (fun _ => body false)
  obtain ⟨r, e⟩ := isWholeMatch_ok s.buffer (ascs "__END__") 0
  exact Wp.bind (Wp.liftB r e (body r))

theorem lexOther_wp {c : UInt8} {sp : Bool} (h : At s c) (hc : c ≠ 10) : Wp (lexOther c sp) (DPost s) s := by
  unfold lexOther
  obtain ⟨hm, ht1, ht2⟩ := h.plain hc
  refine Wp.bind (Wp.isIdentchar hm.pos fun r _ => ?_)
  refine Wp.ite (fun _ => ?_) (fun _ => ?_)
  · wsteps
    rename_i s1 h0
    have h1 : Same s s1 := by same_tac
    refine Wp.tokenFlush ?_
    intro s2 h2 h3 _
    exact Wp.pure (h.retry (h1.loc.trans h2) (h3.good (by rw [h1.1]; exact h.good)))
  · refine Wp.bind (Wp.newtok ?_)
    intro s1 h1 h2 h3 _
    exact Wp.pure (h.ident h1 (h2.mid hm) (h2.eofp.trans h.noeof))

theorem lexCr_wp (h : At s 13) : Wp lexCr (DPost s) s := by
  unfold lexCr
  obtain ⟨hm, ht1, ht2⟩ := h.plain (by decide)
  refine Wp.bind (Wp.getB ?_)
  refine Wp.ite (fun _ => ?_) (fun _ => Wp.pure (h.ident (.refl _) hm h.noeof))
  refine Wp.bind (Wp.modB_same ?_ rfl ?_)
  · exact ⟨⟨rfl, rfl, rfl, rfl, rfl, rfl, rfl, rfl⟩, rfl, rfl⟩
  intro s1 h1 h2 h3
  wsteps
  rename_i s2 h4
  have h4' : Same s1 s2 := by same_tac
  exact h.ident (h1.trans h4'.loc) (by rw [h4'.1]; exact h2.mid hm) (by rw [h4'.1]; exact h2.eofp.trans h.noeof)

theorem NPost.sp {t : Tok} {s' : Lexer} (h : NPost s t s') : SPost s t s' :=
  .inr ⟨h.1.1, h.2, h.1.2.2.1, h.1.2.2.2.1, .inl h.1.2.1⟩
theorem LPost.sp {t : Tok} {s' : Lexer} (h : LPost s t s') : SPost s t s' :=
  h.imp id fun h => ⟨h.1.1, h.2, h.1.2.2.1, h.1.2.2.2.1, .inl h.1.2.1⟩

theorem At.num_wp {c : UInt8} (h : At s c) {x : LexM Tok} (hx : Wp x (fun t s' => NPost s t s' ∧ TN t) s) :
    Wp (do Pure.pure (Next.tok (← x))) (DPost s) s := by
  refine Wp.bind (hx.mono ?_)
  rintro t s' ⟨h1, h2⟩
  exact Wp.pure ⟨h1.1.com, h.spost h1.sp h2⟩

theorem At.cast {c d : UInt8} (h : At s c) (e : c = d) : At s d := e ▸ h

theorem At.retry_eol (h : At s 10) : AtEol s :=
  ⟨h.good, h.noeof, h.nonl, h.lf rfl, by have := h.lf rfl; have := h.lt; omega, h.tok, h.lo, h.ns, h.st, h.ls, h.le⟩

theorem dispatch_wp {x : Ext} {c : UInt8} {sp cmd ts : Bool} {l : LexState} (h : At s c) :
    Wp (dispatch x c sp l cmd ts) (DPost s) s := by
  unfold dispatch
  refine Wp.ite (fun _ => Wp.done (.end (.refl _))) (fun _ => ?_)
  refine Wp.ite (fun e => lexCr_wp (h.cast e)) (fun _ => ?_)
  refine Wp.ite (fun _ => Wp.pure (h.retry (.refl _) h.good)) (fun _ => ?_)
  refine Wp.ite (fun e => lexComment_wp (h.cast e)) (fun _ => ?_)
  refine Wp.ite (fun e => lexNewline_wp (At.retry_eol (e ▸ h))) (fun h10 => ?_)
  obtain ⟨hm, ht1, ht2⟩ := h.plain h10
  have hz := h.small
  have op : ∀ {y : LexM Next}, Wp y (OpPost s) s → Wp y (DPost s) s := fun hy => hy.mono fun _ _ => h.op
  refine Wp.ite (fun e => op (lexStar_wp hm)) (fun _ => ?_)
  refine Wp.ite (fun e => op (lexBang_wp hm)) (fun _ => ?_)
  refine Wp.ite (fun e => lexEq_wp (h.cast e)) (fun _ => ?_)
  refine Wp.ite (fun e => lexLt_wp (h.cast e)) (fun _ => ?_)
  refine Wp.ite (fun e => op (lexGt_wp hm)) (fun _ => ?_)
  refine Wp.ite (fun e => op (lexQuote_wp hm)) (fun _ => ?_)
  refine Wp.ite (fun e => op (lexBacktick_wp hm)) (fun _ => ?_)
  refine Wp.ite (fun e => op (lexQuote_wp hm)) (fun _ => ?_)
  refine Wp.ite (fun e => h.tok_wp ((parseQmark_wp hm).mono fun _ _ => LPost.sp) Ret.parseQmark Quiet.parseQmark) (fun _ => ?_)
  refine Wp.ite (fun e => op (lexAmp_wp hm)) (fun _ => ?_)
  refine Wp.ite (fun e => op (lexPipe_wp hm)) (fun _ => ?_)
  refine Wp.ite (fun e => op (lexPlus_wp hm hz)) (fun _ => ?_)
  refine Wp.ite (fun e => op (lexMinus_wp hm hz)) (fun _ => ?_)
  refine Wp.ite (fun e => lexDot_wp (h.cast e)) (fun _ => ?_)
  refine Wp.ite (fun e => h.num_wp ((parseNumeric_wp hm (.inl e)).ret Ret.parseNumeric)) (fun _ => ?_)
  refine Wp.ite (fun e => op (lexClose_wp hm (by decide))) (fun _ => ?_)
  refine Wp.ite (fun e => op (lexClose_wp hm (by decide))) (fun _ => ?_)
  refine Wp.ite (fun e => op (lexRcurly_wp hm)) (fun _ => ?_)
  refine Wp.ite (fun e => op (lexColon_wp hm)) (fun _ => ?_)
  refine Wp.ite (fun e => op (lexSlash_wp hm)) (fun _ => ?_)
  refine Wp.ite (fun e => op (lexCaret_wp hm)) (fun _ => ?_)
  refine Wp.ite (fun e => op (lexSemi_wp hm)) (fun _ => ?_)
  refine Wp.ite (fun e => op (lexComma_wp hm)) (fun _ => ?_)
  refine Wp.ite (fun e => op (lexTilde_wp hm)) (fun _ => ?_)
  refine Wp.ite (fun e => op (lexLparen_wp hm)) (fun _ => ?_)
  refine Wp.ite (fun e => op (lexLbrack_wp hm)) (fun _ => ?_)
  refine Wp.ite (fun e => op (lexLcurly_wp hm)) (fun _ => ?_)
  refine Wp.ite (fun e => lexBackslash_wp (h.cast e)) (fun _ => ?_)
  refine Wp.ite (fun e => h.tok_wp (parsePercent_wp hm hz h.tok) Ret.parsePercent Quiet.parsePercent) (fun _ => ?_)
  refine Wp.ite (fun e => h.tok_wp ((parseGvar_wp hm).mono fun _ _ => LPost.sp) Ret.parseGvar Quiet.parseGvar) (fun _ => ?_)
  refine Wp.ite (fun e => h.tok_wp ((parseAtmark_wp hm h.tok).mono fun _ _ => LPost.sp) Ret.parseAtmark Quiet.parseAtmark) (fun _ => ?_)
  refine Wp.ite (fun e => lexUnderscore_wp (h.cast e)) (fun _ => ?_)
  exact lexOther_wp h h10

end Verif.Lexer
