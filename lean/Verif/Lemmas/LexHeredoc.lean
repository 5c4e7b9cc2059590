import Verif.Lemmas.LexLiteral
import Verif.Model.Lexer.Heredoc
/-! Heredocs: no panic, progress. -/
namespace Verif.Lexer
variable {a s : Lexer}

/-- The position after a heredoc's opening identifier, as `heredoc_restore` computes it. -/
def hereRp (d : DecodedInput) (h : HeredocLiteral) : Nat := d.lStart h.lastline + h.offset + h.length + h.quote

/-- A heredoc literal that fits the input. -/
structure HereOk (d : DecodedInput) (h : HeredocLiteral) : Prop where
  line : h.lastline < d.lines.length
  quote : h.quote ≤ d.lStart h.lastline + h.offset
  stop : hereRp d h ≤ d.lStop h.lastline
  ns : d.bytes[hereRp d h]? = some 10 → d.bytes[hereRp d h - 1]? ≠ some 13
  words : hasF h.func STR_FUNC_QWORDS = false

/-- The line of the opener lies behind the reader. -/
def HereAt (b : Buffer) (h : HeredocLiteral) : Prop := h.lastline < b.lineCount ∧ (b.nextline ≠ 0 → h.lastline < b.nextline)

/-- What is read again after the heredoc. -/
def hereT (d : DecodedInput) (h : HeredocLiteral) : Nat := 8 * (d.lStop h.lastline - hereRp d h) + 3

/-- What all steps between two tokens respect. -/
structure Adv (b b' : Buffer) : Prop where
  input : b'.input = b.input
  lc : b.lineCount ≤ b'.lineCount
  nl : b'.nextline = 0 ∨ b'.nextline = b.nextline ∨ b.lineCount ≤ b'.nextline

theorem Adv.refl (b : Buffer) : Adv b b := ⟨rfl, Nat.le_refl _, .inr (.inl rfl)⟩
theorem FwB.adv {b b' : Buffer} (h : FwB b b') : Adv b b' := ⟨h.input, h.lc, by rcases h.nl with e | e; exact .inl e; exact .inr (.inl e)⟩
theorem Adv.trans {a b c : Buffer} (h : Adv a b) (h' : Adv b c) : Adv a c := by
  refine ⟨h'.input.trans h.input, Nat.le_trans h.lc h'.lc, ?_⟩
  rcases h'.nl with e | e | e
  · exact .inl e
  · rw [e]; exact h.nl
  · have := h.lc; exact .inr (.inr (by omega))
theorem HereAt.adv {b b' : Buffer} {h : HeredocLiteral} (hh : HereAt b h) (ha : Adv b b') : HereAt b' h := by
  refine ⟨by have := hh.1; have := ha.lc; omega, fun hn => ?_⟩
  rcases ha.nl with e | e | e
  · exact absurd e hn
  · rw [e] at hn ⊢; exact hh.2 hn
  · have := hh.1; omega

/-- A heredoc end within the input. -/
def EndOk (d : DecodedInput) (e : HeredocEnd) : Prop := e.start ≤ e.stop ∧ e.stop ≤ d.bytes.length

/-- Where the token lies. The end may be one past the input, and an unterminated heredoc is placed wrongly. -/
def HereLoc (s : Lexer) (t : Tok) (s' : Lexer) : Prop :=
  (∃ id l, s'.diagnostics.getLast? = some ⟨.error, .UnterminatedHeredoc id, l⟩) ∨
  (s'.lvalStart.getD s'.buffer.ptok ≤ s'.lvalEnd.getD s'.buffer.pcur ∧
    (s'.lvalEnd.getD s'.buffer.pcur ≤ s.buffer.d.bytes.length ∨
      (t = .tSTRING_CONTENT ∧ s'.lvalEnd.getD s'.buffer.pcur = s.buffer.d.bytes.length + 1)))

/-- What one call of `here_document` does. -/
structure HerePost (s : Lexer) (h : HeredocLiteral) (t : Tok) (s' : Lexer) : Prop where
  tok : t ≠ .END_OF_INPUT
  adv : Adv s.buffer s'.buffer
  good : Good s'.buffer
  com : s'.comments = s.comments
  mag : s'.magicComments = s.magicComments
  loc : HereLoc s t s'
  next : (s'.strterm = s.strterm ∧ s'.buffer.R < s.buffer.R) ∨
    (s'.strterm = none ∧ s'.buffer.R < s.buffer.R + hereT s.buffer.d h) ∨
    (∃ l e, s'.strterm = some (.string l) ∧ l.heredocEnd = some e ∧ EndOk s.buffer.d e ∧
      s'.buffer.R + strW l < s.buffer.R + hereT s.buffer.d h)

/-- A state inside a call of `here_document` begun at `a`. -/
structure HI (a s : Lexer) : Prop where
  fw : FwB a.buffer s.buffer
  good : Good s.buffer
  ls : s.lvalStart = some a.buffer.pcur
  st : s.strterm = a.strterm
  com : s.comments = a.comments
  mag : s.magicComments = a.magicComments

theorem HI.fwd {s' : Lexer} (h : HI a s) (hf : Fw s s') (hg : Good s'.buffer) : HI a s' :=
  ⟨h.fw.trans hf.1, hg, hf.2.2.1.trans h.ls, hf.2.1.trans h.st, hf.2.2.2.2.1.trans h.com, hf.2.2.2.2.2.trans h.mag⟩

theorem HI.len (h : HI a s) : s.buffer.d.bytes.length = a.buffer.d.bytes.length := by simp only [Buffer.d, h.fw.input]

theorem Good.pcur_le {b : Buffer} (h : Good b) : b.pcur ≤ b.d.bytes.length := by have := h.pend_le; have := h.hi; omega
theorem Good.pbeg_le {b : Buffer} (h : Good b) : b.pbeg ≤ b.d.bytes.length := by have := Good.pcur_le h; have := h.lo; omega

theorem computeHeredocEnd_wp {Q : HeredocEnd → Lexer → Prop} (hp : s.buffer.pbeg ≤ s.buffer.d.bytes.length)
    (hq : ∀ e, EndOk s.buffer.d e → Q e s) : Wp computeHeredocEnd Q s := by
  unfold computeHeredocEnd
  refine Wp.bind (Wp.getB (Wp.bind (Wp.getB (Wp.bind (Wp.getB ?_)))))
  have hl : ∀ (p : UInt8 → Bool) i, i ≤ s.buffer.d.bytes.length →
      i + ((s.buffer.d.bytes.drop i).takeWhile p).length ≤ s.buffer.d.bytes.length := by
    intro p i hi
    have h1 := (List.takeWhile_sublist p (l := s.buffer.d.bytes.drop i)).length_le
    rw [List.length_drop] at h1
    omega
  have h1 := hl (· == asc ' ') _ hp
  have h2 := hl (· != 10) _ h1
  refine Wp.bind (Wp.liftB _ (substrAt_ok (by omega) h2) ?_)
  exact Wp.pure (hq _ ⟨by dsimp only; omega, h2⟩)

/-- Going back to the line of the opener. -/
structure Restored (s : Lexer) (h : HeredocLiteral) (s' : Lexer) : Prop where
  eq : s' = { s with strterm := none, buffer := s'.buffer }
  adv : Adv s.buffer s'.buffer
  good : Good s'.buffer
  meas : s'.buffer.R + 3 ≤ s.buffer.R + hereT s.buffer.d h

theorem heredocRestore_wp {h : HeredocLiteral} (hg : Good s.buffer) (ho : HereOk s.buffer.d h) (ha : HereAt s.buffer h) :
    Wp (heredocRestore h) (fun _ => Restored s h) s := by
  unfold heredocRestore
  refine Wp.bind (Wp.modS ?_)
  obtain ⟨l, hl, hs, hst⟩ := hg.tab.lineAt ho.line
  have hle := hg.tab.start_le ho.line
  refine Wp.bind (Wp.liftB l hl ?_)
  refine Wp.bind (Wp.liftB (l.stop - l.start) (csub_of_le (by omega)) ?_)
  refine Wp.bind (Wp.liftB _ (csub_of_le (by have := ho.quote; omega)) ?_)
  refine Wp.modB ?_
  have hrp : l.start + h.offset + h.length + h.quote = hereRp s.buffer.d h := by unfold hereRp; omega
  have hpend : l.start + (l.stop - l.start) = s.buffer.d.lStop h.lastline := by omega
  have hstop := ho.stop
  refine ⟨rfl, ⟨rfl, Nat.le_refl _, ?_⟩, ?_, ?_⟩
  · dsimp only; split
    · exact .inl rfl
    · exact .inr (.inl rfl)
  · dsimp only
    rw [hrp, hpend, hs]
    refine { tab := hg.tab, lc := hg.lc, ll := ha.1, nl := ?_, nl2 := ?_, stop := rfl, start := .inl rfl, lo := ?_, hi := hstop, ns := fun _ _ => ho.ns }
    · dsimp only; split
      · have := ha.1; omega
      · exact hg.nl
    · dsimp only; split
      · intro h; exact absurd rfl h
      · intro hn; exact ⟨rfl, ha.2 hn, (hg.nl2 hn).2.2⟩
    · dsimp only; unfold hereRp; omega
  · dsimp only
    rw [hrp, hpend, hs]
    unfold Buffer.R Buffer.unread Buffer.curW Buffer.d hereT
    dsimp only
    by_cases he : s.buffer.eofp = true
    · simp only [he, if_true, Bool.false_eq_true, if_false, ne_eq, not_true_eq_false]; omega
    · by_cases hn : s.buffer.nextline = 0
      · simp only [he, hn, if_true, Bool.false_eq_true, if_false, ne_eq, not_true_eq_false]; omega
      · simp only [he, hn, if_true, Bool.false_eq_true, if_false, ne_eq, not_false_eq_true]; omega

theorem hereEos {h : HeredocLiteral} {d : DecodedInput} (htab : d.Tabled) (ho : HereOk d h) :
    d.lStart h.lastline + h.offset + h.length ≤ d.bytes.length := by
  have h1 := ho.stop; have h2 := htab.stop_le ho.line; unfold hereRp at h1; omega

section
variable {h : HeredocLiteral}

theorem hereDocumentError_wp (hi : HI a s) (ho : HereOk a.buffer.d h) (ha : HereAt a.buffer h) {eos : Nat}
    (he : eos = a.buffer.d.lStart h.lastline + h.offset) :
    Wp (hereDocumentError h eos h.length) (HerePost a h) s := by
  unfold hereDocumentError
  have hd : s.buffer.d = a.buffer.d := by simp only [Buffer.d, hi.fw.input]
  refine Wp.bind ((heredocRestore_wp hi.good (by rw [hd]; exact ho) (ha.adv hi.fw.adv)).mono ?_)
  intro _ s1 hr
  have hd1 : s1.buffer.d = a.buffer.d := by rw [← hd]; simp only [Buffer.d, hr.adv.input]
  have hlen := hereEos (hd1 ▸ hr.good.tab) ho
  refine Wp.bind (Wp.liftB _ (substrAt_ok (by omega) (by rw [hd1, he]; exact hlen)) ?_)
  refine Wp.bind (Wp.getB (Wp.bind ⟨_, _, rfl, ?_⟩))
  refine Wp.bind ⟨_, _, rfl, ?_⟩
  refine Wp.bind (Wp.modS (Wp.bind ⟨_, _, rfl, Wp.pure ?_⟩))
  have hm := hr.meas
  have hR := hi.fw.meas
  refine ⟨by decide, ?_, ?_, ?_, ?_, .inl ⟨_, _, List.getLast?_concat ..⟩, .inr (.inl ⟨rfl, ?_⟩)⟩
  · exact (hi.fw.adv.trans hr.adv).trans ⟨rfl, Nat.le_refl _, .inr (.inl rfl)⟩
  · exact BSame.good (b := s1.buffer) ⟨⟨rfl, rfl, rfl, rfl, rfl, rfl, rfl, rfl⟩, rfl, rfl⟩ hr.good
  · show s1.comments = _; rw [hr.eq]; exact hi.com
  · show s1.magicComments = _; rw [hr.eq]; exact hi.mag
  · show (s1.buffer.tokenFlush).R < _
    rw [hd] at hm
    have : (s1.buffer.tokenFlush).R = s1.buffer.R := BSame.R ⟨⟨rfl, rfl, rfl, rfl, rfl, rfl, rfl, rfl⟩, rfl, rfl⟩
    omega

theorem hereDocumentRestore_wp (hi : HI a s) (ho : HereOk a.buffer.d h) (ha : HereAt a.buffer h) :
    Wp (hereDocumentRestore h) (HerePost a h) s := by
  unfold hereDocumentRestore
  have hd : s.buffer.d = a.buffer.d := by simp only [Buffer.d, hi.fw.input]
  refine Wp.bind (computeHeredocEnd_wp (Good.pbeg_le hi.good) ?_)
  intro e he
  refine Wp.bind (Wp.modS ?_)
  refine Wp.bind ((heredocRestore_wp (s := { s with lvalStart := some e.start, lvalEnd := some e.stop, lval := some e.value })
    hi.good (by show HereOk s.buffer.d h; rw [hd]; exact ho) (ha.adv hi.fw.adv)).mono ?_)
  intro _ s1 hr
  refine Wp.bind ⟨_, _, rfl, ?_⟩
  refine Wp.bind (Wp.modS (Wp.bind ⟨_, _, rfl, Wp.pure ?_⟩))
  have hm := hr.meas
  have hR := hi.fw.meas
  refine ⟨by decide, ?_, ?_, ?_, ?_, .inr ?_, .inr (.inl ⟨rfl, ?_⟩)⟩
  · exact (hi.fw.adv.trans hr.adv).trans ⟨rfl, Nat.le_refl _, .inr (.inl rfl)⟩
  · exact BSame.good (b := s1.buffer) ⟨⟨rfl, rfl, rfl, rfl, rfl, rfl, rfl, rfl⟩, rfl, rfl⟩ hr.good
  · show s1.comments = _; rw [hr.eq]; exact hi.com
  · show s1.magicComments = _; rw [hr.eq]; exact hi.mag
  · rw [hd] at he
    have e1 : s1.lvalStart = some e.start := by rw [hr.eq]
    have e2 : s1.lvalEnd = some e.stop := by rw [hr.eq]
    show s1.lvalStart.getD _ ≤ s1.lvalEnd.getD _ ∧ (s1.lvalEnd.getD _ ≤ _ ∨ _)
    rw [e1, e2]
    exact ⟨he.1, .inl he.2⟩
  · show (s1.buffer.tokenFlush).R < _
    have : (s1.buffer.tokenFlush).R = s1.buffer.R := BSame.R ⟨⟨rfl, rfl, rfl, rfl, rfl, rfl, rfl, rfl⟩, rfl, rfl⟩
    have hm : s1.buffer.R + 3 ≤ s.buffer.R + hereT s.buffer.d h := hm
    rw [hd] at hm
    omega

theorem hereFinish_wp (hi : HI a s) (ho : HereOk a.buffer.d h) (ha : HereAt a.buffer h) {str : Bytes} {e : HeredocEnd}
    (he : EndOk a.buffer.d e) {x : Nat} (hx : s.lvalEnd = some x) (hx1 : a.buffer.pcur ≤ x)
    (hx2 : x ≤ a.buffer.d.bytes.length + 1) : Wp (hereFinish h str e) (HerePost a h) s := by
  unfold hereFinish
  have hd : s.buffer.d = a.buffer.d := by simp only [Buffer.d, hi.fw.input]
  refine Wp.bind ((heredocRestore_wp hi.good (by rw [hd]; exact ho) (ha.adv hi.fw.adv)).mono ?_)
  intro _ s1 hr
  refine Wp.bind ⟨_, _, rfl, ?_⟩
  refine Wp.bind ⟨_, _, rfl, ?_⟩
  refine Wp.bind ⟨_, _, rfl, Wp.pure ?_⟩
  have hm := hr.meas
  have hR := hi.fw.meas
  refine ⟨by decide, ?_, ?_, ?_, ?_, .inr ?_, .inr (.inr ⟨_, e, rfl, rfl, he, ?_⟩)⟩
  · exact (hi.fw.adv.trans hr.adv).trans ⟨rfl, Nat.le_refl _, .inr (.inl rfl)⟩
  · exact BSame.good (b := s1.buffer) ⟨⟨rfl, rfl, rfl, rfl, rfl, rfl, rfl, rfl⟩, rfl, rfl⟩ hr.good
  · show s1.comments = _; rw [hr.eq]; exact hi.com
  · show s1.magicComments = _; rw [hr.eq]; exact hi.mag
  · have e1 : s1.lvalStart = some a.buffer.pcur := by rw [hr.eq]; exact hi.ls
    have e2 : s1.lvalEnd = some x := by rw [hr.eq]; exact hx
    show s1.lvalStart.getD _ ≤ s1.lvalEnd.getD _ ∧ (s1.lvalEnd.getD _ ≤ _ ∨ _ ∧ s1.lvalEnd.getD _ = _)
    rw [e1, e2]
    simp only [Option.getD_some]
    exact ⟨hx1, by have : x ≤ a.buffer.d.bytes.length ∨ x = a.buffer.d.bytes.length + 1 := by omega
                   exact this.imp id fun h => ⟨by trivial, h⟩⟩
  · have h1 := hasF_or_term h.func
    have h2 : strW ⟨0, h.func ||| STR_FUNC_TERM, some 0, 0, some e⟩ ≤ 2 := by
      unfold strW; dsimp only; rw [h1.1]; split <;> simp
    have : (s1.buffer.tokenFlush).R = s1.buffer.R := BSame.R ⟨⟨rfl, rfl, rfl, rfl, rfl, rfl, rfl, rfl⟩, rfl, rfl⟩
    show (s1.buffer.tokenFlush).R + _ < _
    rw [hd] at hm
    omega

theorem atHeredocEnd_wp {Q : Bool → Lexer → Prop} {eos len indent : Nat} (hl : eos + len ≤ s.buffer.d.bytes.length)
    (hq : ∀ r, Q r s) : Wp (atHeredocEnd eos len indent) Q s := by
  unfold atHeredocEnd
  refine Wp.bind (Wp.liftB _ (substrAt_ok (by omega) hl) ?_)
  dsimp only
  have : ∃ r, s.buffer.isWholeMatch (Spec.slice s.buffer.d.bytes eos (eos + len)) indent = .ok r := by
    generalize Spec.slice s.buffer.d.bytes eos (eos + len) = w
    unfold Buffer.isWholeMatch
    dsimp only
    generalize (if indent > 0 then s.buffer.skipWs s.buffer.pbeg else s.buffer.pbeg) = i
    split
    · exact ⟨_, rfl⟩
    · rename_i hc
      obtain ⟨r, h1, _⟩ := substrAt_total s.buffer i (i + w.length)
      rw [csub_of_le (by omega)]
      simp only [Bind.bind, Except.bind, Pure.pure, Except.pure, h1]
      split
      · exact ⟨_, rfl⟩
      · exact ⟨_, rfl⟩
  obtain ⟨r, hr⟩ := this
  exact Wp.liftB r hr (hq r)

/-- To the end of the line. -/
theorem Wp.gotoEol {Q : Unit → Lexer → Prop} (hg : Good s.buffer) (hn : s.buffer.nextline = 0) (he : s.buffer.eofp = false)
    (hq : ∀ s', Loc s s' → Good s'.buffer → s'.buffer.pcur = s.buffer.pend → s'.buffer.eofp = false → s'.buffer.nextline = 0 → Q () s') :
    Wp Lexer.gotoEol Q s := by
  have hs : SameLine s.buffer s.buffer.gotoEol := ⟨rfl, rfl, rfl, rfl, rfl, rfl, rfl, rfl⟩
  refine Wp.modB (hq _ ⟨⟨hs, hg.hi, R_sameLine hs hn he hg.hi (Nat.le_refl _), ?_, id, fun _ h _ => h⟩, .refl _⟩ ?_ rfl he hn)
  · intro h; have := hg.hi; show s.buffer.ptok ≤ s.buffer.pend; omega
  · exact { hg with lo := by have := hg.lo; have := hg.hi; show s.buffer.pbeg ≤ s.buffer.pend; omega
                    hi := Nat.le_refl _
                    ns := fun _ h => absurd h (Nat.lt_irrefl _) }

theorem rawLineEnd_ok {b : Buffer} (hg : Good b) {ptr : Nat} (hp : ptr ≤ b.pend) :
    ∃ e, rawLineEnd b ptr = .ok e ∧ ptr ≤ e ∧ e ≤ b.pend := by
  unfold rawLineEnd
  dsimp only
  by_cases h1 : b.pend > ptr
  · rw [if_pos h1]
    obtain ⟨c, hc, _⟩ := uncheckedByteAt_ok hg (j := b.pend - 1) (by omega)
    rw [hc]
    simp only [Bind.bind, Except.bind, Pure.pure, Except.pure]
    split
    · split
      · exact ⟨_, rfl, by omega, by omega⟩
      · obtain ⟨c, hc, _⟩ := uncheckedByteAt_ok hg (j := b.pend - 2) (by omega)
        rw [hc]
        dsimp only
        split
        · exact ⟨_, rfl, by omega, by omega⟩
        · exact ⟨_, rfl, by omega, by omega⟩
    · split
      · exact ⟨_, rfl, by omega, by omega⟩
      · exact ⟨_, rfl, by omega, by omega⟩
  · rw [if_neg h1]
    exact ⟨_, rfl, by omega, by omega⟩

theorem foldIndent_bsame : ∀ (cs : Bytes) (b : Buffer), BSame b (cs.foldl (fun b c => updateIndent (some c) b) b) ∧
    (cs.foldl (fun b c => updateIndent (some c) b) b).ptok = b.ptok := by
  intro cs
  induction cs with
  | nil => intro b; exact ⟨.refl _, rfl⟩
  | cons c cs ih =>
    intro b
    obtain ⟨h1, h2⟩ := updateIndent_bsame (some c) b
    obtain ⟨h3, h4⟩ := ih (updateIndent (some c) b)
    exact ⟨⟨h1.same.trans h3.same, h3.pcur.trans h1.pcur, h3.eofp.trans h1.eofp⟩, h4.trans h2⟩

/-- The result of the loops over the lines. -/
def HereRes (a : Lexer) (h : HeredocLiteral) (r : Tok ⊕ HeredocEnd) (s' : Lexer) : Prop :=
  match r with
  | .inl t => HerePost a h t s'
  | .inr e => HI a s' ∧ EndOk a.buffer.d e ∧ ∃ x, s'.lvalEnd = some x ∧ a.buffer.pcur ≤ x ∧ x ≤ a.buffer.d.bytes.length + 1

/-- A content token: the heredoc goes on. -/
theorem HI.content {s' : Lexer} {t : Tok} (hi : HI a s) (hb : s'.buffer = s.buffer) (hf : s'.strterm = s.strterm ∧ s'.comments = s.comments ∧
      s'.magicComments = s.magicComments) (ht : t ≠ .END_OF_INPUT) (hR : s.buffer.R < a.buffer.R) (hl : HereLoc a t s') :
    HerePost a h t s' := by
  refine ⟨ht, by rw [hb]; exact hi.fw.adv, by rw [hb]; exact hi.good, hf.2.1.trans hi.com, hf.2.2.trans hi.mag, hl,
    .inl ⟨hf.1.trans hi.st, by rw [hb]; exact hR⟩⟩

theorem hereRawLoop_wp (ho : HereOk a.buffer.d h) (ha : HereAt a.buffer h) {eos indent : Nat}
    (he : eos = a.buffer.d.lStart h.lastline + h.offset) : ∀ n str (s : Lexer), HI a s → s.buffer.eofp = false →
    s.buffer.nextline = 0 → s.buffer.R + 2 ≤ n → s.lvalEnd = none → s.buffer.R < a.buffer.R →
    Wp (hereRawLoop h eos h.length indent n str) (fun r s' => HereRes a h (match r with | .inl t => .inl t | .inr (_, e) => .inr e) s') s := by
  intro n
  induction n with
  | zero => intro _ _ _ _ _ h; omega
  | succ n ih =>
    intro str s hi hne hnl hn hle hR
    have hg := hi.good
    unfold hereRawLoop
    obtain ⟨l, hl, hs, hst⟩ := hg.tab.lineAt hg.llen
    refine Wp.bind (Wp.liftB l.start (by show SourceLine.start <$> s.buffer.input.decoded.lineAt _ = _; rw [hl]; rfl) ?_)
    have hptr : l.start ≤ s.buffer.pend := by rw [hs, hg.stop]; exact hg.tab.start_le hg.llen
    obtain ⟨e, h1, h2, h3⟩ := rawLineEnd_ok hg hptr
    refine Wp.bind (Wp.liftB e h1 ?_)
    refine Wp.bind (Wp.modB_same ?_ ?_ ?_)
    · dsimp only; split
      · obtain ⟨h4, _⟩ := foldIndent_bsame ((s.buffer.d.bytes.drop l.start).take (e - l.start)) s.buffer
        exact ⟨⟨h4.same.input, h4.same.lineCount, h4.same.prevline, h4.same.lastline, h4.same.nextline, h4.same.pbeg,
          h4.same.pend, h4.same.sl⟩, h4.pcur, h4.eofp⟩
      · exact .refl _
    · dsimp only; split
      · exact (foldIndent_bsame _ _).2
      · rfl
    intro s1 h4 h5 h6
    have hd1 : s1.buffer.d = s.buffer.d := by simp only [Buffer.d, h5.same.input]
    refine Wp.bind (Wp.liftB _ (substrAt_ok h2 (by rw [hd1]; have := hg.pend_le; omega)) ?_)
    dsimp only
    refine Wp.bind (Wp.getB ?_)
    have hg1 := h5.good hg
    have hn1 : s1.buffer.nextline = 0 := by rw [h5.same.nextline]; exact hnl
    have he1 : s1.buffer.eofp = false := by rw [h5.eofp]; exact hne
    refine Wp.bind (Wp.gotoEol hg1 hn1 he1 ?_)
    intro s2 h7 h8 h9 h10 h11
    have hf2 : Fw s s2 := h4.fw.trans h7.fw
    have hi2 := hi.fwd hf2 h8
    have hR2 := hf2.1.meas
    have hle2 : s2.lvalEnd = none := by rw [hf2.2.2.2.1]; exact hle
    refine Wp.bind (Wp.getB ?_)
    refine Wp.ite (fun _ => ?_) (fun _ => ?_)
    · refine Wp.bind ⟨_, _, rfl, Wp.pure ?_⟩
      refine hi2.content rfl ⟨rfl, rfl, rfl⟩ (by decide) (by omega) (.inr ?_)
      show s2.lvalStart.getD _ ≤ s2.lvalEnd.getD _ ∧ (s2.lvalEnd.getD _ ≤ _ ∨ _)
      rw [hle2, hi2.ls]
      simp only [Option.getD_some, Option.getD_none]
      exact ⟨hi2.fw.pcur, .inl (by have := Good.pcur_le h8; rw [hi2.len] at this; exact this)⟩
    · refine Wp.bind (Wp.nextcG h8 ?_)
      intro b0 c s3 hr
      have hi3 := hi2.fwd hr.fw hr.good
      refine Wp.ite (fun _ => ?_) (fun hc => ?_)
      · refine Wp.bind ((hereDocumentError_wp hi3 ho ha he).mono ?_)
        intro t s4 h12
        exact Wp.pure h12
      · cases c with
        | none => exact absurd rfl hc
        | some ch =>
        have hm := hr.meas
        have htab : a.buffer.d.Tabled := by have := hi.good.tab; simpa only [Buffer.d, hi.fw.input] using this
        refine Wp.bind (atHeredocEnd_wp (by rw [he, hi3.len]; exact hereEos htab ho) ?_)
        intro r
        have hp := hr.pos
        have hle3 := hr.fw.2.2.2.1.trans hle2
        refine Wp.ite (fun _ => ?_) (fun _ => ?_)
        · refine Wp.bind (Wp.liftB _ (csub_of_le (by have := hr.good.hi; omega)) ?_)
          refine Wp.bind (Wp.modS ?_)
          refine Wp.bind (computeHeredocEnd_wp (s := { s3 with lvalEnd := some (s3.buffer.pend - 1) }) (Good.pbeg_le hr.good) ?_)
          intro e' he'
          refine Wp.pure ⟨⟨hi3.fw, hi3.good, hi3.ls, hi3.st, hi3.com, hi3.mag⟩, ?_, _, rfl, ?_, ?_⟩
          · have : s3.buffer.d = a.buffer.d := by simp only [Buffer.d, hi3.fw.input]
            rw [← this]; exact he'
          · have h13 := (hr.isSome ch rfl).2.lt
            have h14 := hr.fw0.pcur
            have := hr.good.hi
            have := hi2.fw.pcur
            omega
          · have := hr.good.pend_le; rw [hi3.len] at this; omega
        · exact ih _ s3 hi3 hr.noeof hr.nonl (by omega) hle3 (by omega)

theorem eof_meas {b b' : Buffer} {ch : UInt8} (hg' : Good b') (hf : FwB b b') (he : b'.eofp = true) (ha : Ahead b ch) :
    b'.R + 8 ≤ b.R := by
  obtain ⟨h1, b1, h2⟩ := ha
  have h3 := h2.lt
  have h4 := h2.good.hi
  have h5 := h2.same.pend
  have hi := hf.input
  have hlc := hf.lc
  have hm := hg'.tab.stop_mono (i := b.lineCount - 1) (j := b'.lineCount - 1) (by omega) (by have := hg'.lc; have := hg'.ll; omega)
  unfold Buffer.R Buffer.unread Buffer.curW Buffer.d
  rw [he, h2.noeof, hi, h1]
  simp only [Buffer.d, hi] at hm
  simp only [if_true, Bool.false_eq_true, if_false, ne_eq, not_true_eq_false]
  split <;> omega

theorem heredocFlush_wp {Q : Tok → Lexer → Prop} (hq : ∀ s', s'.buffer = s.buffer → s'.strterm = s.strterm ∧ s'.comments = s.comments ∧
      s'.magicComments = s.magicComments → s'.lvalStart = s.lvalStart → s'.lvalEnd = s.lvalEnd → Q .tSTRING_CONTENT s') :
    Wp heredocFlush Q s := by
  unfold heredocFlush heredocFlushStr
  refine Wp.bind ⟨_, _, rfl, Wp.bind ⟨_, _, rfl, Wp.pure (hq _ rfl ⟨rfl, rfl, rfl⟩ rfl rfl)⟩⟩

theorem hereExpandLoop_wp (ho : HereOk a.buffer.d h) (ha : HereAt a.buffer h) {eos indent : Nat}
    (he : eos = a.buffer.d.lStart h.lastline + h.offset) : ∀ n (c : MB) (p s1 s : Lexer) (b0 : Buffer), HI a p → RdG p b0 c s1 →
    BSame s1.buffer s.buffer → s.buffer.ptok = s1.buffer.ptok → Fr s1 s → p.buffer.R + 2 ≤ n →
    (p.buffer.R + 8 ≤ a.buffer.R ∨ ∃ ch, c = some ch ∧ ¬ (hasF h.func STR_FUNC_EXPAND = true ∧ ch = asc '#')) →
    Wp (hereExpandLoop h eos h.length indent n c) (HereRes a h) s := by
  intro n
  induction n with
  | zero => intro _ _ _ _ _ _ _ _ _ _ h; omega
  | succ n ih =>
    intro c p s1 s b0 hi hr hb ht hf hn hp
    unfold hereExpandLoop
    refine Wp.bind (Wp.pushbackG hr hb ht hf ?_)
    intro s2 h1 h2 h3 h4 h5
    have hi2 := hi.fwd h1 h2
    have hR0 := hi.fw.meas
    have hR1 := h1.1.meas
    refine Wp.bind ((tokaddString_wp h2).mono ?_)
    rintro ⟨r, k⟩ s3 ⟨h6, h7, h8⟩
    have hi3 := hi2.fwd h6 h7
    have hR2 := h6.1.meas
    dsimp only at h8
    match r, h8 with
    | none, h8 =>
      dsimp only
      refine Wp.bind (Wp.getB ?_)
      refine Wp.ite (fun _ => ?_) (fun _ => ?_)
      · refine Wp.bind ((hereDocumentError_wp hi3 ho ha he).mono ?_)
        intro t s4 h12
        exact Wp.pure h12
      · refine Wp.bind ((hereDocumentRestore_wp hi3 ho ha).mono ?_)
        intro t s4 h12
        exact Wp.pure h12
    | some c2, h8 =>
      dsimp only
      refine Wp.bind (Wp.modS ?_)
      have hi4 : HI a { s3 with lvalEnd := some (s3.buffer.pcur + 1) } := ⟨hi3.fw, hi3.good, hi3.ls, hi3.st, hi3.com, hi3.mag⟩
      generalize hs4 : ({ s3 with lvalEnd := some (s3.buffer.pcur + 1) } : Lexer) = s4 at hi4 ⊢
      have hb4 : s4.buffer = s3.buffer := by rw [← hs4]
      have hle4 : s4.lvalEnd = some (s3.buffer.pcur + 1) := by rw [← hs4]
      have hpc := hi3.fw.pcur
      have hlen := Good.pcur_le h7
      rw [hi3.len] at hlen
      refine Wp.ite (fun hc => ?_) (fun hc => ?_)
      · -- the content stops within the line
        have hstrict : s3.buffer.R < a.buffer.R := by
          rcases hp with hp | ⟨ch, rfl, hp⟩
          · omega
          · have hah : Ahead s2.buffer ch := hr.ahead.bsame h3
            match c2, h8, hc with
            | none, h8, _ =>
              rcases h8 with h8 | h8
              · have := eof_meas h7 h6.1 h8 hah; omega
              · omega
            | some x, h8, hc =>
              rcases h8 with ⟨_, h8⟩ | ⟨_, _, h8 | ⟨h8, b1, s5, h9⟩⟩
              · omega
              · omega
              · obtain ⟨h10, _⟩ := hah.read h9
                cases h10
                rcases h8 with ⟨h8, _⟩ | h8 | ⟨h8, _⟩
                · exact absurd (by rw [h8]) hc
                · exact absurd h8 hp
                · rw [ho.words] at h8; simp at h8
        have fin : ∀ s5, s5.strterm = s4.strterm ∧ s5.comments = s4.comments ∧ s5.magicComments = s4.magicComments →
            s5.lvalStart = s4.lvalStart → s5.lvalEnd = s4.lvalEnd → BSame s4.buffer s5.buffer → s5.buffer.ptok = s4.buffer.ptok →
            Wp (do Pure.pure (Sum.inl (← heredocFlush))) (HereRes a h) s5 := by
          intro s5 e1 e2 e3 e4 e5
          refine Wp.bind (heredocFlush_wp ?_)
          intro s6 e6 e7 e8 e9
          have hi5 : HI a s5 := ⟨hi4.fw.trans (e4.locB' e5).fw, e4.good hi4.good, e2.trans hi4.ls,
            e1.1.trans hi4.st, e1.2.1.trans hi4.com, e1.2.2.trans hi4.mag⟩
          refine Wp.pure (hi5.content e6 e7 (by decide) (by rw [e4.R, hb4]; exact hstrict) (.inr ?_))
          rw [e9, e3, hle4, e8, hi5.ls]
          simp only [Option.getD_some]
          refine ⟨by omega, ?_⟩
          have : s3.buffer.pcur + 1 ≤ a.buffer.d.bytes.length ∨ s3.buffer.pcur + 1 = a.buffer.d.bytes.length + 1 := by omega
          exact this.imp id fun h => ⟨by trivial, h⟩
        refine Wp.ite (fun _ => ?_) (fun _ => ?_)
        · refine Wp.bind (Wp.modB ?_)
          exact fin _ ⟨rfl, rfl, rfl⟩ rfl rfl ⟨⟨rfl, rfl, rfl, rfl, rfl, rfl, rfl, rfl⟩, rfl, rfl⟩ rfl
        · exact fin _ ⟨rfl, rfl, rfl⟩ rfl rfl (.refl _) rfl
      · -- the line ends
        have hc2 : c2 = some 10 := by simpa using hc
        subst hc2
        have hah : Ahead s4.buffer 10 := by
          rw [hb4]
          rcases h8 with ⟨h8, _⟩ | ⟨h8, _⟩
          · exact absurd h8 (by decide)
          · exact h8
        refine Wp.bind (Wp.nextcG hi4.good ?_)
        intro b1 c3 s5 hr5
        obtain ⟨rfl, _⟩ := hah.read hr5
        have hm5 := hr5.meas
        rw [hb4] at hm5
        refine Wp.bind (Wp.tokaddMB (by simp) ?_)
        intro s6 h6s
        have hi6 := (hi4.fwd hr5.fw hr5.good).fwd h6s.fw (h6s.good hr5.good)
        have hle6 : s6.lvalEnd = some (s3.buffer.pcur + 1) := (h6s.2.2.2.1.trans hr5.fw.2.2.2.1).trans hle4
        have hR6 : s6.buffer.R = s5.buffer.R := by rw [h6s.1]
        have hx2 : s3.buffer.pcur + 1 ≤ a.buffer.d.bytes.length := by
          obtain ⟨_, b', hb'⟩ := hah
          have := hb'.lt; have := Good.pcur_le hb'.good
          have e : b'.d = a.buffer.d := by simp only [Buffer.d, hb'.same.input, hi4.fw.input]
          rw [e] at this; rw [hb4] at *; omega
        refine Wp.bind (Wp.getB ?_)
        refine Wp.ite (fun _ => ?_) (fun _ => ?_)
        · refine Wp.bind (Wp.gotoEol hi6.good (by rw [h6s.1]; exact hr5.nonl) (by rw [h6s.1]; exact hr5.noeof) ?_)
          intro s7 h9 h10 _ _ _
          have hi7 := hi6.fwd h9.fw h10
          have hR7 := h9.fw.1.meas
          refine Wp.bind (heredocFlush_wp ?_)
          intro s8 e6 e7 e8 e9
          refine Wp.pure (hi7.content e6 e7 (by decide) (by omega) (.inr ?_))
          rw [e9, h9.2.2.2.1, hle6, e8, hi7.ls]
          simp only [Option.getD_some]
          exact ⟨by omega, .inl hx2⟩
        · refine Wp.bind (Wp.nextcG hi6.good ?_)
          intro b2 c4 s7 hr7
          have hi7 := hi6.fwd hr7.fw hr7.good
          refine Wp.ite (fun _ => ?_) (fun hc => ?_)
          · refine Wp.bind ((hereDocumentError_wp hi7 ho ha he).mono ?_)
            intro t s4 h12
            exact Wp.pure h12
          · have htab : a.buffer.d.Tabled := by have := hi.good.tab; simpa only [Buffer.d, hi.fw.input] using this
            refine Wp.bind (atHeredocEnd_wp (by rw [he, hi7.len]; exact hereEos htab ho) ?_)
            intro r
            refine Wp.ite (fun _ => ?_) (fun _ => ?_)
            · refine Wp.bind (computeHeredocEnd_wp (Good.pbeg_le hr7.good) ?_)
              intro e' he'
              refine Wp.pure ⟨hi7, ?_, _, (hr7.fw.2.2.2.1).trans hle6, by omega, by omega⟩
              have : s7.buffer.d = a.buffer.d := by simp only [Buffer.d, hi7.fw.input]
              rw [← this]; exact he'
            · exact ih c4 s6 s7 s7 b2 hi6 hr7 (.refl _) rfl (.refl _) (by omega) (.inl (by omega))

theorem hereBody_wp (ho : HereOk a.buffer.d h) (ha : HereAt a.buffer h) {eos indent : Nat}
    (he : eos = a.buffer.d.lStart h.lastline + h.offset) {c : MB} {p s1 : Lexer} {b0 : Buffer} (hi : HI a p) (hr : RdG p b0 c s1)
    (hb : BSame s1.buffer s.buffer) (ht : s.buffer.ptok = s1.buffer.ptok) (hf : Fr s1 s) (hc : c ≠ none) (hle : p.lvalEnd = none) :
    Wp (hereBody h eos h.length indent c) (HerePost a h) s := by
  unfold hereBody
  have hfs : Fw p s := hr.fw.trans ⟨(hb.locB' ht).fw, hf⟩
  have his : HI a s := hi.fwd hfs (hb.good hr.good)
  have hles : s.lvalEnd = none := hfs.2.2.2.1.trans hle
  have hRa := hi.fw.meas
  cases c with
  | none => exact absurd rfl hc
  | some ch =>
  have hm := hr.meas
  have hRs := hb.R
  refine Wp.ite (fun _ => ?_) (fun hx => ?_)
  · refine Wp.bind (Wp.fuel ?_)
    refine Wp.bind ((hereRawLoop_wp ho ha he _ _ s his (by rw [hb.eofp]; exact hr.noeof) (by rw [hb.same.nextline]; exact hr.nonl)
      (by have := fuel_ok his.good rfl; omega) hles (by omega)).mono ?_)
    rintro (t | ⟨str, e⟩) s2 h1
    · exact Wp.pure h1
    · obtain ⟨h2, h3, x, h4, h5, h6⟩ := h1
      exact hereFinish_wp h2 ho ha h3 h4 h5 h6
  · have fromC : ∀ (c : MB) (p s1 s : Lexer) (b0 : Buffer), HI a p → RdG p b0 c s1 →
        BSame s1.buffer s.buffer → s.buffer.ptok = s1.buffer.ptok → Fr s1 s →
        (p.buffer.R + 8 ≤ a.buffer.R ∨ ∃ ch, c = some ch ∧ ¬ (hasF h.func STR_FUNC_EXPAND = true ∧ ch = asc '#')) → Wp (do
          match ← hereExpandLoop h eos h.length indent (← Lexer.fuel) c with
          | .inl t => Pure.pure t
          | .inr e => hereFinish h (← Lexer.getS (·.tokenbuf)) e) (HerePost a h) s := by
      intro c p s1 s b0 hi hr hb ht hf hp
      refine Wp.bind (Wp.fuel ?_)
      have hfp := hr.fw.trans ⟨(hb.locB' ht).fw, hf⟩
      refine Wp.bind ((hereExpandLoop_wp ho ha he _ c p s1 s b0 hi hr hb ht hf (by
        have := fuel_ok (b := s.buffer) hi.good hfp.1.input.symm; omega) hp).mono ?_)
      rintro (t | e) s2 h1
      · exact Wp.pure h1
      · obtain ⟨h2, h3, x, h4, h5, h6⟩ := h1
        exact Wp.bind (Wp.getS (hereFinish_wp h2 ho ha h3 h4 h5 h6))
    refine Wp.bind (Wp.newtok ?_)
    intro s2 h1 h2 h3 _
    have hb2 : BSame s1.buffer s2.buffer := ⟨hb.same.trans h2.same, h2.pcur.trans hb.pcur, h2.eofp.trans hb.eofp⟩
    have hi2 := his.fwd h1.fw (h2.good his.good)
    have hle2 : s2.lvalEnd = none := h1.2.2.2.1.trans hles
    refine Wp.ite (fun hh => ?_) (fun hh => ?_)
    · have hch := isC_some hh
      have h10 : ch ≠ 10 := by rintro rfl; exact absurd hch (by decide)
      refine Wp.bind ((peekVariableName_wp (hb2.mid (hr.mid h10)) (by rw [hb2.eofp]; exact hr.noeof)).mono ?_)
      intro r s3 hpv
      have hl3 : Loc s2 s3 ∧ Good s3.buffer := by
        rcases hpv with ⟨_, h⟩ | ⟨h, h', _⟩
        · exact ⟨h.loc, h.good hi2.good⟩
        · exact ⟨h, h'.toGood⟩
      have hi3 := hi2.fwd hl3.1.fw hl3.2
      have hR3 := hl3.1.fw.1.meas
      have hR2 := h2.R
      refine Wp.bind (Wp.modB_same ?_ ?_ ?_)
      · split
        · split
          · exact ⟨⟨rfl, rfl, rfl, rfl, rfl, rfl, rfl, rfl⟩, rfl, rfl⟩
          · exact ⟨⟨rfl, rfl, rfl, rfl, rfl, rfl, rfl, rfl⟩, rfl, rfl⟩
        · exact .refl _
      · split
        · split <;> rfl
        · rfl
      intro s4 h4 h5 h6
      have hi4 := hi3.fwd h4.fw (h5.good hl3.2)
      have hR4 := h5.R
      have hle4 : s4.lvalEnd = none := (h4.2.2.2.1.trans hl3.1.2.2.2.1).trans hle2
      cases r with
      | some t =>
        dsimp only
        have htt : t ≠ .END_OF_INPUT := by
          rcases hpv with ⟨h, _⟩ | ⟨_, _, h | h⟩ <;> cases h <;> decide
        refine Wp.pure (hi4.content rfl ⟨rfl, rfl, rfl⟩ htt (by omega) (.inr ?_))
        rw [hle4, hi4.ls]
        simp only [Option.getD_some, Option.getD_none]
        exact ⟨hi4.fw.pcur, .inl (by have := Good.pcur_le hi4.good; rw [hi4.len] at this; exact this)⟩
      | none =>
        dsimp only
        refine Wp.bind (Wp.pu (Pu.tokadd _) ?_)
        intro _ s5 h5s
        have hi5 := hi4.fwd h5s.fw (h5s.good hi4.good)
        have hR5 : s5.buffer.R = s4.buffer.R := by rw [h5s.1]
        refine Wp.bind (Wp.nextcG hi5.good ?_)
        intro b1 c1 s6 hr6
        exact fromC c1 s5 s6 s6 b1 hi5 hr6 (.refl _) rfl (.refl _) (.inl (by omega))
    · refine fromC (some ch) p s1 s2 b0 hi hr hb2 (h3.trans ht) (hf.trans h1.2) (.inr ⟨ch, rfl, ?_⟩)
      rintro ⟨_, rfl⟩
      exact hh rfl

theorem hereDocument_wp (hg : Good s.buffer) (ho : HereOk s.buffer.d h) (ha : HereAt s.buffer h) (hle : s.lvalEnd = none) :
    Wp (hereDocument h) (HerePost s h) s := by
  unfold hereDocument
  refine Wp.bind (Wp.modS ?_)
  obtain ⟨l, hl, hs, hst⟩ := hg.tab.lineAt ho.line
  refine Wp.bind (Wp.liftB l hl ?_)
  have hi : HI s { s with lvalStart := some s.buffer.pcur } := ⟨.refl _, hg, rfl, rfl, rfl, rfl⟩
  refine Wp.bind (Wp.nextcG hi.good ?_)
  intro b0 c s1 hr
  have hi1 := hi.fwd hr.fw hr.good
  have heos : l.start + h.offset = s.buffer.d.lStart h.lastline + h.offset := by rw [hs]
  refine Wp.ite (fun _ => hereDocumentError_wp hi1 ho ha heos) (fun hc => ?_)
  have hc' : c ≠ none := by rintro rfl; exact hc rfl
  have body : ∀ s2, BSame s1.buffer s2.buffer → s2.buffer.ptok = s1.buffer.ptok → Fr s1 s2 →
      Wp (hereBody h (l.start + h.offset) h.length (h.func &&& STR_FUNC_INDENT) c) (HerePost s h) s2 :=
    fun s2 h1 h2 h3 => hereBody_wp ho ha heos hi hr h1 h2 h3 hc' hle
  refine Wp.bind (Wp.getB ?_)
  refine Wp.ite (fun _ => body s1 (.refl _) rfl (.refl _)) (fun _ => ?_)
  refine Wp.bind (Wp.getB ?_)
  refine Wp.ite (fun _ => ?_) (fun _ => ?_)
  · refine Wp.bind (Wp.modB ?_)
    exact body _ ⟨⟨rfl, rfl, rfl, rfl, rfl, rfl, rfl, rfl⟩, rfl, rfl⟩ rfl (.refl _)
  · refine Wp.bind (atHeredocEnd_wp (by rw [heos, hi1.len]; exact hereEos hg.tab ho) ?_)
    intro r
    refine Wp.ite (fun _ => hereDocumentRestore_wp hi1 ho ha) (fun _ => body s1 (.refl _) rfl (.refl _))

end

/-- A stretch of the line without line ends was read. -/
structure Plain (s s' : Lexer) : Prop where
  loc : Loc s s'
  mid : Mid s'.buffer
  ptok : s'.buffer.ptok = s.buffer.ptok
  plain : ∀ j, s.buffer.pcur ≤ j → j < s'.buffer.pcur → PlainAt s.buffer j

theorem Plain.refl (hm : Mid s.buffer) : Plain s s := ⟨.refl _, hm, rfl, by intro j h1 h2; omega⟩
theorem Plain.trans {a b c : Lexer} (h : Plain a b) (h' : Plain b c) : Plain a c := by
  refine ⟨h.loc.trans h'.loc, h'.mid, h'.ptok.trans h.ptok, ?_⟩
  intro j h1 h2
  by_cases e : j < b.buffer.pcur
  · exact h.plain j h1 e
  · have := h'.plain j (by omega) h2
    unfold PlainAt at this ⊢
    simpa only [Buffer.d, h.loc.1.same.input] using this
theorem Same.plain {s s' : Lexer} (h : Same s s') (hm : Mid s.buffer) : Plain s s' := by
  refine ⟨h.loc, h.mid hm, by rw [h.1], ?_⟩
  intro j h1 h2; rw [h.1] at h2; omega
theorem Rd.plain {s s' : Lexer} {ch : UInt8} (h : Rd s (some ch) s') (h10 : ch ≠ 10) (h13 : ch ≠ 13) : Plain s s' := by
  have h1 := h.isSome ch rfl
  obtain ⟨h2, h3⟩ := h1.byte h10
  refine ⟨h.loc, h.mid (by simpa using h10), by rw [h1.eq], ?_⟩
  intro j h4 h5
  rw [show j = s.buffer.pcur by omega]
  unfold PlainAt
  rw [h3]
  exact ⟨by simpa using h10, by simpa using h13⟩
theorem Rd.lt {s s' : Lexer} {ch : UInt8} (h : Rd s (some ch) s') : s.buffer.pcur < s'.buffer.pcur := (h.isSome ch rfl).lt
theorem Rd.noeof {s s' : Lexer} {ch : UInt8} (h : Rd s (some ch) s') : s'.buffer.eofp = false := by
  have h1 := h.isSome ch rfl
  rw [h1.eq]; exact h1.noeof

theorem hereQuoteLoop_wp {t : UInt8} (h10 : t ≠ 10) (h13 : t ≠ 13) : ∀ n (s : Lexer), Mid s.buffer → s.buffer.R + 2 ≤ n →
    Wp (hereQuoteLoop (some t) n) (fun r s' => r = true → Plain s s' ∧ s.buffer.pcur < s'.buffer.pcur ∧ s'.buffer.eofp = false) s := by
  intro n
  induction n with
  | zero => intro _ _ h; omega
  | succ n ih =>
    intro s hm hn
    unfold hereQuoteLoop
    refine Wp.bind (Wp.nextc hm ?_)
    intro c s1 hr
    refine Wp.ite (fun h => ?_) (fun h => ?_)
    · subst h
      exact Wp.pure fun _ => ⟨hr.plain h10 h13, hr.lt, hr.noeof⟩
    · refine Wp.ite (fun h => ?_) (fun h => ?_)
      · wsteps
        simp
      · cases c with
        | none => exact absurd rfl h
        | some ch =>
          have e10 : ch ≠ 10 := by rintro rfl; exact h rfl
          have e13 : ch ≠ 13 := by rintro rfl; exact h rfl
          have hp := hr.plain e10 e13
          have := hr.meas (by simp)
          refine (ih s1 hp.mid (by omega)).mono ?_
          intro r s2 h1 h2
          obtain ⟨h3, h4, h5⟩ := h1 h2
          exact ⟨hp.trans h3, by have := hr.lt; omega, h5⟩

theorem Wp.advancePlain {Q : Unit → Lexer → Prop} {k : Nat} (hm : Mid s.buffer) (he : s.buffer.eofp = false)
    (hk : s.buffer.pcur + k ≤ s.buffer.pend)
    (hp : ∀ j, s.buffer.pcur ≤ j → j < s.buffer.pcur + k → PlainAt s.buffer j)
    (hq : ∀ s', Plain s s' → s'.buffer.eofp = false → Q () s') : Wp (Lexer.modB fun b => { b with pcur := b.pcur + k }) Q s := by
  refine Wp.advance hm (fun _ => he) hk hp ?_
  intro s' h1 h2 h3 h4 h5
  exact hq s' ⟨h1, h2, h5, by intro j h6 h7; exact hp j h6 (by omega)⟩ (h4.trans he)

theorem Rd.ident13 {p s : Lexer} {ch : UInt8} (h : Rd p (some ch) s)
    (hi : s.buffer.eofp = false ∧ s.buffer.isIdentcharAt (s.buffer.pcur - 1) = true) : ch ≠ 13 := by
  rintro rfl
  have h11 := ((h.isSome 13 rfl).byte (by decide))
  have h12 := hi.2
  unfold Buffer.isIdentcharAt Input.byteAt at h12
  have h13 : s.buffer.input.decoded.bytes[s.buffer.pcur - 1]? = some 13 := by
    rw [h11.1, h.loc.1.same.input, Nat.add_sub_cancel]; exact h11.2
  rw [h13] at h12
  exact absurd h12 (by decide)

theorem hereIdLoop_wp : ∀ n (s : Lexer), Mid s.buffer → s.buffer.eofp = false → s.buffer.R + 2 ≤ n →
    Wp (hereIdLoop n) (fun r s' => ∀ c, r = some c → ∃ p, Plain s p ∧ Rd p c s') s := by
  intro n
  induction n with
  | zero => intro _ _ _ h; omega
  | succ n ih =>
    intro s hm hne hn
    unfold hereIdLoop
    have h1 := hm.lt
    refine Wp.bind (Wp.pcurSub (by omega) (Wp.bind (Wp.multibyteCharLen ?_)))
    intro r s1 hs hr
    cases r with
    | none => exact Wp.pure (by simp)
    | some len =>
      dsimp only
      obtain ⟨h2, h3, h4, h5⟩ := hr len rfl
      refine Wp.bind (Wp.liftB _ (csub_of_le h2) ?_)
      have hline := mb_on_line hm h4 h5
      have hps := hs.plain hm
      refine Wp.bind (Wp.advancePlain (hs.mid hm) (by rw [hs.1]; exact hne) (by rw [hs.1]; omega) ?_ ?_)
      · rw [hs.1]; intro j hj1 hj2; exact h5 j (by omega) (by omega)
      intro s2 h6 h7
      have h8 := hps.trans h6
      refine Wp.bind (Wp.nextc h6.mid ?_)
      intro c s3 hr3
      have hstop : ∀ c', some c = some c' → ∃ p, Plain s p ∧ Rd p c' s3 := by
        intro c' e; cases e; exact ⟨s2, h8, hr3⟩
      refine Wp.ite (fun h => Wp.pure hstop) (fun h => ?_)
      refine Wp.bind (Wp.isIdentchar hr3.pos ?_)
      intro r hri
      refine Wp.ite (fun h => Wp.pure hstop) (fun hid => ?_)
      have hri' := hri.1 (by simpa using hid)
      obtain ⟨h10, hnn⟩ := hr3.ident hri'
      cases c with
      | none => exact absurd rfl hnn
      | some ch =>
        have e10 : ch ≠ 10 := by rintro rfl; exact h10 rfl
        have e13 : ch ≠ 13 := hr3.ident13 hri'
        have hp3 := hr3.plain e10 e13
        have := hr3.meas (by simp)
        have hR2 := h8.loc.1.meas
        refine (ih s3 hp3.mid hr3.noeof (by omega)).mono ?_
        intro r s4 h11 c' e
        obtain ⟨p, h12, h13⟩ := h11 c' e
        exact ⟨p, (h8.trans hp3).trans h12, h13⟩

/-- An opened heredoc. -/
structure HStart (s : Lexer) (t : Tok) (s' : Lexer) : Prop where
  tok : t = .tSTRING_BEG ∨ t = .tXSTRING_BEG
  same : SameLine s.buffer s'.buffer
  good : Good s'.buffer
  com : s'.comments = s.comments
  mag : s'.magicComments = s.magicComments
  loc : ∃ j, s'.lvalStart = some s.buffer.ptok ∧ s'.lvalEnd = some j ∧ s.buffer.ptok + 2 ≤ j ∧ j ≤ s.buffer.d.bytes.length ∧
    s'.lval = some (Spec.slice s.buffer.d.bytes s.buffer.ptok j)
  next : ∃ h, s'.strterm = some (.heredoc h) ∧ HereOk s.buffer.d h ∧ HereAt s.buffer h ∧
    s'.buffer.R + hereT s.buffer.d h + 5 ≤ s.buffer.R

theorem R_eol {b b' : Buffer} (hs : SameLine b b') (hn : b.nextline = 0) (he : b.eofp = false) (hp : b'.pcur = b'.pend) :
    b'.R + (if b.pbeg = b.d.lStart b.lastline then 8 * (b.pend - b.pcur) else 32 * (b.pend - b.pcur)) ≤ b.R := by
  unfold Buffer.R Buffer.unread Buffer.curW Buffer.d
  rw [hs.input, hs.lineCount, hs.nextline, hs.lastline, hs.pbeg, hp, he, hn]
  simp only [Nat.sub_self, Nat.mul_zero, ite_self, ne_eq, not_true_eq_false, if_false, Bool.false_eq_true]
  omega

theorem heredocStart_wp {p : Lexer} {t : Tok} {offset quote f : Nat} {indent : Int} (hm : Mid s.buffer)
    (hne : s.buffer.eofp = false) (ht : t = .tSTRING_BEG ∨ t = .tXSTRING_BEG)
    (hpl : ∀ j, s.buffer.ptok ≤ j → j < p.buffer.pcur → PlainAt s.buffer j) (hpt : s.buffer.ptok + 2 ≤ s.buffer.pcur)
    (hw : hasF f STR_FUNC_QWORDS = false) (hq : quote ≤ offset) (ho : s.buffer.pbeg + offset + quote ≤ p.buffer.pcur)
    (hp : Loc s p) (hmp : Mid p.buffer) (hpp : p.buffer.ptok = s.buffer.ptok) (hlt : s.buffer.pcur < p.buffer.pcur) :
    Wp (heredocStart t offset quote f indent) (HStart s) p := by
  unfold heredocStart
  have e1 := hp.1.same
  have hd : p.buffer.d = s.buffer.d := by simp only [Buffer.d, e1.input]
  have e2 := e1.pbeg
  have e3 := e1.pend
  have hgp := hmp.toGood
  have hhi := hgp.hi
  have hlen := Good.pcur_le hgp
  refine Wp.bind (Wp.liftB (p.buffer.pcur - (p.buffer.pbeg + offset) - quote) ?_ ?_)
  · rw [csub_of_le (by omega)]
    simp only [Bind.bind, Except.bind]
    exact csub_of_le (by omega)
  refine Wp.bind (Wp.liftB _ (substrAt_ok (by omega) hlen) ?_)
  refine Wp.bind ⟨_, _, rfl, ?_⟩
  refine Wp.bind (Wp.modS (Wp.bind ⟨_, _, rfl, Wp.bind (Wp.modS (Wp.bind ⟨_, _, rfl, Wp.bind (Wp.modB (Wp.pure ?_))⟩))⟩))
  rw [hd] at hlen
  have hg1 := hm.toGood
  have hst := hg1.start
  have hl3 := hg1.start_le3
  have hge := hg1.start_ge
  have hstop := hg1.stop
  refine ⟨ht, ?_, ?_, ?_, ?_, ⟨p.buffer.pcur, ?_, rfl, ?_, hlen, ?_⟩,
    ⟨p.buffer.lastline, offset, p.buffer.rubySourceline, p.buffer.pcur - (p.buffer.pbeg + offset) - quote, quote, f⟩, rfl, ?_, ⟨?_, ?_⟩, ?_⟩
  · exact ⟨e1.input, e1.lineCount, e1.prevline, e1.lastline, e1.nextline, e1.pbeg, e1.pend, e1.sl⟩
  · exact { hgp with lo := by show p.buffer.pbeg ≤ p.buffer.pend; have := hgp.lo; omega
                     hi := Nat.le_refl _
                     ns := fun _ h => absurd h (Nat.lt_irrefl _) }
  · exact hp.2.2.2.2.1
  · exact hp.2.2.2.2.2
  · show some p.buffer.ptok = _; rw [hpp]
  · omega
  · show some (Spec.slice p.buffer.d.bytes p.buffer.ptok p.buffer.pcur) = _; rw [hpp, hd]
  · have hrp : hereRp s.buffer.d ⟨p.buffer.lastline, offset, p.buffer.rubySourceline, p.buffer.pcur - (p.buffer.pbeg + offset) - quote, quote, f⟩
        = p.buffer.pcur - (s.buffer.pbeg - s.buffer.d.lStart s.buffer.lastline) := by
      unfold hereRp; dsimp only; rw [e1.lastline]; omega
    refine ⟨?_, ?_, ?_, ?_, hw⟩
    · show p.buffer.lastline < _; rw [e1.lastline]; exact hg1.llen
    · show quote ≤ _ + offset; omega
    · rw [hrp]; show _ ≤ s.buffer.d.lStop p.buffer.lastline; rw [e1.lastline]; omega
    · rw [hrp]
      intro h1 h2
      rcases hst with hst | ⟨hst1, hst2⟩
      · rw [show p.buffer.pcur - (s.buffer.pbeg - s.buffer.d.lStart s.buffer.lastline) - 1 = p.buffer.pcur - 1 by omega] at h2
        exact (hpl _ (by omega) (by omega)).2 h2
      · exact (hpl _ (by omega) (by omega)).1 h1
  · show p.buffer.lastline < _; rw [e1.lastline]; exact hg1.ll
  · intro h; exact absurd hm.nonl h
  · have hrp : hereRp s.buffer.d ⟨p.buffer.lastline, offset, p.buffer.rubySourceline, p.buffer.pcur - (p.buffer.pbeg + offset) - quote, quote, f⟩
        = p.buffer.pcur - (s.buffer.pbeg - s.buffer.d.lStart s.buffer.lastline) := by
      unfold hereRp; dsimp only; rw [e1.lastline]; omega
    have hT : hereT s.buffer.d ⟨p.buffer.lastline, offset, p.buffer.rubySourceline, p.buffer.pcur - (p.buffer.pbeg + offset) - quote, quote, f⟩
        = 8 * (s.buffer.pend - (p.buffer.pcur - (s.buffer.pbeg - s.buffer.d.lStart s.buffer.lastline))) + 3 := by
      unfold hereT; rw [hrp, hstop]; dsimp only; rw [e1.lastline]
    have fin : ∀ bb : Buffer, SameLine s.buffer bb → bb.pcur = bb.pend → bb.R + hereT s.buffer.d
        ⟨p.buffer.lastline, offset, p.buffer.rubySourceline, p.buffer.pcur - (p.buffer.pbeg + offset) - quote, quote, f⟩ + 5 ≤ s.buffer.R := by
      intro bb hs hp
      have hR := R_eol hs hm.nonl hne hp
      rw [hT]
      rcases hst with hst | ⟨hst1, hst2⟩
      · rw [if_pos hst] at hR; omega
      · rw [if_neg (by omega)] at hR; omega
    refine fin _ ?_ ?_
    · exact ⟨e1.input, e1.lineCount, e1.prevline, e1.lastline, e1.nextline, e1.pbeg, e1.pend, e1.sl⟩
    · exact rfl

/-- The result of looking for a heredoc after `<<`. -/
def HId (s : Lexer) (r : Option Tok) (s' : Lexer) : Prop :=
  match r with
  | none => Loc s s' ∧ Mid s'.buffer ∧ s'.buffer.pcur = s.buffer.pcur ∧ s'.buffer.ptok = s.buffer.ptok
  | some t => t = .END_OF_INPUT ∨ HStart s t s'

theorem heredocIdentifier_wp (hm : Mid s.buffer) (hne : s.buffer.eofp = false) (hpt : s.buffer.ptok + 2 = s.buffer.pcur)
    (hpl : ∀ j, s.buffer.ptok ≤ j → j < s.buffer.pcur → PlainAt s.buffer j) :
    Wp heredocIdentifier (HId s) s := by
  unfold heredocIdentifier
  have hlo := hm.lt
  refine Wp.bind (Wp.liftB _ (csub_of_le (by omega)) ?_)
  have main : ∀ (c : MB) (f o : Nat) (ind : Int) (p s1 : Lexer), Plain s p → p.buffer.eofp = false → Rd p c s1 →
      s.buffer.pbeg + o = p.buffer.pcur → (f = 0 ∧ p = s ∨ f = STR_FUNC_INDENT ∧ ∃ ch, Rd s (some ch) p) → Wp (do
      if isC c '\'' || isC c '"' || isC c '`' then
        let func := if isC c '\'' then f ||| str_squote else if isC c '"' then f ||| str_dquote else f ||| str_xquote
        let token := if isC c '`' then Tok.tXSTRING_BEG else Tok.tSTRING_BEG
        if !(← hereQuoteLoop c (← Lexer.fuel)) then Pure.pure (some Tok.END_OF_INPUT)
        else Pure.pure (some (← heredocStart token (o + 1) 1 func ind))
      else if !(← Lexer.isIdentchar) then
        Lexer.pushback c
        if hasF f STR_FUNC_INDENT then Lexer.pushbackByte else Pure.pure ()
        Pure.pure none
      else
        match ← hereIdLoop (← Lexer.fuel) with
        | none => Pure.pure (some Tok.END_OF_INPUT)
        | some c =>
          Lexer.pushback c
          Pure.pure (some (← heredocStart .tSTRING_BEG o 0 (f ||| str_dquote) ind))) (HId s) s1 := by
    intro c f o ind p s1 hp hpe hr ho hf
    have hpcur := hp.loc.1.pcur
    have hall : ∀ q : Lexer, Plain s q → ∀ j, s.buffer.ptok ≤ j → j < q.buffer.pcur → PlainAt s.buffer j := by
      intro q hq j h1 h2
      by_cases e : j < s.buffer.pcur
      · exact hpl j h1 e
      · exact hq.plain j (by omega) h2
    refine Wp.ite (fun h => ?_) (fun h => ?_)
    · obtain ⟨ch, rfl, e10, e13⟩ : ∃ ch, c = some ch ∧ ch ≠ 10 ∧ ch ≠ 13 := by
        simp only [Bool.or_eq_true] at h
        rcases h with (h | h) | h <;> exact ⟨_, isC_some h, by decide, by decide⟩
      have hp1 := hp.trans (hr.plain e10 e13)
      have hlt1 := hr.lt
      refine Wp.bind (Wp.fuel ?_)
      refine Wp.bind ((hereQuoteLoop_wp e10 e13 _ s1 hp1.mid (by have := fuel_ok hp1.mid.toGood rfl; omega)).mono ?_)
      intro r s2 h2
      refine Wp.ite (fun h => Wp.pure (.inl rfl)) (fun h => ?_)
      obtain ⟨h3, h4, h5⟩ := h2 (by simpa using h)
      have hp2 := hp1.trans h3
      refine Wp.bind ((heredocStart_wp (s := s) hm hne (by split <;> decide) (hall _ hp2) (by omega) ?_ (by omega)
        (by omega) hp2.loc hp2.mid hp2.ptok (by omega)).mono ?_)
      · rcases hf with ⟨rfl, _⟩ | ⟨rfl, _⟩ <;> (split; decide; split <;> decide)
      · intro t s3 h6
        exact Wp.pure (.inr h6)
    · refine Wp.bind (Wp.isIdentchar hr.pos ?_)
      intro r hid
      refine Wp.ite (fun h => ?_) (fun h => ?_)
      · refine Wp.bind (Wp.pushback_same hr (.refl _) ?_)
        intro s2 h2 h3 h4 h5 h6 h7
        refine Wp.ite (fun hi => ?_) (fun hi => ?_)
        · rcases hf with ⟨rfl, _⟩ | ⟨rfl, ch, hrp⟩
          · exact absurd hi (by decide)
          · refine Wp.bind ?_
            show Wp (Lexer.pushback (some 0)) _ _
            refine Wp.pushback_again hrp (.refl _) hr h2 h4 h5 rfl ?_
            intro s4 h8 h9 h10 h11
            exact Wp.pure ⟨h8, h9, h10, h11⟩
        · rcases hf with ⟨rfl, rfl⟩ | ⟨rfl, ch, hrp⟩
          · exact Wp.pure ⟨h2, h3, h4, h5⟩
          · exact absurd (by decide) hi
      · have hid' := hid.1 (by simpa using h)
        obtain ⟨h10, hnn⟩ := hr.ident hid'
        cases c with
        | none => exact absurd rfl hnn
        | some ch =>
          have e10 : ch ≠ 10 := by rintro rfl; exact h10 rfl
          have hp1 := hp.trans (hr.plain e10 (hr.ident13 hid'))
          have hlt1 := hr.lt
          refine Wp.bind (Wp.fuel ?_)
          refine Wp.bind ((hereIdLoop_wp _ s1 hp1.mid hr.noeof (by have := fuel_ok hp1.mid.toGood rfl; omega)).mono ?_)
          intro r s2 h2
          cases r with
          | none => exact Wp.pure (.inl rfl)
          | some c2 =>
            obtain ⟨q, h3, h4⟩ := h2 c2 rfl
            dsimp only
            refine Wp.bind (Wp.pushback_same h4 (.refl _) ?_)
            intro s3 h5 h6 h7 h8 _ _
            have hq := hp1.trans h3
            have hqp := h3.loc.1.pcur
            refine Wp.bind ((heredocStart_wp (s := s) hm hne (by decide) (by rw [h7]; exact hall _ hq) (by omega) ?_ (by omega)
              (by omega) (hq.loc.trans h5) h6 (h8.trans hq.ptok) (by omega)).mono ?_)
            · rcases hf with ⟨rfl, _⟩ | ⟨rfl, _⟩ <;> decide
            · intro t s3 h6
              exact Wp.pure (.inr h6)
  refine Wp.bind (Wp.nextc hm ?_)
  intro c s1 hr
  have dash : ∀ ch : UInt8, c = some ch → ch ≠ 10 → ch ≠ 13 → Plain s s1 ∧ s1.buffer.eofp = false ∧
      s.buffer.pbeg + (s.buffer.pcur - s.buffer.pbeg + 1) = s1.buffer.pcur ∧ Rd s (some ch) s1 := by
    rintro ch rfl h10 h13
    have := (hr.isSome ch rfl).byte h10
    exact ⟨hr.plain h10 h13, hr.noeof, by omega, hr⟩
  refine Wp.ite (fun h => ?_) (fun h => ?_)
  · obtain ⟨h1, h2, h3, h4⟩ := dash _ (isC_some h) (by decide) (by decide)
    refine Wp.bind (Wp.nextc h1.mid ?_)
    intro c2 s2 hr2
    exact main c2 STR_FUNC_INDENT _ 0 s1 s2 h1 h2 hr2 h3 (.inr ⟨rfl, _, h4⟩)
  · refine Wp.ite (fun h => ?_) (fun h => ?_)
    · obtain ⟨h1, h2, h3, h4⟩ := dash _ (isC_some h) (by decide) (by decide)
      refine Wp.bind (Wp.nextc h1.mid ?_)
      intro c2 s2 hr2
      exact main c2 STR_FUNC_INDENT _ _ s1 s2 h1 h2 hr2 h3 (.inr ⟨rfl, _, h4⟩)
    · exact main c 0 _ 0 s s1 (.refl hm) hne hr (by omega) (.inl ⟨rfl, rfl⟩)

end Verif.Lexer
