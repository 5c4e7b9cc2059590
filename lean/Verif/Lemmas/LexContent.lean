import Verif.Lemmas.LexString
import Verif.Lemmas.LexNumSound
import Verif.Lemmas.Utf8Split
/-! The content of literals without interpolation stays valid UTF-8. -/
namespace Verif
open Spec (slice)

/-- What is left of the current line. -/
def Buffer.rest (b : Buffer) : Bytes := slice b.d.bytes b.pcur b.pend

theorem slice_head {bs : Bytes} {i j : Nat} {c : UInt8} (hi : i < j) (hc : bs[i]? = some c) : slice bs i j = c :: slice bs (i + 1) j := by
  obtain ⟨hlt, hget⟩ := List.getElem?_eq_some_iff.1 hc
  unfold slice
  rw [List.drop_eq_getElem_cons hlt, hget, show j - i = (j - (i + 1)) + 1 by omega, List.take_succ_cons]

theorem slice_empty {bs : Bytes} {i : Nat} : slice bs i i = [] := by simp [slice]

/-- Reading a character takes it from the rest of the line. -/
theorem ReadIn.rest {b b' : Buffer} {ch : UInt8} (h : ReadIn b ch b') :
    (ch ≠ 10 ∧ b.rest = ch :: b'.rest) ∨ (ch = 10 ∧ b'.rest = [] ∧ (b.rest = [10] ∨ b.rest = [13, 10])) := by
  have hd : b'.d = b.d := by simp only [Buffer.d]; rw [h.eq]
  have hpe : b'.pend = b.pend := by rw [h.eq]
  have hhi := h.good.hi
  by_cases e : ch = 10
  · right
    obtain ⟨h1, h2⟩ := h.lf e
    have h3 := h.back
    have hlt := h.lt
    refine ⟨e, by unfold Buffer.rest; rw [h1, slice_empty], ?_⟩
    unfold Buffer.pbPos at h3
    rw [hd] at h3
    unfold Buffer.rest
    split at h3
    · rename_i h4
      right
      have e1 : b'.pcur - 1 - 1 = b.pcur := by rw [← h3]; omega
      rw [e1] at h4
      rw [slice_head (by omega) h4.2.2, slice_head (c := 10) (by omega) (by rw [show b.pcur + 1 = b'.pcur - 1 by omega]; exact h2),
        show b.pcur + 1 + 1 = b.pend by omega, slice_empty]
    · left
      rw [slice_head (bs := b.d.bytes) (i := b.pcur) (c := 10) (by omega) (by rw [← h3]; exact h2), show b.pcur + 1 = b.pend by omega, slice_empty]
  · left
    obtain ⟨h1, h2⟩ := h.byte e
    refine ⟨e, ?_⟩
    unfold Buffer.rest
    rw [slice_head (by omega) h2, hd, hpe, h1]

/-- Lines of valid text are valid. -/
theorem valid_lines {d : DecodedInput} (ht : d.Tabled) (hv : Utf8.valid d.bytes = true) {i p : Nat} (hi : i < d.lines.length)
    (hp : d.lStart i = p) : Utf8.valid (slice d.bytes p (d.lStop i)) = true := by
  have h1 : Utf8.valid (d.bytes.drop p) = true := by
    cases i with
    | zero =>
      have : d.lStart 0 = 0 := by
        obtain ⟨l, hl, h1, h2⟩ := ht.get hi
        rw [h1]
        rw [ht] at hl
        obtain ⟨l', ls, e, h3, _⟩ := linesFrom_head d.bytes 0 0
        rw [e] at hl; cases hl; exact h3
      rw [← hp, this]; exact hv
    | succ i =>
      have h2 := ht.next hi
      have h3 := ht.last_lf hi
      have h4 := ht.nonempty (i := i) hi
      rw [← hp, h2]
      exact (Utf8.valid_cut hv (by omega) h3 (by decide)).2
  have h5 := ht.start_le hi
  unfold slice
  by_cases hl : i + 1 < d.lines.length
  · have h2 := ht.last_lf hl
    have h4 := ht.nonempty (i := i) hl
    refine (Utf8.valid_cut h1 (i := d.lStop i - p) (x := 10) (by omega) ?_ (by decide)).1
    rw [List.getElem?_drop, show p + (d.lStop i - p - 1) = d.lStop i - 1 by omega]; exact h2
  · have : d.lStop i = d.bytes.length := by
      have e : i + 1 = d.lines.length := by omega
      have := ht.last_stop
      rwa [← e, Nat.add_sub_cancel] at this
    rw [this, List.take_of_length_le (by simp)]
    exact h1

namespace Lexer

/-- The content so far and what is left of the line are valid together. -/
structure CV (bs : Bytes) (s : Lexer) : Prop where
  good : Good s.buffer
  d : s.buffer.d.bytes = bs
  nonl : s.buffer.nextline = 0
  val : Utf8.valid (s.tokenbuf ++ s.buffer.rest) = true
  eof : s.buffer.eofp = true → Utf8.valid s.tokenbuf = true

/-- A character `ch` was just read. -/
structure Got (bs : Bytes) (T : Bytes) (ch : UInt8) (s : Lexer) : Prop where
  good : Good s.buffer
  d : s.buffer.d.bytes = bs
  nonl : s.buffer.nextline = 0
  noeof : s.buffer.eofp = false
  pos : 0 < s.buffer.pcur
  add : Utf8.valid (T ++ ch :: s.buffer.rest) = true
  good0 : Good { s.buffer with pcur := s.buffer.pbPos }
  back : Utf8.valid (T ++ slice bs s.buffer.pbPos s.buffer.pend) = true
  text : slice bs s.buffer.pbPos s.buffer.pend = ch :: s.buffer.rest ∨ slice bs s.buffer.pbPos s.buffer.pend = [10] ∨
    slice bs s.buffer.pbPos s.buffer.pend = [13, 10]
  last : ch ≠ 10 → bs[s.buffer.pcur - 1]? = some ch

theorem Got.bsame {bs T : Bytes} {ch : UInt8} {s s' : Lexer} (h : Got bs T ch s) (hb : BSame s.buffer s'.buffer) : Got bs T ch s' := by
  have h1 : s'.buffer.d = s.buffer.d := by simp only [Buffer.d, hb.same.input]
  have h2 : s'.buffer.pbPos = s.buffer.pbPos := by unfold Buffer.pbPos; rw [hb.pcur, hb.same.pbeg, h1]
  have h3 : s'.buffer.rest = s.buffer.rest := by unfold Buffer.rest; rw [hb.pcur, hb.same.pend, h1]
  refine ⟨hb.good h.good, by rw [h1]; exact h.d, by rw [hb.same.nextline]; exact h.nonl, by rw [hb.eofp]; exact h.noeof, by rw [hb.pcur]; exact h.pos,
    by rw [h3]; exact h.add, ?_, by rw [h2, hb.same.pend]; exact h.back, by rw [h2, h3, hb.same.pend]; exact h.text, by rw [hb.pcur]; exact h.last⟩
  exact BSame.good (b := { s.buffer with pcur := s.buffer.pbPos }) ⟨⟨hb.same.input, hb.same.lineCount, hb.same.prevline, hb.same.lastline, hb.same.nextline, hb.same.pbeg, hb.same.pend, hb.same.sl⟩,
    h2, hb.eofp⟩ h.good0

theorem CV.bsame {bs : Bytes} {s s' : Lexer} (h : CV bs s) (hb : BSame s.buffer s'.buffer) (ht : s'.tokenbuf = s.tokenbuf) : CV bs s' := by
  have h1 : s'.buffer.d = s.buffer.d := by simp only [Buffer.d, hb.same.input]
  have h3 : s'.buffer.rest = s.buffer.rest := by unfold Buffer.rest; rw [hb.pcur, hb.same.pend, h1]
  exact ⟨hb.good h.good, by rw [h1]; exact h.d, by rw [hb.same.nextline]; exact h.nonl, by rw [ht, h3]; exact h.val,
    by rw [hb.eofp, ht]; exact h.eof⟩

/-- Adding the character just read. -/
theorem Got.cv {bs T : Bytes} {ch : UInt8} {s s' : Lexer} (h : Got bs T ch s) (hb : s'.buffer = s.buffer) (ht : s'.tokenbuf = T ++ [ch]) : CV bs s' := by
  refine ⟨by rw [hb]; exact h.good, by rw [hb]; exact h.d, by rw [hb]; exact h.nonl, by rw [hb, ht]; simpa using h.add, ?_⟩
  rw [hb, h.noeof]; simp

theorem Got.ascii {bs T : Bytes} {ch : UInt8} {s : Lexer} (h : Got bs T ch s) (hc : ch < 128) :
    Utf8.valid T = true ∧ Utf8.valid s.buffer.rest = true := (Utf8.valid_split hc).1 h.add

/-- An ASCII character pushed back starts valid text. -/
theorem Got.tail {bs T : Bytes} {ch : UInt8} {s : Lexer} (h : Got bs T ch s) (hc : ch < 128) :
    Utf8.valid (slice bs s.buffer.pbPos s.buffer.pend) = true := by
  rcases h.text with e | e | e <;> rw [e]
  · exact (Utf8.valid_split (a := []) hc).2 ⟨rfl, (h.ascii hc).2⟩
  · decide
  · decide

/-- Adding ASCII text in place of an ASCII character just read. -/
theorem Got.cv_ascii {bs T : Bytes} {ch : UInt8} {s s' : Lexer} (h : Got bs T ch s) (hc : ch < 128) (hb : s'.buffer = s.buffer) {w : Bytes}
    (hw : Utf8.valid w = true) (ht : s'.tokenbuf = T ++ w) : CV bs s' := by
  obtain ⟨h1, h2⟩ := h.ascii hc
  refine ⟨by rw [hb]; exact h.good, by rw [hb]; exact h.d, by rw [hb]; exact h.nonl, ?_, ?_⟩
  · rw [hb, ht]; exact Utf8.valid_append (Utf8.valid_append h1 hw) h2
  · rw [hb, h.noeof]; simp

/-- Pushing it back. -/
theorem Got.pushback {bs T : Bytes} {ch : UInt8} {s : Lexer} (h : Got bs T ch s) {c : UInt8} {Q : Unit → Lexer → Prop}
    (hq : ∀ s', s' = { s with buffer := s'.buffer } → (∀ T', s'.tokenbuf = T' → Utf8.valid (T' ++ slice bs s.buffer.pbPos s.buffer.pend) = true → CV bs s') → Q () s') :
    Pc (Lexer.pushback (some c)) Q s := by
  intro a s' e
  simp only [Lexer.pushback, Buffer.pushback, pushbackByte_eq _ h.pos, Bind.bind, Except.bind, Pure.pure, Except.pure] at e
  cases e
  refine hq _ rfl fun T' hT' hv => ?_
  exact ⟨h.good0, h.d, h.nonl, by rw [hT']; unfold Buffer.rest; simp only [Buffer.d] at *; rw [h.d]; exact hv, by simp only; rw [h.noeof]; simp⟩

/-- Where a character read from `b` comes from. -/
theorem cv_came {bs : Bytes} (hv : Utf8.valid bs = true) {b b0 : Buffer} {T : Bytes} (hn : b.nextline = 0) (hd : b.d.bytes = bs)
    (hval : Utf8.valid (T ++ b.rest) = true) (hsrc : b0 = b ∨ Loaded b b0) :
    b0.d.bytes = bs ∧ Utf8.valid (T ++ b0.rest) = true := by
  rcases hsrc with rfl | h
  · exact ⟨hd, hval⟩
  · have h1 : b0.d = b.d := by simp only [Buffer.d, h.input]
    refine ⟨by rw [h1]; exact hd, ?_⟩
    have h2 := (h.atEnd hn).1
    have hT : Utf8.valid T = true := by
      unfold Buffer.rest at hval; rw [h2, slice_empty, List.append_nil] at hval; exact hval
    refine Utf8.valid_append hT ?_
    unfold Buffer.rest
    rw [h.bol, h.good.stop]
    exact valid_lines h.good.tab (by rw [h1, hd]; exact hv) h.good.llen h.start.symm

theorem got_of_read {bs T : Bytes} {b0 : Buffer} {ch : UInt8} {s' : Lexer} (hd : b0.d.bytes = bs) (hn : b0.nextline = 0) (hg : Good b0)
    (hval : Utf8.valid (T ++ b0.rest) = true) (hr : ReadIn b0 ch s'.buffer) : Got bs T ch s' := by
  have h1 : s'.buffer.d = b0.d := by simp only [Buffer.d]; rw [hr.eq]
  have h2 := hr.back
  have h3 : s'.buffer.pend = b0.pend := by rw [hr.eq]
  refine ⟨hr.good, by rw [h1]; exact hd, by rw [hr.eq]; exact hn, by rw [hr.eq]; exact hr.noeof, by have := hr.lt; omega, ?_, ?_, ?_, ?_, ?_⟩
  · rcases hr.rest with ⟨_, h⟩ | ⟨rfl, h4, h⟩
    · rw [← h]; exact hval
    · rw [h4]
      refine (Utf8.valid_split (by decide)).2 ⟨?_, rfl⟩
      rcases h with h | h <;> rw [h] at hval
      · exact ((Utf8.valid_split (by decide)).1 hval).1
      · exact ((Utf8.valid_split (by decide)).1 hval).1
  · rw [h2]
    have : ({ s'.buffer with pcur := b0.pcur } : Buffer) = b0 := by rw [hr.eq]
    rw [this]; exact hg
  · rw [h2, h3, ← hd]; exact hval
  · rw [h2, h3, ← hd]
    rcases hr.rest with ⟨_, h⟩ | ⟨_, _, h⟩
    · exact .inl h
    · exact .inr h
  · intro hc
    rw [(hr.byte hc).1, Nat.add_sub_cancel, ← hd]
    exact (hr.byte hc).2

/-- Reading a character of the content. -/
theorem CV.nextc {bs : Bytes} (hv : Utf8.valid bs = true) {s : Lexer} (h : CV bs s) {Q : MB → Lexer → Prop}
    (h0 : ∀ s', CV bs s' → s'.tokenbuf = s.tokenbuf → Utf8.valid s.tokenbuf = true → Q none s')
    (h1 : ∀ ch s', Got bs s.tokenbuf ch s' → s' = { s with buffer := s'.buffer } →
      (s.buffer.pcur < s.buffer.pend → ch = 10 ∨ bs[s.buffer.pcur]? = some ch) → (s.buffer.pcur = s.buffer.pend → bs[s.buffer.pcur - 1]? = some 10 ∨ s.buffer.pcur = 0) → Q (some ch) s') :
    Pc Lexer.nextc Q s := by
  refine Pc.of_wp (Wp.nextcG h.good fun b0 c s' hr => ?_)
  cases c with
  | none =>
    obtain ⟨e1, e2, e3⟩ := hr.isNone rfl
    have hT : Utf8.valid s.tokenbuf = true := by
      rcases e3 with e3 | e3
      · exact h.eof e3
      · rcases hr.src with hs | hs | hs
        · have := h.val; unfold Buffer.rest at this; rw [hs] at e3; rw [e3, slice_empty, List.append_nil] at this; exact this
        · have := h.val; unfold Buffer.rest at this; rw [hs] at e3; simp only at e3; rw [e3, slice_empty, List.append_nil] at this; exact this
        · have := h.val; unfold Buffer.rest at this
          rw [(hs.atEnd h.nonl).1, slice_empty, List.append_nil] at this; exact this
    refine h0 s' ?_ (by rw [hr.eq]) hT
    have ht : s'.tokenbuf = s.tokenbuf := by rw [hr.eq]
    rcases hr.src with hs | hs | hs
    · refine h.bsame (by rw [e1, hs]; exact .refl _) ht
    · refine ⟨by rw [e1]; exact hr.good0, by rw [e1, hs]; exact h.d, by rw [e1, hs]; exact h.nonl, by rw [ht, e1, hs]; exact h.val, fun _ => by rw [ht]; exact hT⟩
    · obtain ⟨e4, e5⟩ := cv_came hv h.nonl h.d h.val (.inr hs)
      exact ⟨by rw [e1]; exact hr.good0, by rw [e1]; exact e4, by rw [e1]; exact hs.nextline, by rw [ht, e1]; exact e5, fun _ => by rw [ht]; exact hT⟩
  | some ch =>
    obtain ⟨e1, e2⟩ := hr.isSome ch rfl
    have hsrc : b0 = s.buffer ∨ Loaded s.buffer b0 := by
      rcases hr.src with hs | hs | hs
      · exact .inl hs
      · have := e2.noeof; rw [hs] at this; simp at this
      · exact .inr hs
    obtain ⟨e4, e5⟩ := cv_came hv h.nonl h.d h.val hsrc
    refine h1 ch s' (got_of_read e4 e1 hr.good0 e5 e2) hr.eq ?_ ?_
    · intro hlt
      rcases hsrc with rfl | hs
      · by_cases e : ch = 10
        · exact .inl e
        · exact .inr (by rw [← h.d]; exact (e2.byte e).2)
      · have := (hs.atEnd h.nonl).1; omega
    · intro he
      rcases hsrc with rfl | hs
      · have := e2.lt; have h3 := e2.good.hi; have : s'.buffer.pend = s.buffer.pend := by rw [e2.eq]
        omega
      · by_cases hz : s.buffer.pcur = 0
        · exact .inr hz
        left
        have h5 := hs.later
        have h6 := hs.good.llen
        rw [show b0.d = s.buffer.d from by simp only [Buffer.d, hs.input]] at h6
        rw [he, h.good.stop, ← h.d]
        exact h.good.tab.last_lf (by omega)

/-- No backslash is followed by a non-ASCII character. -/
def PlainEscapes (bs : Bytes) : Prop := ∀ i, bs[i]? = some (asc '\\') → ∀ c, bs[i + 1]? = some c → c < 128

/-- After one step of the content. -/
def TsV (bs : Bytes) (r : TsStep) (s : Lexer) : Prop :=
  match r with
  | .go _ => CV bs s
  | .done _ _ => Utf8.valid s.tokenbuf = true

theorem Pc.tokadd {c : UInt8} {Q : Unit → Lexer → Prop} {s : Lexer} (hq : Q () { s with tokenbuf := s.tokenbuf ++ [c] }) : Pc (Lexer.tokadd c) Q s := by
  intro a s' e; cases e; exact hq

theorem tsEscapeOther_cv {bs T : Bytes} {f : Nat} (hfe : hasF f STR_FUNC_EXPAND = false) (hfr : hasF f STR_FUNC_REGEXP = false) {t ch : UInt8} {pa : Option UInt8}
    {nest : Nat} (h : Got bs T ch s) (ht : s.tokenbuf = T) (hc : ch < 128) : Pc (tsEscapeOther f t pa nest ch) (TsV bs) s := by
  unfold tsEscapeOther
  have e1 : (!MB.u8Ascii ch && !hasF f STR_FUNC_EXPAND) = false := by
    have : MB.u8Ascii ch = true := by simpa [MB.u8Ascii] using hc
    rw [this]; rfl
  obtain ⟨h1, h2⟩ := h.ascii hc
  simp only [hfe, hfr, Bool.false_eq_true, if_false]
  refine Pc.ite (fun e => ?_) fun _ => ?_
  · simp only [hfe] at e1; rw [e1] at e; simp at e
  refine Pc.bind (Pc.pure ?_)
  refine Pc.ite (fun _ => ?_) fun _ => Pc.ite (fun _ => ?_) fun _ => ?_
  · exact Pc.bind (Pc.tokadd (Pc.pure (h.cv rfl (by rw [ht]))))
  · refine Pc.bind (Pc.tokadd (Pc.bind (Got.pushback (bs := bs) (T := T) (ch := ch) (h.bsame (s' := { s with tokenbuf := s.tokenbuf ++ [asc '\\'] }) (.refl _)) fun s' e hs => ?_)))
    refine Pc.pure (hs (T ++ [asc '\\']) (by rw [e, ht]) ?_)
    exact Utf8.valid_append (Utf8.valid_append h1 (Utf8.valid_ascii1 (by decide))) (h.tail hc)
  · exact Pc.bind (Pc.tokadd (Pc.pure (h.cv rfl (by rw [ht]))))

theorem Pc.modB {f : Buffer → Buffer} {Q : Unit → Lexer → Prop} {s : Lexer} (hq : Q () { s with buffer := f s.buffer }) : Pc (Lexer.modB f) Q s := by
  intro a s' e; cases e; exact hq

theorem Pc.setPtok {p : Nat} {Q : Unit → Lexer → Prop} {s : Lexer} (hq : Q () { s with buffer := { s.buffer with ptok := p } }) : Pc (Lexer.setPtok p) Q s := by
  intro a s' e; cases e; exact hq

theorem tsBackslash_cv {bs T : Bytes} (hv : Utf8.valid bs = true) (hp : PlainEscapes bs) {f : Nat} (hfe : hasF f STR_FUNC_EXPAND = false)
    (hfr : hasF f STR_FUNC_REGEXP = false) {t : UInt8} {pa : Option UInt8}
    {nest : Nat} (h : Got bs T (asc '\\') s) (ht : s.tokenbuf = T) : Pc (tsBackslash f t pa nest) (TsV bs) s := by
  unfold tsBackslash
  refine Pc.bind (Pc.of_wp (Wp.pcurSub h.pos ?_))
  refine Pc.bind (Pc.setPtok ?_)
  obtain ⟨h1, h2⟩ := h.ascii (by decide)
  have hcv : CV bs { s with buffer := { s.buffer with ptok := s.buffer.pcur - 1 } } :=
    ⟨BSame.good (b := s.buffer) ⟨⟨rfl, rfl, rfl, rfl, rfl, rfl, rfl, rfl⟩, rfl, rfl⟩ h.good, h.d, h.nonl, by
      simp only [Buffer.rest, Buffer.d] at *; rw [ht]; exact Utf8.valid_append h1 h2, fun _ => by simp only; rw [ht]; exact h1⟩
  refine Pc.bind (hcv.nextc hv (fun s' h3 h4 h5 => Pc.pure (by show Utf8.valid _ = true; rw [h4]; exact h5)) fun ch s' h3 h4 h5 h6 => ?_)
  simp only at h3 h4 h5 h6
  have hl := h.last (by decide)
  have hc : ch < 128 := by
    have := h.good.hi
    by_cases e : s.buffer.pcur < s.buffer.pend
    · rcases h5 e with rfl | e
      · decide
      · refine hp _ hl _ ?_
        rw [Nat.sub_add_cancel h.pos]; exact e
    · rcases h6 (by omega) with e | e
      · rw [hl] at e; exact absurd e (by decide)
      · have := h.pos; omega
  have ht' : s'.tokenbuf = s.tokenbuf := by rw [h4]
  rw [← ht'] at h3
  dsimp only
  refine Pc.ite (fun _ => ?_) fun _ => ?_
  · refine Pc.ite (fun _ => ?_) fun _ => ?_
    · exact Pc.bind (Pc.tokadd (Pc.pure (h3.cv rfl rfl)))
    · refine Pc.ite (fun e => ?_) fun _ => ?_
      · rw [hfe] at e; simp at e
      · exact Pc.bind (Pc.tokadd (Pc.bind (Pc.tokadd (Pc.pure (h3.cv_ascii (w := [asc '\\', ch]) hc rfl
          ((Utf8.valid_split (a := [asc '\\']) hc).2 ⟨by decide, rfl⟩) (by simp))))))
  · refine Pc.ite (fun _ => ?_) fun _ => ?_
    · refine Pc.ite (fun _ => ?_) fun _ => ?_
      · exact Pc.bind (Pc.tokadd (Pc.bind (Pc.tokadd (Pc.pure (h3.cv_ascii (w := [ch, ch]) hc rfl
          ((Utf8.valid_split (a := [ch]) hc).2 ⟨Utf8.valid_ascii1 hc, rfl⟩) (by simp))))))
      · exact Pc.bind (Pc.tokadd (Pc.pure (h3.cv rfl rfl)))
    · refine Pc.ite (fun _ => ?_) fun _ => ?_
      · refine Pc.ite (fun _ => ?_) fun e => ?_
        · exact Pc.bind (Pc.tokadd (Pc.bind (Pc.tokadd (Pc.pure (h3.cv_ascii (w := [asc '\\', ch]) hc rfl
            ((Utf8.valid_split (a := [asc '\\']) hc).2 ⟨by decide, rfl⟩) (by simp))))))
        · rw [hfe] at e; simp at e
      · exact tsEscapeOther_cv hfe hfr h3 rfl hc

theorem tsStep_cv {bs : Bytes} (hv : Utf8.valid bs = true) (hp : PlainEscapes bs) {f : Nat} (hfe : hasF f STR_FUNC_EXPAND = false)
    (hfr : hasF f STR_FUNC_REGEXP = false) {t : UInt8} {pa : Option UInt8} (hta : t < 128) {nest : Nat} (h : CV bs s) :
    Pc (tsStep f t pa nest) (TsV bs) s := by
  unfold tsStep
  refine Pc.bind (h.nextc hv (fun s' h3 h4 h5 => Pc.pure (by show Utf8.valid _ = true; rw [h4]; exact h5)) fun ch s1 h3 h4 _ _ => ?_)
  have ht : s1.tokenbuf = s.tokenbuf := by rw [h4]
  rw [← ht] at h3
  dsimp only
  refine Pc.bind ?_
  have hb : BSame s1.buffer (if s1.buffer.heredocIndent > 0 then updateIndent (some ch) s1.buffer else s1.buffer) := by
    split
    · exact (updateIndent_bsame _ _).1
    · exact .refl _
  have h5 := h3.bsame (s' := { s1 with buffer := if s1.buffer.heredocIndent > 0 then updateIndent (some ch) s1.buffer else s1.buffer }) hb
  refine Pc.modB ?_
  generalize hs2 : ({ s1 with buffer := if s1.buffer.heredocIndent > 0 then updateIndent (some ch) s1.buffer else s1.buffer } : Lexer) = s2 at h5 ⊢
  have ht2 : s2.tokenbuf = s1.tokenbuf := by rw [← hs2]
  rw [← ht2] at h5
  have back : ch < 128 → Pc (do
        Lexer.pushback (some ch)
        Pure.pure (TsStep.done (some (some ch)) nest)) (TsV bs) s2 := by
    intro hc
    refine Pc.bind (h5.pushback fun s' e _ => Pc.pure ?_)
    show Utf8.valid _ = true
    rw [e]; exact (h5.ascii hc).1
  have add : ∀ n, Pc (do
        Lexer.tokadd ch
        Pure.pure (TsStep.go n)) (TsV bs) s2 := fun n => Pc.bind (Pc.tokadd (Pc.pure (h5.cv rfl rfl)))
  refine Pc.ite (fun _ => add _) fun _ => ?_
  refine Pc.ite (fun e => ?_) fun _ => ?_
  · refine Pc.ite (fun _ => back (by rw [e]; exact hta)) fun _ => add _
  · refine Pc.bind (Pc.getB ?_)
    refine Pc.ite (fun e => ?_) fun _ => ?_
    · rw [hfe] at e; simp at e
    · refine Pc.ite (fun e => ?_) fun _ => ?_
      · subst e; exact tsBackslash_cv hv hp hfe hfr h5 rfl
      · refine Pc.bind (Pc.of_wp (Wp.isAsciiPrev h5.pos ?_))
        refine Pc.ite (fun _ => add _) fun _ => ?_
        refine Pc.ite (fun e => back ?_) fun _ => add _
        simp only [Bool.and_eq_true] at e
        exact (byte_forall (p := fun c => MB.u8Space c = true → c < 128) (by decide +kernel) ch) e.2

theorem tsLoop_cv {bs : Bytes} (hv : Utf8.valid bs = true) (hp : PlainEscapes bs) {f : Nat} (hfe : hasF f STR_FUNC_EXPAND = false)
    (hfr : hasF f STR_FUNC_REGEXP = false) {t : UInt8} {pa : Option UInt8} (hta : t < 128) : ∀ n {nest : Nat} {s : Lexer}, CV bs s →
    Pc (tsLoop f t pa n nest) (fun _ s' => Utf8.valid s'.tokenbuf = true) s := by
  intro n
  induction n with
  | zero => intro nest s _; exact Pc.fail
  | succ n ih =>
    intro nest s h
    unfold tsLoop
    refine Pc.bind ((tsStep_cv hv hp hfe hfr hta h).mono fun r s' h1 => ?_)
    cases r with
    | done r k => exact Pc.pure h1
    | go k => exact ih h1

/-- A content token has valid content. -/
def ValTok (t : Tok) (s : Lexer) : Prop := t = .tSTRING_CONTENT → ∃ v, s.lval = some v ∧ Utf8.valid v = true

theorem Pc.any {α : Type} {x : LexM α} {Q : α → Lexer → Prop} {s : Lexer} (h : ∀ a s', Q a s') : Pc x Q s := fun a s' _ => h a s'

theorem ValTok.other {t : Tok} {s : Lexer} (h : t ≠ .tSTRING_CONTENT) : ValTok t s := fun e => absurd e h

theorem stringContent_cv {bs : Bytes} (hv : Utf8.valid bs = true) (hp : PlainEscapes bs) {q : StringLiteral} {f : Nat} (hfe : hasF f STR_FUNC_EXPAND = false)
    (hfr : hasF f STR_FUNC_REGEXP = false) {t : UInt8} {pa : Option UInt8} (hta : t < 128) (h : CV bs s) :
    Pc (stringContent q f t pa) ValTok s := by
  unfold stringContent tokaddString
  refine Pc.bind (Pc.bind (Pc.fuel fun n => (tsLoop_cv hv hp hfe hfr hta n h).mono fun r s1 h1 => ?_))
  refine Pc.bind (Pc.getB (Pc.ite (fun _ => ?_) fun _ => ?_))
  · refine Pc.bind (Pc.getB (Pc.bind (Pc.setPtok (Pc.ite (fun _ => ?_) fun _ => ?_))))
    · exact Pc.bind (Pc.any fun _ _ => Pc.bind (Pc.any fun _ _ => Pc.pure (ValTok.other (by decide))))
    · have fin : ∀ s2, s2.tokenbuf = s1.tokenbuf → Pc (do
          Lexer.modS fun s => { s with lval := some s.tokenbuf }
          restoreStrterm { ({ q with nest := r.2 } : StringLiteral) with func := ({ q with nest := r.2 } : StringLiteral).func ||| STR_FUNC_TERM }
          return Tok.tSTRING_CONTENT) ValTok s2 := by
        intro s2 e
        exact Pc.bind (Pc.modS (Pc.bind (Pc.modS (Pc.pure fun _ => ⟨_, rfl, by rw [e]; exact h1⟩))))
      refine Pc.ite (fun _ => ?_) fun _ => ?_
      · exact Pc.bind (Pc.bind (Pc.getB (Pc.of_wp ⟨_, _, rfl, fin _ rfl⟩)))
      · exact Pc.bind (Pc.bind (Pc.getB (Pc.of_wp ⟨_, _, rfl, fin _ rfl⟩)))
  · exact Pc.bind (Pc.modS (Pc.bind (Pc.modS (Pc.pure fun _ => ⟨_, rfl, h1⟩))))

theorem stringTerm_val {f : Nat} {t : UInt8} : Pc (stringTerm t f) ValTok s := by
  unfold stringTerm
  refine Pc.bind (Pc.any fun _ _ => Pc.ite (fun _ => ?_) fun _ => ?_)
  · exact Pc.bind (Pc.any fun _ _ => Pc.bind (Pc.any fun _ _ => Pc.bind (Pc.any fun _ _ => Pc.pure (ValTok.other (by decide)))))
  · refine Pc.bind (Pc.any fun _ _ => Pc.ite (fun _ => ?_) fun _ => ?_)
    · exact Pc.bind (Pc.any fun _ _ => Pc.bind (Pc.any fun _ _ => Pc.pure (ValTok.other (by decide))))
    · exact Pc.bind (Pc.any fun _ _ => Pc.pure (ValTok.other (by decide)))

theorem nextc_none_nonl {b b' : Buffer} (hg : Good b) (h : NextC b none b') : b'.nextline = 0 := by
  cases h with
  | eof he =>
    by_contra hn
    have := (hg.nl2 hn).1
    rw [he] at this; simp at this
  | eofNow _ hn _ _ => exact hn
  | eofLoad _ h _ _ _ => exact h.nextline

theorem parseString_cv {bs : Bytes} (hv : Utf8.valid bs = true) (hp : PlainEscapes bs) {q : StringLiteral} (hfe : hasF q.func STR_FUNC_EXPAND = false)
    (hfr : hasF q.func STR_FUNC_REGEXP = false) (hta : q.term < 128) (hg : Good s.buffer) (hd : s.buffer.d.bytes = bs)
    (h0 : s.buffer.nextline = 0 → Utf8.valid s.buffer.rest = true) : Pc (parseString q) ValTok s := by
  unfold parseString
  dsimp only
  refine Pc.bind (Pc.modS (Pc.bind (Pc.modS (Pc.ite (fun _ => ?_) fun _ => ?_))))
  · have fin : ∀ s2, Pc (do
        setState EXPR_END
        Lexer.modS fun s => { s with strterm := none }
        if hasF q.func STR_FUNC_REGEXP then return Tok.tREGEXP_END
        else match q.heredocEnd with
          | some h =>
            Lexer.modS fun s => { s with lvalStart := some h.start, lvalEnd := some h.stop, lval := some h.value }
            return .tSTRING_END
          | none => return .tSTRING_END) ValTok s2 := by
      intro s2
      refine Pc.bind (Pc.any fun _ _ => Pc.bind (Pc.any fun _ _ => Pc.ite (fun _ => Pc.pure (ValTok.other (by decide))) fun _ => ?_))
      cases q.heredocEnd with
      | some h => exact Pc.bind (Pc.any fun _ _ => Pc.pure (ValTok.other (by decide)))
      | none => exact Pc.pure (ValTok.other (by decide))
    refine Pc.ite (fun _ => ?_) fun _ => ?_
    · exact Pc.bind (Pc.any fun _ _ => fin _)
    · exact fin _
  · refine Pc.bind (Pc.of_wp (Wp.nextcG (s := { s with strterm := none, lvalStart := some s.buffer.pcur }) hg fun b0 c s1 hr => ?_))
    have main : ∀ (c' : MB) (s2 : Lexer) (sp : Bool) (q' : StringLiteral), (sp = false → c' = c ∧ s2 = s1) → Pc (do
        if c' = some q.term ∧ q'.nest = 0 then
          if hasF q.func STR_FUNC_QWORDS then
            Lexer.pushback c'
            restoreStrterm { q' with func := q'.func ||| STR_FUNC_TERM }
            return Tok.tSPACE
          else
            restoreStrterm q'
            stringTerm q.term q.func
        else if sp then
          Lexer.pushback c'
          restoreStrterm q'
          return .tSPACE
        else
          newtok
          if hasF q.func STR_FUNC_EXPAND && isC c' '#' then
            match ← peekVariableName with
            | some t =>
              restoreStrterm q'
              return t
            | none =>
              Lexer.tokadd (asc '#')
              Lexer.pushback (← Lexer.nextc)
              stringContent q' q.func q.term q.paren
          else
            Lexer.pushback c'
            stringContent q' q.func q.term q.paren) ValTok s2 := by
      intro c' s2 sp q' hsp
      refine Pc.ite (fun _ => ?_) fun _ => ?_
      · refine Pc.ite (fun _ => ?_) fun _ => ?_
        · exact Pc.bind (Pc.any fun _ _ => Pc.bind (Pc.any fun _ _ => Pc.pure (ValTok.other (by decide))))
        · exact Pc.bind (Pc.any fun _ _ => stringTerm_val)
      · refine Pc.ite (fun _ => ?_) fun hs => ?_
        · exact Pc.bind (Pc.any fun _ _ => Pc.bind (Pc.any fun _ _ => Pc.pure (ValTok.other (by decide))))
        · obtain ⟨rfl, rfl⟩ := hsp (by simpa using hs)
          refine Pc.bind (Pc.of_wp (Wp.newtok fun s3 hl hb ht htb => ?_))
          refine Pc.ite (fun e => ?_) fun _ => ?_
          · rw [hfe] at e; simp at e
          · refine Pc.bind (Pc.of_wp (Wp.pushbackG hr hb ht hl.2 fun s4 _ h5 h6 _ h8 => ?_))
            refine stringContent_cv hv hp hfe hfr hta ?_
            have hnl : b0.nextline = 0 := by
              cases c' with
              | some ch => exact (hr.isSome ch rfl).1
              | none =>
                rw [← (hr.isNone rfl).1]
                exact nextc_none_nonl hg hr.nextc
            have hv0 : Utf8.valid b0.rest = true := by
              rcases hr.src with h | h | h
              · rw [h]; exact h0 (by rw [h] at hnl; exact hnl)
              · rw [h]; exact h0 (by rw [h] at hnl; exact hnl)
              · unfold Buffer.rest
                rw [h.bol, h.good.stop]
                exact valid_lines h.good.tab (by simp only [Buffer.d, h.input]; simp only [Buffer.d] at hd; rw [hd]; exact hv) h.good.llen h.start.symm
            have hd0 : b0.d.bytes = bs := by
              rcases hr.src with h | h | h
              · rw [h]; exact hd
              · rw [h]; exact hd
              · simp only [Buffer.d, h.input]; exact hd
            have htb4 : s4.tokenbuf = [] := by rw [h8]; exact htb
            have hd4 : s4.buffer.d = b0.d := by simp only [Buffer.d, h6.same.input]
            refine ⟨h5, by rw [hd4]; exact hd0, by rw [h6.same.nextline]; exact hnl, ?_, fun _ => by rw [htb4]; rfl⟩
            rw [htb4, List.nil_append]
            unfold Buffer.rest
            rw [hd4, h6.same.pend, h6.pcur]; exact hv0
    refine Pc.ite (fun e => ?_) fun e => ?_
    · exact Pc.bind (Pc.fuel fun n => Pc.bind (Pc.any fun c2 s2 => main c2 s2 _ _ (by intro h; rw [e] at h; simp at h)))
    · exact Pc.bind (Pc.pure (main c s1 _ _ fun _ => ⟨rfl, rfl⟩))

/-- The rest of the line from a character boundary is valid. -/
theorem rest_valid {b : Buffer} (hg : Good b) (h : Utf8.valid (b.d.bytes.drop b.pcur) = true) : Utf8.valid b.rest = true := by
  unfold Buffer.rest slice
  by_cases hl : b.lastline + 1 < b.d.lines.length
  · have h2 := hg.tab.last_lf hl
    rw [← hg.stop] at h2
    have := hg.hi
    by_cases he : b.pcur = b.pend
    · rw [he, Nat.sub_self]; rfl
    · refine (Utf8.valid_cut h (i := b.pend - b.pcur) (x := 10) (by omega) ?_ (by decide)).1
      rw [List.getElem?_drop, show b.pcur + (b.pend - b.pcur - 1) = b.pend - 1 by omega]; exact h2
  · have : b.pend = b.d.bytes.length := by
      have e : b.lastline + 1 = b.d.lines.length := by have := hg.llen; omega
      have := hg.tab.last_stop
      rw [← e, Nat.add_sub_cancel] at this
      rw [hg.stop]; exact this
    rw [this, List.take_of_length_le (by simp)]
    exact h

theorem yylex_content {bs : Bytes} {x : Ext} (hv : Utf8.valid bs = true) (hp : PlainEscapes bs) {q : StringLiteral} (hfe : hasF q.func STR_FUNC_EXPAND = false)
    (hfr : hasF q.func STR_FUNC_REGEXP = false) (hta : q.term < 128) (hg : Good s.buffer) (hd : s.buffer.d.bytes = bs) (hs : s.strterm = some (.string q))
    (h0 : s.buffer.nextline = 0 → Utf8.valid (bs.drop s.buffer.pcur) = true) :
    Pc (yylex x) (fun t _ => t.tokenType = .tSTRING_CONTENT → Utf8.valid t.tokenValue = true) s := by
  unfold yylex parserYylex
  refine Pc.bind (Pc.modS ?_)
  refine Pc.bind (Pc.bind (Pc.getS ?_))
  simp only [hs]
  refine Pc.bind (Pc.of_wp (Wp.tokenFlush fun s1 hl hb hpt => ?_))
  have hd1 : s1.buffer.d.bytes = bs := by simp only [Buffer.d, hb.same.input]; exact hd
  refine (parseString_cv (s := s1) hv hp hfe hfr hta (hb.good hg) hd1 (fun hn => rest_valid (hb.good hg) ?_)).mono fun t s2 h2 => ?_
  · rw [hb.same.nextline] at hn
    rw [hd1, hb.pcur]; exact h0 hn
  · refine Pc.bind (Pc.getS (Pc.bind (Pc.getS (Pc.bind (Pc.modS ?_)))))
    refine Pc.bind (Pc.getS ?_)
    dsimp only
    have fin : ∀ (v : Bytes) (s3 : Lexer), (t = .tSTRING_CONTENT → Utf8.valid v = true) → Pc (α := Token) (do
      Lexer.modS fun s => { s with lval := none }
      if t = .tNL then return ⟨t, [10], ⟨tBegin s2, tBegin s2 + 1⟩⟩
      else return ⟨t, v, ⟨tBegin s2, tEnd s2⟩⟩) (fun t _ => t.tokenType = .tSTRING_CONTENT → Utf8.valid t.tokenValue = true) s3 := by
      intro v s3 h
      refine Pc.bind (Pc.modS (Pc.ite (fun e => Pc.pure fun h => ?_) fun _ => Pc.pure fun ht => h ht))
      simp only [e] at h; exact absurd h (by decide)
    cases hl : s2.lval with
    | some v =>
      refine fin v _ fun ht => ?_
      obtain ⟨v', h3, h4⟩ := h2 ht
      rw [hl] at h3; cases h3; exact h4
    | none =>
      refine Pc.bind (Pc.any fun v s3 => fin v _ fun ht => ?_)
      obtain ⟨v', h3, h4⟩ := h2 ht
      rw [hl] at h3; cases h3

end Lexer
end Verif
