import Verif.Lemmas.Reader
/-! Property theorems C24 (the character reader). -/
namespace Verif.Props
open Verif

/-- Specification: the characters of a byte string, a `CR LF` pair being one `LF`. -/
def collapse : Bytes → Bytes
  | 13 :: 10 :: rest => 10 :: collapse rest
  | c :: rest => c :: collapse rest
  | [] => []

/-- Specification: the input without a leading byte order mark. -/
def dropBom (bs : Bytes) : Bytes := if [0xef, 0xbb, 0xbf] <+: bs then bs.drop 3 else bs

/-- `n` consecutive reads. -/
def readMany : Nat → Buffer → Res (List MB × Buffer)
  | 0, b => .ok ([], b)
  | n + 1, b => do
    let (c, b) ← b.nextc
    let (cs, b) ← readMany n b
    return (c :: cs, b)

/-- Buffers reached by reading and by pushing back the character just read. -/
inductive Reach (name : String) (bs : Bytes) (dec : Option DecoderFn) : Buffer → Prop where
  | new (b) : Buffer.new name bs dec = .ok b → Reach name bs dec b
  | read (b c b') : Reach name bs dec b → b.nextc = .ok (c, b') → Reach name bs dec b'
  | back (b c b' b'') : Reach name bs dec b → b.nextc = .ok (c, b') → b'.pushback c = .ok b'' → Reach name bs dec b''

/-- Reading line after line. -/
structure Seq (b : Buffer) : Prop where
  good : Good b
  nl : b.nextline = 0
  lc : b.lineCount = b.lastline + 1
  fin : b.eofp = true → b.pcur = b.d.bytes.length

theorem eof_len {b : Buffer} (h : Seq b) (hp : b.pcur = b.pend)
    (hx : (b.pbeg < b.pend ∧ b.d.bytes[b.pend - 1]? ≠ some 10) ∨ b.lineCount = b.d.lines.length) :
    b.pcur = b.d.bytes.length := by
  have hlast : b.lineCount = b.d.lines.length := by
    rcases hx with ⟨h1, h2⟩ | h
    · by_contra hne
      have hlt : b.lastline + 1 < b.d.lines.length := by have := h.good.lc; have := h.lc; omega
      exact h2 (by rw [h.good.stop]; exact h.good.tab.last_lf hlt)
    · exact h
  have h3 := h.good.tab.last_stop
  rw [show b.d.lines.length - 1 = b.lastline by have := h.lc; omega, ← h.good.stop] at h3
  omega

theorem collapse_ne {c : UInt8} {rest : Bytes} (h : ¬ (c = 13 ∧ ∃ r, rest = 10 :: r)) :
    collapse (c :: rest) = c :: collapse rest := by
  rw [collapse.eq_2]
  intro r h1 h2
  exact h ⟨h1, r, h2⟩

/-- One read within a line, as text. -/
theorem readIn_text {b b' : Buffer} {ch : UInt8} (hg : Good b) (h : ReadIn b ch b') :
    collapse (b.d.bytes.drop b.pcur) = ch :: collapse (b.d.bytes.drop b'.pcur) := by
  have hlt : b.pcur < b.d.bytes.length := by
    have h1 := h.good.hi; have h2 := h.good.pend_le; have h3 := h.lt
    rw [h.eq] at h2; dsimp only [Buffer.d] at h2; rw [h.eq] at h1; dsimp only at h1
    have : b'.pend = b.pend := by rw [h.eq]
    simp only [Buffer.d]; omega
  have e := h.rd
  unfold Buffer.readByte at e
  simp only [Input.byteAt] at e
  have hc : b.input.decoded.bytes[b.pcur]? = some b.d.bytes[b.pcur] := by simp [hlt]
  rw [hc] at e
  rw [List.drop_eq_getElem_cons hlt]
  generalize b.d.bytes[b.pcur] = c at *
  dsimp only at e
  by_cases h13 : c = 13
  · rw [if_pos h13] at e
    unfold Buffer.parserCr Buffer.peek Buffer.peekN at e
    by_cases hn : ({ b with pcur := b.pcur + 1 } : Buffer).isEolN 0 = true
    · rw [if_pos hn] at e
      simp only [bind, Except.bind, pure, Except.pure, Bool.false_eq_true, if_false, Except.ok.injEq, Prod.mk.injEq,
        Option.some.injEq] at e
      obtain ⟨rfl, rfl⟩ := e
      dsimp only
      rw [collapse_ne]
      rintro ⟨-, r, hr⟩
      -- the line ends in CR: the next byte is not LF, since a line ends right after its LF
      have hpe : b.pend = b.pcur + 1 := by
        have h2 := h.good.hi; dsimp only at h2
        simp only [Buffer.isEolN, decide_eq_true_eq] at hn
        omega
      have h10 : b.d.bytes[b.pcur + 1]? = some 10 := by
        have := congrArg List.head? hr
        simpa using this
      have hl : b.lastline + 1 < b.d.lines.length := by
        by_contra hc2
        have h3 := hg.tab.last_stop
        rw [show b.d.lines.length - 1 = b.lastline by have := hg.llen; omega, ← hg.stop, hpe] at h3
        rw [h3] at h10; simp at h10
      have h4 := hg.tab.last_lf hl
      rw [← hg.stop, hpe, Nat.add_sub_cancel] at h4
      rw [hc] at h4
      simp [h13] at h4
    · rw [if_neg hn] at e
      have hlt2 : b.pcur + 1 < b.pend := by simpa [Buffer.isEolN] using hn
      obtain ⟨c2, hc2⟩ := hg.byte hlt2
      simp only [Input.uncheckedByteAt, Nat.add_zero] at e
      rw [hc2] at e
      simp only [bind, Except.bind, pure, Except.pure] at e
      have hlt3 : b.pcur + 1 < b.d.bytes.length := by have := hg.pend_le; omega
      by_cases h10 : c2 = 10
      · simp only [h10, beq_self_eq_true, if_true, Except.ok.injEq, Prod.mk.injEq, Option.some.injEq] at e
        obtain ⟨rfl, rfl⟩ := e
        rw [List.drop_eq_getElem_cons hlt3, show b.d.bytes[b.pcur + 1] = 10 by
          rw [List.getElem?_eq_getElem hlt3] at hc2; rw [← h10]; simpa using hc2, h13]
        rfl
      · have hne : (10 == c2) = false := by simpa using fun e : (10 : UInt8) = c2 => h10 e.symm
        simp only [hne, Bool.false_eq_true, if_false, Except.ok.injEq, Prod.mk.injEq, Option.some.injEq] at e
        obtain ⟨rfl, rfl⟩ := e
        rw [collapse_ne]
        rintro ⟨-, r, hr⟩
        rw [List.drop_eq_getElem_cons hlt3] at hr
        injection hr with hr _
        rw [List.getElem?_eq_getElem hlt3] at hc2
        exact h10 (by rw [← hr]; simpa using hc2.symm)
  · rw [if_neg h13] at e
    simp only [Except.ok.injEq, Prod.mk.injEq, Option.some.injEq] at e
    obtain ⟨rfl, rfl⟩ := e
    rw [collapse_ne (fun h => h13 h.1)]

theorem loaded_text {b b1 : Buffer} (h : Seq b) (hl : Loaded b b1) : b1.pcur = b.pcur ∧ b1.lineCount = b1.lastline + 1 := by
  obtain ⟨h1, h2⟩ := hl.fresh h.nl
  have h3 := (hl.atEnd h.nl).1
  refine ⟨?_, by omega⟩
  have hl1 := hl.good.llen
  rw [hl.bol, hl.start, h1, h.lc]
  have hn := h.good.tab.next (i := b.lastline) (by
    rw [h1, h.lc] at hl1; simp only [Buffer.d, hl.input] at hl1 ⊢; exact hl1)
  simp only [Buffer.d, hl.input] at hn ⊢
  rw [hn, h3, h.good.stop]

/-- One read, as text. -/
theorem nextc_text {b b' : Buffer} {c : MB} (h : Seq b) (e : b.nextc = .ok (c, b')) :
    Seq b' ∧ b'.input = b.input ∧
    ((c = none ∧ collapse (b.d.bytes.drop b.pcur) = [] ∧ collapse (b.d.bytes.drop b'.pcur) = []) ∨
     ∃ ch, c = some ch ∧ collapse (b.d.bytes.drop b.pcur) = ch :: collapse (b.d.bytes.drop b'.pcur)) := by
  obtain ⟨c2, b2, e2, hn⟩ := nextc_good h.good
  rw [e] at e2
  simp only [Except.ok.injEq, Prod.mk.injEq] at e2
  obtain ⟨rfl, rfl⟩ := e2
  cases hn with
  | here ch b' h1 hr =>
    have he := hr.eq
    refine ⟨⟨hr.good, by rw [he]; exact h.nl, by rw [he]; exact h.lc, ?_⟩, by rw [he], .inr ⟨ch, rfl, readIn_text h.good hr⟩⟩
    intro hh; rw [he] at hh; dsimp only at hh; rw [hr.noeof] at hh; simp at hh
  | load ch b1 b' hl hr =>
    have he := hr.eq
    obtain ⟨h1, h2⟩ := loaded_text h hl
    have h3 := readIn_text hl.good hr
    refine ⟨⟨hr.good, by rw [he]; exact hl.nextline, by rw [he]; exact h2, ?_⟩, by rw [he]; exact hl.input, .inr ⟨ch, rfl, ?_⟩⟩
    · intro hh; rw [he] at hh; dsimp only at hh; rw [hr.noeof] at hh; simp at hh
    · rw [← h1]; simpa only [Buffer.d, hl.input] using h3
  | eof he =>
    have h1 : collapse (b.d.bytes.drop b.pcur) = [] := by rw [h.fin he]; simp [collapse]
    exact ⟨h, rfl, .inl ⟨rfl, h1, h1⟩⟩
  | eofNow he hn hp hx =>
    have h2 := eof_len h hp hx
    have h1 : collapse (b.d.bytes.drop b.pcur) = [] := by rw [h2]; simp [collapse]
    exact ⟨⟨{ h.good with nl2 := fun h => absurd hn h }, h.nl, h.lc, fun _ => h2⟩, rfl, .inl ⟨rfl, h1, h1⟩⟩
  | eofLoad b1 hl hp hx _ =>
    obtain ⟨h1, h2⟩ := loaded_text h hl
    have h3 : collapse (b.d.bytes.drop b'.pcur) = [] := by
      rw [hp, hx]; simp only [Buffer.d, hl.input]; simp [collapse]
    refine ⟨⟨hl.good, hl.nextline, h2, fun _ => by rw [hp, hx]⟩, hl.input, .inl ⟨rfl, ?_, h3⟩⟩
    rw [← h1]; exact h3

/-- Pushing back what was just read and reading again: same character, same state. -/
theorem back_text {b b' : Buffer} {ch : UInt8} (hg : Good b) (e : b.nextc = .ok (some ch, b')) :
    ∃ b'', b'.pushback (some ch) = .ok b'' ∧ b''.nextc = .ok (some ch, b') ∧ (b'' = b ∨ Loaded b b'') := by
  obtain ⟨c2, b2, e2, hn⟩ := nextc_good hg
  rw [e] at e2
  simp only [Except.ok.injEq, Prod.mk.injEq] at e2
  obtain ⟨rfl, rfl⟩ := e2
  have key : ∀ b0 : Buffer, ReadIn b0 ch b' → b'.pushback (some ch) = .ok b0 := by
    intro b0 hr
    unfold Buffer.pushback
    dsimp only
    rw [pushbackByte_eq _ (by have := hr.lt; omega), hr.back]
    have := hr.eq
    rw [this]
  cases hn with
  | here ch b' h1 hr => exact ⟨b, key b hr, e, .inl rfl⟩
  | load ch b1 b' hl hr =>
    refine ⟨b1, key b1 hr, ?_, .inr hl⟩
    unfold Buffer.nextc
    rw [if_neg, hr.rd]
    rintro (h | h | h)
    · have := hr.good.hi; have h2 := hr.lt
      have : b'.pend = b1.pend := by rw [hr.eq]
      omega
    · rw [hr.noeof] at h; simp at h
    · exact h hl.nextline

theorem fresh_seq {bs : Bytes} {dec : Option DecoderFn} {b : Buffer} (h : Fresh bs dec b) : Seq b :=
  ⟨h.good, h.nextline, by rw [h.lines, h.lastline], by rw [h.eofp]; simp⟩

theorem reach_seq {name : String} {bs : Bytes} {dec : Option DecoderFn} {b : Buffer} (h : Reach name bs dec b) : Seq b := by
  induction h with
  | new b e =>
    obtain ⟨b', e', hf⟩ := new_fresh name bs dec
    rw [e] at e'
    cases e'
    exact fresh_seq hf
  | read b c b' _ e ih => exact (nextc_text ih e).1
  | back b c b' b'' _ e e2 ih =>
    cases c with
    | none =>
      simp only [Buffer.pushback, Except.ok.injEq] at e2
      subst e2; exact (nextc_text ih e).1
    | some ch =>
      obtain ⟨b3, h1, -, h2⟩ := back_text ih.good e
      rw [h1] at e2; cases e2
      rcases h2 with rfl | hl
      · exact ih
      · obtain ⟨h3, h4⟩ := loaded_text ih hl
        exact ⟨hl.good, hl.nextline, h4, by rw [hl.eofp]; simp⟩

theorem readMany_text : ∀ n b, Seq b → ∃ b',
    readMany n b = .ok (((collapse (b.d.bytes.drop b.pcur)).map some ++ List.replicate n none).take n, b') := by
  intro n
  induction n with
  | zero => intro b _; exact ⟨b, rfl⟩
  | succ n ih =>
    intro b h
    obtain ⟨c, b1, e, -⟩ := nextc_good h.good
    obtain ⟨hs, hi, hcase⟩ := nextc_text h e
    obtain ⟨b2, e2⟩ := ih b1 hs
    refine ⟨b2, ?_⟩
    unfold readMany
    rw [e]
    simp only [bind, Except.bind, pure, Except.pure]
    rw [e2]
    have hd : b1.d.bytes = b.d.bytes := by simp only [Buffer.d, hi]
    rw [hd]
    rcases hcase with ⟨rfl, h1, h2⟩ | ⟨ch, rfl, h1⟩
    · rw [h1, h2]; simp [List.replicate_succ]
    · rw [h1]
      simp only [List.map_cons, List.cons_append, List.take_succ_cons]
      congr 3
      rw [List.take_append, List.take_append]
      congr 1
      rw [List.take_replicate, List.take_replicate]
      congr 1
      omega

/-- **C24** (order). `n` reads from a new buffer deliver the first `n` characters of the input without its byte order mark,
each `CR LF` pair as one `LF`, followed by end-of-input forever. No read panics. -/
theorem C24_reads_deliver_input (name : String) (bs : Bytes) (dec : Option DecoderFn) (n : Nat) :
    ∃ b b', Buffer.new name bs dec = .ok b ∧
      readMany n b = .ok (((collapse (dropBom bs)).map some ++ List.replicate n none).take n, b') := by
  obtain ⟨b, e, hf⟩ := new_fresh name bs dec
  obtain ⟨b', h⟩ := readMany_text n b (fresh_seq hf)
  refine ⟨b, b', e, ?_⟩
  rw [h]
  have : b.d.bytes.drop b.pcur = dropBom bs := by
    rw [hf.bytes, hf.pos]
    unfold dropBom
    rcases hf.bom with ⟨h1, h2⟩ | ⟨h1, h2⟩
    · rw [h1, if_neg h2]; rfl
    · rw [h1, if_pos h2]
  rw [this]

/-- **C24** (inverse). In every state reached by reading and pushing back, pushing back the character just read makes the
next read deliver the same character and reach the same state again. -/
theorem C24_pushback_inverse (name : String) (bs : Bytes) (dec : Option DecoderFn) (b b' : Buffer) (c : MB)
    (hr : Reach name bs dec b) (e : b.nextc = .ok (c, b')) :
    ∃ b'', b'.pushback c = .ok b'' ∧ (c ≠ none → b''.nextc = .ok (c, b')) ∧ (c = none → b'' = b') := by
  cases c with
  | none => exact ⟨b', rfl, by simp, fun _ => rfl⟩
  | some ch =>
    obtain ⟨b'', h1, h2, -⟩ := back_text (reach_seq hr).good e
    exact ⟨b'', h1, fun _ => h2, by simp⟩

/-- **C24** (inverse, within a line). If the read did not have to load another line, pushing back restores the whole state. -/
theorem C24_pushback_restores (name : String) (bs : Bytes) (dec : Option DecoderFn) (b b' : Buffer) (ch : UInt8)
    (hr : Reach name bs dec b) (hin : b.pcur < b.pend) (e : b.nextc = .ok (some ch, b')) : b'.pushback (some ch) = .ok b := by
  obtain ⟨b'', h1, -, h2⟩ := back_text (reach_seq hr).good e
  rcases h2 with rfl | hl
  · exact h1
  · have := (hl.atEnd (reach_seq hr).nl).1
    omega

/-- Every read from a reachable state succeeds. -/
theorem C24_reads_total (name : String) (bs : Bytes) (dec : Option DecoderFn) (b : Buffer) (hr : Reach name bs dec b) :
    ∃ c b', b.nextc = .ok (c, b') := by
  obtain ⟨c, b', e, -⟩ := nextc_good (reach_seq hr).good
  exact ⟨c, b', e⟩

example : collapse (dropBom ([0xef, 0xbb, 0xbf] ++ ascs "a\r\nb\r")) = ascs "a\nb\r" := by decide

/-- The `CR LF` of `"x\r\n"` is read as one `LF`; pushing it back moves two bytes. -/
example : ∃ b b1 b2, Buffer.new "f" (ascs "x\r\ny") none = .ok b ∧ b.nextc = .ok (some 120, b1) ∧
    b1.nextc = .ok (some 10, b2) ∧ b1.pcur = 1 ∧ b2.pcur = 3 ∧ b1.pcur < b1.pend :=
  ⟨_, _, _, rfl, rfl, rfl, rfl, rfl, by decide⟩

end Verif.Props
