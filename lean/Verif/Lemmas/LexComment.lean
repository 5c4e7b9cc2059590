import Verif.Lemmas.LexOps
import Verif.Spec.Comment
import Verif.Props.Source
/-! The words at line starts, and what is recorded about comments. -/
namespace Verif

open Spec in
/-- The slice of a word, read off after its first byte. -/
theorem slice_cons {bs : Bytes} {i j : Nat} {x : UInt8} (h : bs[i]? = some x) (hj : i < j) :
    slice bs i j = x :: slice bs (i + 1) j := by
  obtain ⟨h1, h2⟩ := List.getElem?_eq_some_iff.1 h
  unfold slice
  rw [List.drop_eq_getElem_cons h1, show j - i = (j - (i + 1)) + 1 by omega, List.take_succ_cons, h2]

open Spec in
theorem slice_get {bs w : Bytes} {i : Nat} (h : slice bs i (i + w.length) = w) {k : Nat} (hk : k < w.length) :
    bs[i + k]? = w[k]? := by
  have : (slice bs i (i + w.length))[k]? = w[k]? := by rw [h]
  rw [← this]
  unfold slice
  rw [List.getElem?_take, if_pos (by omega), List.getElem?_drop]

/-- A byte that ends a word. -/
def WordEnd (c : UInt8) : Prop := c = 32 ∨ (9 ≤ c ∧ c ≤ 13) ∨ c = 0 ∨ c = 0x1a ∨ c = 4

theorem isSpace_some (c : UInt8) : MB.isSpace (some c) = true ↔ c = 32 ∨ (9 ≤ c ∧ c ≤ 13) := by
  simp [MB.isSpace, MB.u8Space]

/-- `is_word_match` inside a line. -/
theorem isWordMatch_ok {b : Buffer} (hm : Mid b) {w : Bytes} (hw : ∀ c ∈ w, c ≠ 10) (h0 : 0 < w.length) :
    ∃ r, b.isWordMatch w = .ok r ∧ (r = true ↔ Spec.slice b.d.bytes b.pcur (b.pcur + w.length) = w ∧
      (b.d.bytes[b.pcur + w.length]? = none ∨ ∃ c, b.d.bytes[b.pcur + w.length]? = some c ∧ WordEnd c)) := by
  unfold Buffer.isWordMatch
  obtain ⟨r, h1, h2⟩ := Lexer.substrAt_total b b.pcur (b.pcur + w.length)
  dsimp only
  rw [h1]
  simp only [Bind.bind, Except.bind, Pure.pure, Except.pure]
  by_cases e : r = some w
  · have hs : b.pcur + w.length ≤ b.d.bytes.length ∧ Spec.slice b.d.bytes b.pcur (b.pcur + w.length) = w := by
      rw [h2] at e
      split at e
      · rename_i h3; exact ⟨h3.2, by simpa using e⟩
      · cases e
    rw [if_neg (by simp [e])]
    -- the word lies on this line
    have hle : b.pcur + w.length ≤ b.pend := by
      by_contra hgt
      have hhi := hm.hi
      have hlt : b.pend < b.d.bytes.length := by omega
      have hnl : b.lastline + 1 < b.d.lines.length := by
        by_contra hge
        have := hm.tab.last_stop
        have h3 := hm.llen
        rw [show b.d.lines.length - 1 = b.lastline by omega, ← hm.stop] at this
        omega
      have hlf := hm.tab.last_lf hnl
      rw [← hm.stop] at hlf
      have hpp : b.pcur ≤ b.pend - 1 := by
        by_contra h3
        have : b.pend = b.pcur := by omega
        rw [this] at hlf
        exact hm.nolf hlf
      have h4 := slice_get hs.2 (k := b.pend - 1 - b.pcur) (by omega)
      rw [show b.pcur + (b.pend - 1 - b.pcur) = b.pend - 1 by omega, hlf] at h4
      exact hw 10 (List.mem_of_getElem? h4.symm) rfl
    by_cases e2 : b.pcur + w.length = b.pend
    · rw [if_pos e2]
      refine ⟨_, rfl, fun _ => ⟨hs.2, .inl ?_⟩, fun _ => rfl⟩
      -- the word is the end of the input
      by_contra hne
      have hlt : b.pend < b.d.bytes.length := by
        rw [e2] at hne
        have := List.getElem?_eq_none_iff.not.1 hne
        omega
      have hnl : b.lastline + 1 < b.d.lines.length := by
        by_contra hge
        have := hm.tab.last_stop
        have h3 := hm.llen
        rw [show b.d.lines.length - 1 = b.lastline by omega, ← hm.stop] at this
        omega
      have hlf := hm.tab.last_lf hnl
      rw [← hm.stop] at hlf
      have h4 := slice_get hs.2 (k := w.length - 1) (by omega)
      rw [show b.pcur + (w.length - 1) = b.pend - 1 by omega, hlf] at h4
      exact hw 10 (List.mem_of_getElem? h4.symm) rfl
    · rw [if_neg e2]
      have hb : b.byteAt (b.pcur + w.length) = b.d.bytes[b.pcur + w.length]? := rfl
      obtain ⟨c, hc⟩ := hm.toGood.byte (j := b.pcur + w.length) (by omega)
      rw [hb, hc]
      by_cases e3 : MB.isSpace (some c) = true
      · rw [if_pos e3]
        exact ⟨_, rfl, fun _ => ⟨hs.2, .inr ⟨c, rfl, ((isSpace_some c).1 e3).elim .inl (fun h => .inr (.inl h))⟩⟩, fun _ => rfl⟩
      · rw [if_neg e3]
        refine ⟨_, rfl, ?_⟩
        rw [isSpace_some] at e3
        simp only [Bool.or_eq_true, beq_iff_eq, Option.some.injEq]
        constructor
        · intro h; exact ⟨hs.2, .inr ⟨c, rfl, by unfold WordEnd; tauto⟩⟩
        · rintro ⟨_, h | ⟨c', h, h'⟩⟩
          · cases h
          · cases h; unfold WordEnd at h'; tauto
  · rw [if_pos (by simpa using e)]
    refine ⟨_, rfl, by simp, ?_⟩
    rintro ⟨h3, h4⟩
    refine absurd ?_ e
    have h5 : b.pcur + w.length ≤ b.d.bytes.length := by
      have h6 := slice_get h3 (k := w.length - 1) (by omega)
      rw [List.getElem?_eq_getElem (l := w) (by omega)] at h6
      have := (List.getElem?_eq_some_iff.1 h6).1
      omega
    rw [h2, if_pos ⟨by omega, h5⟩, h3]

/-- The table determines the rest. -/
theorem DecodedInput.Tabled.update {d : DecodedInput} (h : d.Tabled) : d.updateBytes d.bytes = d := by
  have h1 := updateBytes_lines d d.bytes
  have h2 : d.lines = _ := h
  cases d
  simp only [DecodedInput.updateBytes] at h1 ⊢
  simp_all

namespace Good
variable {b : Buffer}

/-- How a line ends. -/
theorem lineEnd (h : Good b) : b.pend = b.d.bytes.length ∨ b.d.bytes[b.pend - 1]? = some 10 := by
  by_cases e : b.lastline + 1 < b.d.lines.length
  · right; rw [h.stop]; exact h.tab.last_lf e
  · left
    have := h.tab.last_stop
    have h3 := h.llen
    rw [show b.d.lines.length - 1 = b.lastline by omega, ← h.stop] at this
    exact this

/-- How a line starts. -/
theorem lineStart (h : Good b) : Spec.LineStart b.d.bytes b.pbeg := by
  rcases h.start with e | e
  · by_cases e0 : b.lastline = 0
    · left; rw [e, e0]; exact h.tab.first
    · right; left
      have h1 := h.llen
      have := h.tab.next (i := b.lastline - 1) (by omega)
      rw [show b.lastline - 1 + 1 = b.lastline by omega] at this
      rw [e, this]
      exact h.tab.last_lf (by omega)
  · exact .inr (.inr e.2)
end Good

namespace Lexer

/-- What the lexer has recorded about comments only grows, faithfully. -/
structure Com (s s' : Lexer) : Prop where
  com : ∃ cs, s'.comments = s.comments ++ cs ∧ ∀ c ∈ cs, Spec.CommentOk s.buffer.d.bytes c
  mag : ∃ ms, s'.magicComments = s.magicComments ++ ms ∧ ∀ m ∈ ms, Spec.MagicCommentOk s.buffer.d.bytes m

theorem Com.of_eq {s s' : Lexer} (h1 : s'.comments = s.comments) (h2 : s'.magicComments = s.magicComments) : Com s s' :=
  ⟨⟨[], by simp [h1], by simp⟩, ⟨[], by simp [h2], by simp⟩⟩
theorem Com.refl (s : Lexer) : Com s s := .of_eq rfl rfl
theorem Fr.com {s s' : Lexer} (h : Fr s s') : Com s s' := .of_eq h.2.2.2.1 h.2.2.2.2
theorem Com.trans {a b c : Lexer} (h : Com a b) (hb : b.buffer.input = a.buffer.input) (h' : Com b c) : Com a c := by
  obtain ⟨⟨cs, e1, h1⟩, ⟨ms, e2, h2⟩⟩ := h
  obtain ⟨⟨cs', e3, h3⟩, ⟨ms', e4, h4⟩⟩ := h'
  simp only [Buffer.d, hb] at h3 h4
  refine ⟨⟨cs ++ cs', by rw [e3, e1, List.append_assoc], ?_⟩, ⟨ms ++ ms', by rw [e4, e2, List.append_assoc], ?_⟩⟩
  · intro c hc; rcases List.mem_append.1 hc with hc | hc
    · exact h1 c hc
    · exact h3 c hc
  · intro c hc; rcases List.mem_append.1 hc with hc | hc
    · exact h2 c hc
    · exact h4 c hc

theorem MagicOk.spec {d : DecodedInput} {m : MagicComment} {i j : Nat} (h : MagicOk d (i + 1) j m) (hl : Spec.LineComment d.bytes i j) :
    Spec.MagicCommentOk d.bytes m := by
  refine ⟨⟨i, j, hl, h.lo, h.hi⟩, h.key, h.sep, h.value, ?_⟩
  have hk := h.kind
  have e : ∀ bs : Bytes, mcName bs = bs.map (fun b => if b = 45 then 95 else b) := fun _ => rfl
  rw [e] at hk
  generalize (Spec.slice d.bytes m.keyL.begin m.keyL.stop).map (fun b => if b = 45 then 95 else b) = name at hk ⊢
  cases hm : m.kind <;> rw [hm] at hk <;> simp [MAGIC_COMMENTS] at hk <;> simp [Spec.magicKeys, hk]
  tauto

/-- Recording a comment. -/
theorem pushComment_wp {Q : Unit → Lexer → Prop} {s : Lexer} {loc : Verif.Loc} (hg : Good s.buffer)
    (hc : Spec.LineComment s.buffer.d.bytes loc.begin loc.stop ∨ Spec.DocComment s.buffer.d.bytes loc.begin loc.stop)
    (hq : ∀ s', s'.buffer = s.buffer → s'.strterm = s.strterm → s'.lvalStart = s.lvalStart → s'.lvalEnd = s.lvalEnd → Com s s' → Q () s') :
    Wp (pushComment loc) Q s := by
  unfold pushComment
  obtain ⟨c, h1, h2, h3, h4⟩ := Props.C08_comment_kind s.buffer.d s.buffer.d.bytes loc
  rw [hg.tab.update] at h1
  refine Wp.bind (Wp.liftB c h1 (Wp.modS (hq _ rfl rfl rfl rfl ⟨⟨[c], rfl, ?_⟩, ⟨[], by simp, by simp⟩⟩)))
  intro c' hc'
  obtain rfl : c' = c := by simpa using hc'
  unfold Spec.CommentOk
  rw [h2]
  rcases hc with hc | hc
  · refine .inl ⟨h3.2 ⟨Nat.le_of_lt hc.lt, hc.stop_le, ?_⟩, hc⟩
    exact ⟨_, slice_cons hc.hash hc.lt⟩
  · refine .inr ⟨h4.2 ⟨?_, hc.stop_le, ?_⟩, hc⟩
    · obtain ⟨k, h5, h6, _⟩ := hc.tail; omega
    · obtain ⟨k, h5, h6, h7, h8, h9, h10⟩ := hc.tail
      have hh := hc.head.1
      have hj : loc.begin + 6 ≤ loc.stop := by
        by_contra hlt
        have := slice_get hh (k := k - 1 - loc.begin) (by simp [ascs]; omega)
        rw [show loc.begin + (k - 1 - loc.begin) = k - 1 by omega, h7] at this
        have h12 := List.mem_of_getElem? this.symm
        revert h12; decide
      refine ⟨Spec.slice s.buffer.d.bytes (loc.begin + 6) loc.stop, ?_⟩
      have : Spec.slice s.buffer.d.bytes loc.begin loc.stop =
          Spec.slice s.buffer.d.bytes loc.begin (loc.begin + 6) ++ Spec.slice s.buffer.d.bytes (loc.begin + 6) loc.stop := by
        unfold Spec.slice
        rw [show loc.stop - loc.begin = (loc.begin + 6 - loc.begin) + (loc.stop - (loc.begin + 6)) by omega, List.take_add,
          List.drop_drop]
        simp
      rw [this]
      congr 1

end Lexer
end Verif
