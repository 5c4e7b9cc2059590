import Verif.Lemmas.LexGap
import Verif.Lemmas.LexToken
import Verif.Lemmas.LexMagic
/-! Comments without a colon, and the ends of lines after them. -/
namespace Verif.Lexer
open Verif.Props (collapse Seq collapse_ne)

theorem mcLoop_plain {x : Ext} {ind : Bool} {s : Lexer} {lo hi : Nat} (h58 : ∀ j, lo ≤ j → j < hi → s.buffer.byteAt j ≠ some 58) :
    ∀ (n str : Nat) (len : Int), lo ≤ str → str + len ≤ hi → len < n → 0 < n → Wp (mcLoop x ind n str len) (fun r s' => r ≠ none ∧ s' = s) s
  | 0, str, len, h1, h2, h3, hn => by
    exfalso; omega
  | n + 1, str, len, h1, h2, h3, hn => by
    unfold mcLoop
    refine Wp.ite (fun _ => Wp.pure ⟨by simp, rfl⟩) fun h0 => ?_
    refine Wp.bind (Wp.getB ?_)
    dsimp only [id]
    have a1 := mcSkip_le (fun c => mcSep c || MB.isSpace c) s.buffer len.toNat str
    have z1 := @mcSkip_zero (fun c => mcSep c || MB.isSpace c) s.buffer len.toNat str
    generalize mcSkip (fun c => mcSep c || MB.isSpace c) s.buffer len.toNat str = k1 at a1 z1 ⊢
    have a2 := mcSkip_le (fun c => !mcSep c && !MB.isSpace c) s.buffer (len - ↑k1).toNat (str + k1)
    have z2 := @mcSkip_zero (fun c => !mcSep c && !MB.isSpace c) s.buffer (len - ↑k1).toNat (str + k1)
    generalize mcSkip (fun c => !mcSep c && !MB.isSpace c) s.buffer (len - ↑k1).toNat (str + k1) = k2 at a2 z2 ⊢
    have prog : 1 ≤ k1 + k2 := by
      by_contra hk
      have e1 : k1 = 0 := by omega
      have e2 : k2 = 0 := by omega
      subst e1 e2
      have b1 := z1 rfl (by omega)
      have b2 := z2 rfl (by omega)
      simp only [Nat.add_zero, Bool.or_eq_false_iff] at b1 b2
      simp [b1.1, b1.2] at b2
    clear z1 z2
    have a3 := mcSkip_le MB.isSpace s.buffer (len - ↑k1 - ↑k2).toNat (str + k1 + k2)
    generalize mcSkip MB.isSpace s.buffer (len - ↑k1 - ↑k2).toNat (str + k1 + k2) = k3 at a3 ⊢
    refine Wp.ite (fun h => Wp.pure ⟨by simp, rfl⟩) fun h4 => ?_
    have hno := h58 (str + k1 + k2 + k3) (by omega) (by omega)
    refine Wp.ite (fun h => ?_) fun h => ?_
    · refine Wp.ite (fun h => Wp.pure ⟨by simp, rfl⟩) fun h5 => ?_
      exact mcLoop_plain h58 n _ _ (by omega) (by omega) (by omega) (by omega)
    · exfalso
      refine hno ?_
      simpa [isC, asc] using h

theorem magicComment_plain {x : Ext} {s : Lexer} {str len : Nat} (h58 : ∀ j, str ≤ j → j < str + len → s.buffer.byteAt j ≠ some 58) (hz : len < 2 ^ 31) :
    Wp (magicComment x str len) (fun r s' => r ≠ none ∧ s' = s) s := by
  unfold magicComment
  refine Wp.ite (fun h => Wp.pure ⟨by simp, rfl⟩) (fun h0 => ?_)
  obtain ⟨beg, e1, h1⟩ := marker_ok s.buffer str len
  refine Wp.bind (Wp.liftB beg e1 ?_)
  refine Wp.ite (fun hb => ?_) (fun hb => ?_)
  · rcases h1 with h1 | h1
    · exact absurd h1 hb
    refine Wp.bind (Wp.liftB _ (csub_of_le (by omega)) ?_)
    obtain ⟨stop, e2, h2⟩ := marker_ok s.buffer beg (str + len - beg)
    refine Wp.bind (Wp.liftB stop e2 ?_)
    refine Wp.ite (fun h => Wp.pure ⟨by simp, rfl⟩) (fun h3 => ?_)
    rcases h2 with h2 | h2
    · exact absurd h2 h3
    refine Wp.bind (Wp.liftB (stop - beg - 3) ?_ ?_)
    · rw [csub_of_le (by omega)]
      exact csub_of_le (by omega)
    refine Wp.ite (fun h => ?_) (fun h => absurd (by omega) h)
    exact mcLoop_plain (lo := str) (hi := str + len) h58 _ _ _ (by omega) (by omega) (by omega) (by omega)
  · refine Wp.ite (fun h => ?_) (fun h => absurd (by omega) h)
    exact mcLoop_plain (lo := str) (hi := str + len) h58 _ _ _ (by omega) (by omega) (by omega) (by omega)

theorem collapse_plain {w : Bytes} (h : 13 ∉ w) : collapse w = w := by
  induction w with
  | nil => simp [collapse]
  | cons c w ih =>
    rw [collapse_ne fun e => h (by rw [e.1]; simp), ih fun e => h (by simp [e])]

theorem Took.atEol {bs rest : Bytes} {s : Lexer} (h : Took bs 10 rest s.buffer) (hcr : 13 ∉ bs) (hp : s.buffer.ptok + 1 = s.buffer.pcur)
    (hst : s.strterm = none) (hls : s.lvalStart = none) (hle : s.lvalEnd = none) : AtEol s := by
  have hg := h.at'.seq.good
  have hpos := h.pos
  have hpb : s.buffer.pbPos = s.buffer.pcur - 1 := by
    unfold Buffer.pbPos
    rw [if_neg]
    rintro ⟨-, -, h3⟩
    rw [h.at'.d] at h3
    exact hcr (List.mem_of_getElem? h3)
  have hlo : s.buffer.pbeg ≤ s.buffer.pcur - 1 := by rw [← hpb]; exact h.back.seq.good.lo
  have heol : s.buffer.pcur = s.buffer.pend := by
    by_contra hne
    have hhi := hg.hi
    have hlast := h.last
    rw [← h.at'.d] at hlast
    exact hg.inner hlo (by omega) hlast
  refine ⟨hg, h.noeof, h.at'.seq.nl, heol, by omega, by omega, by omega, ?_, hst, hls, hle⟩
  intro _ _ h3
  rw [h.at'.d] at h3
  exact hcr (List.mem_of_getElem? h3)

/-- The end of a line was read, and `rest` is next. -/
structure EolAt (bs rest : Bytes) (s : Lexer) : Prop where
  eol : AtEol s
  up : Upcoming bs rest s.buffer
  last : bs[s.buffer.pcur - 1]? = some 10

/-- Nothing, or a comment that is not a magic one. -/
def Remark (c : Bytes) : Prop := c = [] ∨ ∃ t, c = 35 :: t ∧ 10 ∉ t ∧ 58 ∉ t ∧ t.length + 1 < 2 ^ 31

/-- After the `#`. -/
theorem lexComment_plain {x : Ext} {ts sp : Bool} {bs t rest : Bytes} {s : Lexer} {Q : Next → Lexer → Prop} (h : Took bs 35 (t ++ 10 :: rest) s.buffer) (hcr : 13 ∉ bs)
    (h10 : 10 ∉ t) (h58 : 58 ∉ t) (hlen : t.length + 1 < 2 ^ 31) (hp : s.buffer.ptok + 1 = s.buffer.pcur) (hst : s.strterm = none) (hls : s.lvalStart = none) (hle : s.lvalEnd = none)
    (hq : ∀ b cs, EolAt bs rest { s with tokenSeen := ts, buffer := b, comments := cs } → b.pcur = s.buffer.pcur + t.length + 1 →
      Wp (lexNewline ts sp) Q { s with tokenSeen := ts, buffer := b, comments := cs }) : Wp (lexComment x ts sp) Q s := by
  have hg := h.at'.seq.good
  have hd := h.at'.d
  have hcol : ∀ k, collapse (bs.drop k) = bs.drop k := fun k => collapse_plain fun hc => hcr (List.mem_of_mem_drop hc)
  have htxt : bs.drop s.buffer.pcur = t ++ 10 :: rest := by rw [← hcol]; exact h.at'.txt
  have hget : ∀ j, bs[s.buffer.pcur + j]? = (t ++ 10 :: rest)[j]? := fun j => by rw [← htxt, List.getElem?_drop]
  have hq10 : bs[s.buffer.pcur + t.length]? = some 10 := by rw [hget]; simp
  have hinT : ∀ j, j < t.length → ∃ c ∈ t, bs[s.buffer.pcur + j]? = some c := fun j hj =>
    ⟨t[j], List.getElem_mem hj, by rw [hget, List.getElem?_append_left hj, List.getElem?_eq_getElem hj]⟩
  have hlo : s.buffer.pbeg ≤ s.buffer.pcur - 1 := by
    have h1 := h.back.seq.good.lo
    have h2 : s.buffer.pbPos ≤ s.buffer.pcur - 1 := by unfold Buffer.pbPos; split <;> omega
    exact Nat.le_trans h1 h2
  have hpos := h.pos
  have hhi := hg.hi
  have hple := hg.pend_le
  rw [hd] at hple
  have hq10' := (List.getElem?_eq_some_iff.1 hq10).1
  have hpend : s.buffer.pend = s.buffer.pcur + t.length + 1 := by
    rcases Nat.lt_trichotomy s.buffer.pend (s.buffer.pcur + t.length + 1) with h1 | h1 | h1
    · exfalso
      have h2 := hg.lineEnd
      rw [hd] at h2
      rcases h2 with h2 | h2
      · omega
      by_cases h3 : s.buffer.pend = s.buffer.pcur
      · rw [h3, h.last] at h2; cases h2
      · obtain ⟨c, hc, e⟩ := hinT (s.buffer.pend - 1 - s.buffer.pcur) (by omega)
        rw [show s.buffer.pcur + (s.buffer.pend - 1 - s.buffer.pcur) = s.buffer.pend - 1 by omega, h2] at e
        cases e
        exact h10 hc
    · exact h1
    · exfalso
      exact hg.inner (j := s.buffer.pcur + t.length) (by omega) (by omega) (by rw [hd]; exact hq10)
  unfold lexComment
  refine Wp.bind (Wp.modS ?_)
  refine Wp.bind (Wp.liftB _ (csub_of_le hhi) ?_)
  refine Wp.bind (Wp.pcur ?_)
  refine Wp.bind ((magicComment_plain (s := { s with tokenSeen := ts }) (str := s.buffer.pcur) (len := s.buffer.pend - s.buffer.pcur) ?_ (by omega)).mono ?_)
  · intro j h1 h2 e
    have e' : bs[j]? = some 58 := by rw [← hd]; exact e
    by_cases h3 : j = s.buffer.pcur + t.length
    · rw [h3, hq10] at e'; cases e'
    · obtain ⟨c, hc, e2⟩ := hinT (j - s.buffer.pcur) (by omega)
      rw [show s.buffer.pcur + (j - s.buffer.pcur) = j by omega, e'] at e2
      cases e2
      exact h58 hc
  rintro r s1 ⟨hr, rfl⟩
  cases r with
  | none => exact absurd rfl hr
  | some magic =>
    dsimp only
    have fin : Wp (do
        Lexer.gotoEol
        pushComment (← currentLoc)
        lexNewline ts sp) Q { s with tokenSeen := ts } := by
      refine Wp.bind (Wp.modB ?_)
      refine Wp.bind (Wp.getB ?_)
      unfold pushComment
      obtain ⟨c, h1, -, -, -⟩ := Props.C08_comment_kind s.buffer.d s.buffer.d.bytes ⟨s.buffer.ptok, s.buffer.pend⟩
      rw [hg.tab.update] at h1
      refine Wp.bind (Wp.bind (Wp.liftB c h1 (Wp.modS ?_)))
      refine hq s.buffer.gotoEol _ ⟨⟨?_, h.noeof, h.at'.seq.nl, rfl, ?_, ?_, ?_, ?_, hst, hls, hle⟩, ⟨⟨?_, h.at'.seq.nl, h.at'.seq.lc, ?_⟩, hd, ?_⟩, ?_⟩ hpend
      · exact { hg with lo := by show s.buffer.pbeg ≤ s.buffer.pend; omega
                        hi := Nat.le_refl _
                        ns := fun _ h => absurd h (Nat.lt_irrefl _) }
      · show s.buffer.pbeg < s.buffer.pend; omega
      · show s.buffer.ptok < s.buffer.pend; omega
      · show s.buffer.pbeg ≤ s.buffer.ptok; omega
      · intro _ _ h3
        have h3 : s.buffer.d.bytes[s.buffer.ptok - 1]? = some 13 := h3
        rw [hd] at h3
        exact hcr (List.mem_of_getElem? h3)
      · exact { hg with lo := by show s.buffer.pbeg ≤ s.buffer.pend; omega
                        hi := Nat.le_refl _
                        ns := fun _ h => absurd h (Nat.lt_irrefl _) }
      · intro e
        have e : s.buffer.eofp = true := e
        rw [h.noeof] at e; cases e
      · show collapse (bs.drop s.buffer.pend) = rest
        rw [hcol, hpend, Nat.add_assoc, ← List.drop_drop, htxt]
        simp
      · show bs[s.buffer.pend - 1]? = some 10
        rw [hpend]; exact hq10
    have top : ∀ t : Bool, Wp (do
        if t then Lexer.liftB (fun b => setFileEncoding b b.pcur b.pend) else Pure.pure ()
        Lexer.gotoEol
        pushComment (← currentLoc)
        lexNewline ts sp) Q { s with tokenSeen := ts } := by
      intro t
      refine Wp.ite (fun _ => ?_) (fun _ => ?_)
      · exact Wp.bind (Wp.liftB _ (setFileEncoding_ok hhi hg.pend_le) fin)
      · exact fin
    refine Wp.ite (fun _ => ?_) (fun _ => ?_)
    · obtain ⟨t, e⟩ := commentAtTop_ok (b := s.buffer) hpos
      exact Wp.bind (Wp.liftB t e (top t))
    · exact top false

/-- After one pass of the loop. -/
def Goes (x : Ext) (cmd ts : Bool) (n : Nat) (Q : Tok → Lexer → Prop) : Next → Lexer → Prop
  | .tok t, s => Q t s
  | .retry sp, s => Wp (yylexLoop x cmd ts n sp) Q s
  | .ident, _ => False

theorem dispatch_nl {x : Ext} {sp cmd ts : Bool} {l : LexState} {Q : Next → Lexer → Prop} {s : Lexer} (h : Wp (lexNewline ts sp) Q s) : Wp (dispatch x 10 sp l cmd ts) Q s := by
  unfold dispatch
  refine Wp.ite (fun e => absurd e (by decide)) fun _ => ?_
  refine Wp.ite (fun e => absurd e (by decide)) fun _ => ?_
  refine Wp.ite (fun e => absurd e (by decide)) fun _ => ?_
  refine Wp.ite (fun e => absurd e (by decide)) fun _ => ?_
  exact Wp.ite (fun _ => h) fun e => absurd rfl e

theorem dispatch_hash {x : Ext} {sp cmd ts : Bool} {l : LexState} {Q : Next → Lexer → Prop} {s : Lexer} (h : Wp (lexComment x ts sp) Q s) : Wp (dispatch x 35 sp l cmd ts) Q s := by
  unfold dispatch
  refine Wp.ite (fun e => absurd e (by decide)) fun _ => ?_
  refine Wp.ite (fun e => absurd e (by decide)) fun _ => ?_
  refine Wp.ite (fun e => absurd e (by decide)) fun _ => ?_
  exact Wp.ite (fun _ => h) fun e => absurd rfl e

/-- The end of a line, after a comment or not, in the main loop. -/
theorem yylexLoop_eol {x : Ext} {cmd ts sp : Bool} {n : Nat} {bs com rest : Bytes} {s : Lexer} {Q : Tok → Lexer → Prop} (h : Upcoming bs (com ++ 10 :: rest) s.buffer) (hc : Remark com)
    (hcr : 13 ∉ bs) (hst : s.strterm = none) (hls : s.lvalStart = none) (hle : s.lvalEnd = none)
    (hq : ∀ b tk cs, EolAt bs rest { s with tokenSeen := tk, buffer := b, comments := cs } → b.pcur = s.buffer.pcur + com.length + 1 →
      Wp (lexNewline ts sp) (Goes x cmd ts n Q) { s with tokenSeen := tk, buffer := b, comments := cs }) : Wp (yylexLoop x cmd ts (n + 1) sp) Q s := by
  rcases hc with rfl | ⟨t, rfl, h10, h58, hlen⟩
  · refine yylexLoop_char h fun b1 h2 hm ht => Wp.bind (dispatch_nl ?_)
    have hone := hm.newline h2 hcr
    exact (hq b1 s.tokenSeen s.comments ⟨Took.atEol (s := { s with buffer := b1 }) h2 hcr (by dsimp only; omega) hst hls hle, h2.at', h2.last⟩ (by simpa using hone)).mono fun r s' h => by
      cases r with
      | tok t => exact Wp.pure h
      | retry sp => exact h
      | ident => exact h.elim
  · refine yylexLoop_char h fun b1 h2 hm ht => Wp.bind (dispatch_hash ?_)
    have hone := hm.one (by decide)
    refine lexComment_plain (s := { s with buffer := b1 }) h2 hcr h10 h58 hlen (by dsimp only; omega) hst hls hle fun b cs h3 h4 => ?_
    refine (hq b ts cs h3 ?_).mono fun r s' h => by
      cases r with
      | tok t => exact Wp.pure h
      | retry sp => exact h
      | ident => exact h.elim
    dsimp only at h4
    simp only [List.length_cons]; omega

/-- A line end after a comment, where line ends are skipped. -/
theorem SkipsTo.remark {x : Ext} {bs com text : Bytes} {st : LexState} (h : Skips st) (hc : Remark com) (hcr : 13 ∉ bs) : SkipsTo x bs st (com ++ [10]) text := by
  rintro cmd ts Q n sp s rfl hst hls hle hn hu hq
  obtain ⟨n, rfl⟩ : ∃ k', n = k' + 1 := ⟨n - 1, by omega⟩
  refine yylexLoop_eol (com := com) (rest := text) (by simpa using hu) hc hcr hst hls hle fun b tk cs h1 h2 => ?_
  refine lexNewline_skip (s := { s with tokenSeen := tk, buffer := b, comments := cs }) h ?_
  refine hq n b sp ts cs ?_ h1.up ?_ fun h => absurd (h 10 (by simp)) (by unfold Blank; decide)
  · simp only [List.length_append, List.length_cons, List.length_nil]; omega
  · simp only [List.length_append, List.length_cons, List.length_nil]; omega

end Verif.Lexer
