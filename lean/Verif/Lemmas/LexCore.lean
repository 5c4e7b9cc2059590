import Verif.Lemmas.LexTac
import Verif.Props.Escapes
/-! Multi-byte characters and names: `multibyte_char_len`, `tokcopy`, `tokadd_mbchar`, `tokadd_ident`. -/
namespace Verif.Lexer

variable {s b : Lexer}

/-- The bytes after the first one of a valid multi-byte character are continuation bytes. -/
theorem valid_tail {c1 : UInt8} {rest : Bytes} {len : Nat} (hv : Utf8.valid (c1 :: rest) = true) (hl : rest.length + 1 = len)
    (hc : (if c1 &&& 0x80 = 0 then some 1 else if c1 &&& 0xE0 = 0xC0 then some 2 else if c1 &&& 0xF0 = 0xE0 then some 3
      else if c1 &&& 0xF8 = 0xF0 then some 4 else none) = some len) : ∀ x ∈ rest, 128 ≤ x.toNat := by
  have key : ∀ c : UInt8, (if c &&& 0x80 = 0 then some 1 else if c &&& 0xE0 = 0xC0 then some 2 else if c &&& 0xF0 = 0xE0 then some 3
      else if c &&& 0xF8 = 0xF0 then some 4 else none) =
      (if c.toNat < 128 then some 1 else if c.toNat < 192 then none else if c.toNat < 224 then some 2 else if c.toNat < 240 then some 3
      else if c.toNat < 248 then some 4 else none) := u8_forall (by decide +kernel)
  rw [key] at hc
  unfold Utf8.valid Utf8.chunks at hv
  simp only [List.length_cons, Utf8.chunksN] at hv
  rcases hs : Utf8.step c1 rest with ⟨c, k⟩
  rw [hs] at hv
  simp only [List.all_cons, Bool.and_eq_true] at hv
  obtain ⟨c, rfl⟩ := Option.isSome_iff_exists.mp hv.1
  obtain ⟨h1, tl, h2, h3, h4⟩ := Utf8.step_some hs
  simp [Utf8.isScalar] at h1
  unfold Utf8.encode at h2 h3
  split at h3
  · simp at h3
    have : c1.toNat = c := by rw [← h3]; simp; omega
    rw [if_pos (by omega)] at hc
    simp at hc
    have : rest = [] := by cases rest with | nil => rfl | cons => simp at hl; omega
    simp [this]
  split at h3
  · rename_i h5 h6
    rw [if_neg h5, if_pos h6] at h2
    simp at h3
    have : c1.toNat = 0xC0 + c / 64 := by rw [← h3]; simp; omega
    rw [if_neg (by omega), if_neg (by omega), if_pos (by omega)] at hc
    simp at hc h2
    have : tl = [] := by cases tl with | nil => rfl | cons => simp [h2] at hl; omega
    subst this
    rw [h2]; simp; omega
  split at h3
  · rename_i h5 h6 h7
    rw [if_neg h5, if_neg h6, if_pos h7] at h2
    simp at h3
    have : c1.toNat = 0xE0 + c / 4096 := by rw [← h3]; simp; omega
    rw [if_neg (by omega), if_neg (by omega), if_neg (by omega), if_pos (by omega)] at hc
    simp at hc h2
    have : tl = [] := by cases tl with | nil => rfl | cons => simp [h2] at hl; omega
    subst this
    rw [h2]; simp; omega
  · rename_i h5 h6 h7
    rw [if_neg h5, if_neg h6, if_neg h7] at h2
    simp at h3
    have : c1.toNat = 0xF0 + c / 262144 := by rw [← h3]; simp; omega
    rw [if_neg (by omega), if_neg (by omega), if_neg (by omega), if_neg (by omega), if_pos (by omega)] at hc
    simp at hc h2
    have : tl = [] := by cases tl with | nil => rfl | cons => simp [h2] at hl; omega
    subst this
    rw [h2]; simp; omega

/-- A byte that is neither a line feed nor a carriage return. -/
def PlainAt (b : Buffer) (j : Nat) : Prop := b.d.bytes[j]? ≠ some 10 ∧ b.d.bytes[j]? ≠ some 13

/-- What `multibyte_char_len` returns. -/
theorem multibyteLenB_ok (b : Buffer) (ptr : Nat) : ∃ r, multibyteLenB b ptr = .ok r ∧ ∀ len, r = some len →
    1 ≤ len ∧ len ≤ 4 ∧ ptr + len ≤ b.d.bytes.length ∧ ∀ j, ptr < j → j < ptr + len → PlainAt b j := by
  unfold multibyteLenB
  cases hc : b.byteAt ptr with
  | none => exact ⟨none, rfl, by simp⟩
  | some c1 =>
    dsimp only
    split
    · exact ⟨none, rfl, by simp⟩
    · rename_i len hlen
      have hl : 1 ≤ len ∧ len ≤ 4 := by
        split at hlen
        · simp at hlen; omega
        split at hlen
        · simp at hlen; omega
        split at hlen
        · simp at hlen; omega
        split at hlen
        · simp at hlen; omega
        · simp at hlen
      obtain ⟨r, h1, h2⟩ := substrAt_total b ptr (ptr + len)
      rw [h1]
      simp only [Bind.bind, Except.bind, Pure.pure, Except.pure]
      by_cases hr : ptr ≤ ptr + len ∧ ptr + len ≤ b.d.bytes.length
      · rw [if_pos hr] at h2
        rw [h2]
        dsimp only
        refine ⟨_, rfl, ?_⟩
        intro l hl'
        split at hl'
        · rename_i hv
          cases hl'
          refine ⟨hl.1, hl.2, hr.2, ?_⟩
          intro j hj1 hj2
          simp only [Buffer.byteAt, Input.byteAt] at hc
          have hsl : Spec.slice b.d.bytes ptr (ptr + len) = c1 :: ((b.d.bytes.drop (ptr + 1)).take (len - 1)) := by
            unfold Spec.slice
            rw [drop_cons hc, show ptr + len - ptr = (len - 1) + 1 by omega, List.take_succ_cons]
          rw [hsl] at hv
          have := valid_tail hv (by simp; have := hr.2; simp only [Buffer.d] at this; omega) hlen
          have hlt : j < b.d.bytes.length := by have := hr.2; omega
          have hmem : b.d.bytes[j] ∈ (b.d.bytes.drop (ptr + 1)).take (len - 1) := by
            rw [List.mem_take_iff_getElem]
            refine ⟨j - (ptr + 1), by simp; simp only [Buffer.d] at hlt; omega, ?_⟩
            rw [List.getElem_drop]
            congr 1; omega
          have := this _ hmem
          unfold PlainAt
          rw [List.getElem?_eq_getElem hlt]
          constructor
          · intro he; simp at he; simp only [Buffer.d] at this; rw [he] at this; simp at this
          · intro he; simp at he; simp only [Buffer.d] at this; rw [he] at this; simp at this
        · cases hl'
      · rw [if_neg hr] at h2
        rw [h2]
        exact ⟨none, rfl, by simp⟩

theorem Wp.multibyteCharLen {Q : Option Nat → Lexer → Prop} {ptr : Nat}
    (h : ∀ r s', Same s s' → (∀ len, r = some len → 1 ≤ len ∧ len ≤ 4 ∧ ptr + len ≤ s.buffer.d.bytes.length ∧
      ∀ j, ptr < j → j < ptr + len → PlainAt s.buffer j) → Q r s') : Wp (multibyteCharLen ptr) Q s := by
  unfold Lexer.multibyteCharLen
  obtain ⟨r, h1, h2⟩ := multibyteLenB_ok s.buffer ptr
  refine Wp.bind (Wp.liftB r h1 ?_)
  wstep
  · wstep
    wstep
    wstep
    exact h _ _ (by assumption) h2
  · wstep
    exact h _ _ (Same.refl _) h2

/-- Moving the cursor over ordinary bytes of the line. -/
theorem advance_mid {b : Buffer} (hm : Mid b) {k : Nat} (he : k ≠ 0 → b.eofp = false) (hk : b.pcur + k ≤ b.pend)
    (hp : ∀ j, b.pcur ≤ j → j < b.pcur + k → PlainAt b j) :
    Mid { b with pcur := b.pcur + k } ∧ LocB b { b with pcur := b.pcur + k } := by
  by_cases hz : k = 0
  · subst hz
    have : { b with pcur := b.pcur + 0 } = b := by cases b; rfl
    rw [this]
    exact ⟨hm, .refl _⟩
  have he := he hz
  have hg : Good { b with pcur := b.pcur + k } := { hm.toGood with
    lo := by have := hm.lo; dsimp only; omega
    hi := hk
    ns := fun _ _ _ => (hp (b.pcur + k - 1) (by omega) (by omega)).2 }
  refine ⟨{ hg with
    lt := by have := hm.lt; dsimp only; omega
    nolf := (hp (b.pcur + k - 1) (by omega) (by omega)).1
    nonl := hm.nonl }, ?_⟩
  have hs : SameLine b { b with pcur := b.pcur + k } := ⟨rfl, rfl, rfl, rfl, rfl, rfl, rfl, rfl⟩
  exact ⟨hs, by dsimp only; omega, R_sameLine hs hm.nonl he (by dsimp only; omega) hk, by intro h; dsimp only; omega, id, fun _ h _ => h⟩

theorem Wp.advance {Q : Unit → Lexer → Prop} {k : Nat} (hm : Mid s.buffer) (he : k ≠ 0 → s.buffer.eofp = false)
    (hk : s.buffer.pcur + k ≤ s.buffer.pend)
    (hp : ∀ j, s.buffer.pcur ≤ j → j < s.buffer.pcur + k → PlainAt s.buffer j)
    (hq : ∀ s', Loc s s' → Mid s'.buffer → s'.buffer.pcur = s.buffer.pcur + k → s'.buffer.eofp = s.buffer.eofp →
      s'.buffer.ptok = s.buffer.ptok → Q () s') : Wp (Lexer.modB fun b => { b with pcur := b.pcur + k }) Q s := by
  obtain ⟨h1, h2⟩ := advance_mid hm he hk hp
  exact Wp.modB (hq _ ⟨h2, Fr.refl _⟩ h1 rfl rfl rfl)

theorem Wp.tokcopy {Q : Unit → Lexer → Prop} {n : Nat} (hn : n ≤ s.buffer.pcur) (hp : s.buffer.pcur ≤ s.buffer.d.bytes.length)
    (h : ∀ s', Same s s' → Q () s') : Wp (tokcopy n) Q s := by
  unfold Lexer.tokcopy
  refine Wp.bind (Wp.pcurSub hn (Wp.bind (Wp.liftB _ (substrAt_ok (by omega) hp) ?_)))
  exact Wp.modS (h _ ⟨rfl, rfl, rfl, rfl, rfl, rfl⟩)

/-- From a position on the line, a character's bytes are on the line. -/
theorem mb_on_line {b : Buffer} (hm : Mid b) {len : Nat} (hlen : b.pcur - 1 + len ≤ b.d.bytes.length)
    (hp : ∀ j, b.pcur - 1 < j → j < b.pcur - 1 + len → PlainAt b j) : b.pcur - 1 + len ≤ b.pend := by
  have h1 := hm.lt
  have h2 := hm.hi
  refine hm.toGood.span (by omega) (by omega) hlen ?_
  intro j hj1 hj2
  by_cases e : j = b.pcur - 1
  · rw [e]; exact hm.nolf
  · exact (hp j (by omega) hj2).1

theorem Wp.tokaddMbchar {Q : Bool → Lexer → Prop} {c : MB} (hm : Mid s.buffer) (hc : c ≠ none → s.buffer.eofp = false)
    (hq : ∀ r s', (r = true → Loc s s' ∧ Mid s'.buffer ∧ s'.buffer.eofp = false ∧ c ≠ none) → Q r s') :
    Wp (tokaddMbchar c) Q s := by
  unfold Lexer.tokaddMbchar
  have h1 := hm.lt
  refine Wp.bind (Wp.pcurSub (by omega) (Wp.bind (Wp.multibyteCharLen ?_)))
  intro r s1 hs hr
  split
  · wstep; exact hq _ _ (by simp)
  · rename_i len
    obtain ⟨h2, h3, h4, h5⟩ := hr len rfl
    split
    · wstep; exact hq _ _ (by simp)
    · rename_i ch
      have he := hc (by simp)
      wstep; wstep
      rename_i s2 hs2
      have hs3 := hs.trans hs2
      refine Wp.bind (Wp.liftB _ (csub_of_le h2) ?_)
      have hline := mb_on_line hm h4 h5
      refine Wp.bind (Wp.advance (hs3.mid hm) (fun _ => by rw [hs3.1]; exact he) (by rw [hs3.1]; omega) ?_ ?_)
      · rw [hs3.1]; intro j hj1 hj2; exact h5 j (by omega) (by omega)
      · intro s4 h6 h7 h8 h9 h10
        have hg := h7.toGood
        refine Wp.bind (Wp.tokcopy (by rw [h8]; omega) (by have := hg.hi; have := hg.pend_le; omega) ?_)
        intro s5 hs5
        wstep
        exact hq _ _ fun _ => ⟨(hs3.loc.trans h6).trans hs5.loc, hs5.mid h7, by rw [hs5.1, h9, hs3.1]; exact he, by simp⟩

/-- A character of a name is not a line feed. -/
theorem Rd.ident {p s : Lexer} {c : MB} (h : Rd p c s)
    (hi : s.buffer.eofp = false ∧ s.buffer.isIdentcharAt (s.buffer.pcur - 1) = true) : c ≠ some 10 ∧ c ≠ none := by
  constructor
  · rintro rfl
    have := (h.isSome 10 rfl).lf rfl
    have h2 := hi.2
    unfold Buffer.isIdentcharAt Input.byteAt at h2
    have h3 : s.buffer.input.decoded.bytes[s.buffer.pcur - 1]? = some 10 := by
      have := this.2; simp only [Buffer.d] at this; rw [← this, h.loc.1.same.input]
    rw [h3] at h2
    exact absurd h2 (by decide)
  · rintro rfl
    have := (h.isNone rfl).1
    rw [this] at hi
    simp at hi

theorem Rd.pos {p s : Lexer} {c : MB} (h : Rd p c s) : 0 < s.buffer.pcur := by
  have := h.mid0.lt; have := h.loc.1.pcur; omega

theorem identLoop_wp {Q : Option MB → Lexer → Prop} : ∀ n c s, Mid s.buffer → (c ≠ none → s.buffer.eofp = false) →
    s.buffer.R + 2 ≤ n → Loc b s → (∀ s', Q none s') → (∀ p c' s', Loc b p → Rd p c' s' → Q (some c') s') →
    Wp (identLoop n c) Q s := by
  intro n
  induction n with
  | zero => intro c s _ _ h; omega
  | succ n ih =>
    intro c s hm he hR hl hq0 hq1
    unfold identLoop
    refine Wp.bind (Wp.tokaddMbchar hm he ?_)
    intro r s1 hr
    wstep
    · wstep; exact hq0 _
    · rename_i hrt
      have hrt : r = true := by simpa using hrt
      obtain ⟨h1, h2, h3, h4⟩ := hr hrt
      wstep
      wstep
      rename_i c' s2 hrd
      wstep
      refine Wp.isIdentchar hrd.pos ?_
      intro r2 hr2
      wstep
      · wstep; exact hq1 s1 _ _ (by loc_tac) hrd
      · rename_i hr3
        have hr3 : r2 = true := by simpa using hr3
        obtain ⟨h5, h6⟩ := hrd.ident (hr2.1 hr3)
        have hR2 := hrd.meas h6
        have := h1.1.meas
        exact ih c' s2 (hrd.mid h5) (fun _ => (hrd.some_eof h6).2.1) (by omega) ((hl.trans h1).trans hrd.loc) hq0 hq1

theorem tokaddIdent_wp {Q : Bool → Lexer → Prop} {c : MB} (hm : Mid s.buffer) (hc : c ≠ none → s.buffer.eofp = false)
    (hq : ∀ r s', (r = false → Loc s s' ∧ Mid s'.buffer) → Q r s') : Wp (tokaddIdent c) Q s := by
  unfold tokaddIdent
  wstep
  wstep
  wstep
  refine identLoop_wp (b := s) _ _ _ hm hc ?_ (.refl _) ?_ ?_
  · have := hm.toGood.R_le; omega
  · intro s'; dsimp only; wstep; exact hq _ _ (by simp)
  · intro p c' s' h1 h2
    dsimp only
    wstep
    wstep
    wstep
    exact hq _ _ fun _ => ⟨by loc_tac, by mid_tac⟩

end Verif.Lexer
