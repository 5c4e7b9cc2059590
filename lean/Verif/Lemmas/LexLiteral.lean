import Verif.Lemmas.LexString
/-! String literals: interpolation, terminators, `parse_string`. -/
namespace Verif

theorem Utf8.valid_ascii : ∀ bs : Bytes, (∀ b ∈ bs, b.toNat < 128) → Utf8.valid bs = true := by
  intro bs
  induction bs with
  | nil => intro _; rfl
  | cons b bs ih =>
    intro h
    have hb := h b (by simp)
    have hs : Utf8.step b bs = (some b.toNat, 1) := by simp [Utf8.step, hb]
    have := ih fun x hx => h x (by simp [hx])
    simp only [Utf8.valid, Utf8.chunks] at this
    simp [Utf8.valid, Utf8.chunks, Utf8.chunksN, hs, this]

namespace Lexer
variable {s : Lexer}

theorem isC_some {c : MB} {ch : Char} (h : isC c ch = true) : c = some (asc ch) := by
  unfold isC at h; simpa using h

/-- Whether an interpolation starts here; the opening brace is consumed. -/
def PeekVar (s : Lexer) (r : Option Tok) (s' : Lexer) : Prop :=
  (r = none ∧ Same s s') ∨ (Loc s s' ∧ Mid s'.buffer ∧ (r = some .tSTRING_DVAR ∨ r = some .tSTRING_DBEG))

theorem peekVariableName_wp (hm : Mid s.buffer) (he : s.buffer.eofp = false) : Wp peekVariableName (PeekVar s) s := by
  unfold peekVariableName
  have no : PeekVar s none s := .inl ⟨rfl, .refl s⟩
  have yes : PeekVar s (some .tSTRING_DVAR) s := .inr ⟨.refl _, hm, .inl rfl⟩
  have fin : ∀ c : MB, PeekVar s (if !MB.isAscii c || isC c '_' || MB.isAlpha c then some .tSTRING_DVAR else none) s := by
    intro c; split
    · exact yes
    · exact no
  refine Wp.bind (Wp.pcur ?_)
  refine Wp.bind (Wp.getB ?_)
  refine Wp.ite (fun h => Wp.pure no) (fun h1 => ?_)
  refine Wp.bind (Wp.getB ?_)
  refine Wp.ite (fun h => ?_) (fun _ => ?_)
  · refine Wp.bind (Wp.getB ?_)
    refine Wp.ite (fun h => ?_) (fun _ => ?_)
    · refine Wp.ite (fun h => Wp.pure no) (fun h1 => ?_)
      refine Wp.bind (Wp.getB ?_)
      exact Wp.pure (fin _)
    · refine Wp.ite (fun h => Wp.pure yes) (fun h1 => Wp.pure (fin _))
  · refine Wp.ite (fun h => ?_) (fun _ => ?_)
    · refine Wp.bind (Wp.getB ?_)
      refine Wp.ite (fun h => ?_) (fun _ => ?_)
      · refine Wp.ite (fun h => Wp.pure no) (fun h1 => ?_)
        refine Wp.bind (Wp.getB ?_)
        exact Wp.pure (fin _)
      · exact Wp.pure (fin _)
    · refine Wp.ite (fun h => ?_) (fun _ => Wp.pure no)
      have hb := isC_some h
      obtain ⟨h2, h3⟩ := advance_mid hm (k := 1) (fun _ => he) (by omega) (by
        intro j hj1 hj2
        rw [show j = s.buffer.pcur by omega]
        have : s.buffer.d.bytes[s.buffer.pcur]? = some (asc '{') := hb
        unfold PlainAt
        rw [this]; decide)
      refine Wp.bind (Wp.modB ?_)
      refine Wp.bind (Wp.modS ?_)
      exact Wp.pure (.inr ⟨⟨h3, .refl _⟩, h2, .inr rfl⟩)

/-- A state reached by reading forward, then `c` read from there. -/
def ReadTo (s : Lexer) (c : MB) (s' : Lexer) : Prop := ∃ p b0, Fw s p ∧ Good p.buffer ∧ RdG p b0 c s'

theorem regxLoop_wp : ∀ n res (s : Lexer), Good s.buffer → s.buffer.R + 2 ≤ n → (∀ b ∈ s.tokenbuf, b.toNat < 128) →
    Wp (regxLoop n res) (fun r s' => ReadTo s r.1 s' ∧ ∀ b ∈ s'.tokenbuf, b.toNat < 128) s := by
  intro n
  induction n with
  | zero => intro _ _ _ h; omega
  | succ n ih =>
    intro res s hg hn ht
    unfold regxLoop
    refine Wp.bind (Wp.nextcG hg ?_)
    intro b0 c s1 hr
    have ht1 : s1.tokenbuf = s.tokenbuf := by rw [hr.eq]
    have stop : ∀ r : Bytes, ReadTo s c s1 ∧ ∀ b ∈ s1.tokenbuf, b.toNat < 128 := fun _ =>
      ⟨⟨s, b0, .refl _, hg, hr⟩, by rw [ht1]; exact ht⟩
    cases c with
    | none => exact Wp.pure (stop res)
    | some ch =>
      dsimp only
      refine Wp.ite (fun _ => Wp.pure (stop res)) (fun h1 => ?_)
      have hm := hr.meas
      have step : ∀ s2 res, Same s1 s2 → (∀ b ∈ s2.tokenbuf, b.toNat < 128) →
          Wp (regxLoop n res) (fun r s' => ReadTo s r.1 s' ∧ ∀ b ∈ s'.tokenbuf, b.toNat < 128) s2 := by
        intro s2 res hs ht2
        refine (ih res s2 (hs.good hr.good) (by rw [hs.1]; omega) ht2).mono ?_
        rintro r s3 ⟨⟨p, b1, h2, h2', h3⟩, h4⟩
        exact ⟨⟨p, b1, (hr.fw.trans hs.fw).trans h2, h2', h3⟩, h4⟩
      refine Wp.ite (fun _ => ?_) (fun _ => ?_)
      · exact step s1 _ (.refl _) (by rw [ht1]; exact ht)
      · refine Wp.bind ⟨(), _, rfl, ?_⟩
        refine step _ _ ⟨rfl, rfl, rfl, rfl, rfl, rfl⟩ ?_
        have hch : ∀ ch : UInt8, ¬ ((!MB.u8Alpha ch) = true) → ch.toNat < 128 := u8_forall (by decide +kernel)
        intro b hb
        simp only [List.mem_append, List.mem_singleton] at hb
        rcases hb with hb | rfl
        · rw [ht1] at hb; exact ht b hb
        · exact hch b h1

theorem regxOptions_wp (hg : Good s.buffer) : Wp regxOptions (fun _ s' => Fw s s' ∧ Good s'.buffer) s := by
  unfold regxOptions
  refine Wp.bind (Wp.newtok ?_)
  intro s1 h1 h2 h3 h4
  refine Wp.bind (Wp.fuel ?_)
  have hg1 := h2.good hg
  refine Wp.bind ((regxLoop_wp _ _ _ hg1 (by have := fuel_ok hg1 rfl; omega) (by rw [h4]; simp)).mono ?_)
  rintro ⟨c, res⟩ s2 ⟨⟨p, b0, h5, h5', h6⟩, h7⟩
  dsimp only at h6 ⊢
  refine Wp.bind (Wp.pushbackG h6 (.refl _) rfl (.refl _) ?_)
  intro s3 h8 h9 h10 h11 h12
  have hf := h1.fw.trans (h5.trans h8)
  refine Wp.bind (Wp.getS ?_)
  refine Wp.ite (fun _ => ?_) (fun _ => Wp.pure ⟨hf, h9⟩)
  refine Wp.bind (Wp.getS ?_)
  have hv : Utf8.valid s3.tokenbuf = true := by
    refine Utf8.valid_ascii _ ?_
    rw [h12]; exact h7
  refine Wp.ite (fun _ => ?_) (fun h => absurd hv h)
  wsteps
  exact ⟨by rename_i h _ _ h'; exact hf.trans (h.fw.trans h'.fw), by good_tac⟩

theorem skipSpaces_wp : ∀ n (s : Lexer), Good s.buffer → s.buffer.R + 2 ≤ n →
    Wp (skipSpaces n) (fun c s' => ReadTo s c s' ∧ MB.isSpace c = false) s := by
  intro n
  induction n with
  | zero => intro _ _ h; omega
  | succ n ih =>
    intro s hg hn
    unfold skipSpaces
    refine Wp.bind (Wp.nextcG hg ?_)
    intro b0 c s1 hr
    refine Wp.ite (fun h => ?_) (fun h => ?_)
    · exact Wp.pure ⟨⟨s, b0, .refl _, hg, hr⟩, by simpa using h⟩
    · have : ∃ ch, c = some ch := by
        cases c with
        | none => exact absurd (by rfl) h
        | some ch => exact ⟨ch, rfl⟩
      obtain ⟨ch, rfl⟩ := this
      have := hr.meas
      refine (ih s1 hr.good (by omega)).mono ?_
      rintro c s2 ⟨⟨p, b1, h1, h1', h2⟩, h3⟩
      exact ⟨⟨p, b1, hr.fw.trans h1, h1', h2⟩, h3⟩

/-- The part of the state that `parse_string` leaves alone besides what it reads. -/
structure FwS (s s' : Lexer) : Prop where
  fw : FwB s.buffer s'.buffer
  ls : s'.lvalStart = s.lvalStart
  le : s'.lvalEnd = s.lvalEnd
  com : s'.comments = s.comments
  mag : s'.magicComments = s.magicComments

theorem Fw.fws {s s' : Lexer} (h : Fw s s') : FwS s s' := ⟨h.1, h.2.2.1, h.2.2.2.1, h.2.2.2.2.1, h.2.2.2.2.2⟩
theorem FwS.trans {a b c : Lexer} (h : FwS a b) (h' : FwS b c) : FwS a c :=
  ⟨h.fw.trans h'.fw, h'.ls.trans h.ls, h'.le.trans h.le, h'.com.trans h.com, h'.mag.trans h.mag⟩
theorem FwS.setStrterm (s : Lexer) (t : Option StrTerm) : FwS s { s with strterm := t } := ⟨.refl _, rfl, rfl, rfl, rfl⟩

theorem stringTerm_wp {t : UInt8} {f : Nat} (hg : Good s.buffer) :
    Wp (stringTerm t f) (fun r s' => r ≠ .END_OF_INPUT ∧ FwS s s' ∧ Good s'.buffer ∧ s'.strterm = none) s := by
  unfold stringTerm
  refine Wp.bind (Wp.modS ?_)
  have fin : ∀ (r : Tok) s', r ≠ .END_OF_INPUT → Fw { s with strterm := none } s' → Good s'.buffer →
      r ≠ .END_OF_INPUT ∧ FwS s s' ∧ Good s'.buffer ∧ s'.strterm = none :=
    fun r s' h1 h2 h3 => ⟨h1, (FwS.setStrterm s none).trans h2.fws, h3, h2.2.1⟩
  generalize hs1 : ({ s with strterm := none } : Lexer) = s1 at *
  have hg1 : Good s1.buffer := by rw [← hs1]; exact hg
  refine Wp.ite (fun _ => ?_) (fun _ => ?_)
  · refine Wp.bind ((regxOptions_wp hg1).mono ?_)
    rintro fl s2 ⟨h1, h2⟩
    wstep; wstep; wstep; wstep; wstep
    rename_i h _ _ h'
    exact fin _ _ (by decide) (h1.trans (h.fw.trans h'.fw)) (by good_tac)
  · refine Wp.bind (Wp.isLabelSuffix hg1 ?_)
    intro r s2
    refine Wp.ite (fun _ => ?_) (fun _ => ?_)
    · refine Wp.bind (Wp.nextcG hg1 ?_)
      intro b0 c s3 hr
      wstep; wstep; wstep
      rename_i h
      exact fin _ _ (by decide) (hr.fw.trans h.fw) (h.good hr.good)
    · wstep; wstep; wstep
      rename_i h
      exact fin _ _ (by decide) h.fw (h.good hg1)

theorem hasF_two_pow (f k : Nat) : hasF f (2 ^ k) = f.testBit k := by
  unfold hasF
  have h : f &&& 2 ^ k = if f.testBit k then 2 ^ k else 0 := by
    refine Nat.eq_of_testBit_eq fun i => ?_
    rw [Nat.testBit_and, Nat.testBit_two_pow]
    by_cases e : k = i
    · subst e; cases h : f.testBit k <;> simp
    · cases f.testBit k <;> simp [e]
  rw [h]
  cases f.testBit k <;> simp

theorem hasF_list (f : Nat) : hasF f STR_FUNC_LIST = f.testBit 14 := hasF_two_pow f 14
theorem hasF_term (f : Nat) : hasF f STR_FUNC_TERM = f.testBit 15 := hasF_two_pow f 15

/-- How many more tokens a literal may give without reading anything. -/
def strW (l : StringLiteral) : Nat :=
  1 + (if hasF l.func STR_FUNC_LIST then 1 else 0) + (if hasF l.func STR_FUNC_TERM then 0 else 2)

theorem strW_le (l : StringLiteral) : strW l ≤ 4 ∧ 1 ≤ strW l := by
  unfold strW; split <;> split <;> omega

theorem hasF_or_term (f : Nat) : hasF (f ||| STR_FUNC_TERM) STR_FUNC_TERM = true ∧
    hasF (f ||| STR_FUNC_TERM) STR_FUNC_LIST = hasF f STR_FUNC_LIST := by
  rw [hasF_term, hasF_list, hasF_list]
  refine ⟨?_, ?_⟩
  · rw [Nat.testBit_or, show (STR_FUNC_TERM).testBit 15 = true by decide]; simp
  · rw [Nat.testBit_or, show (STR_FUNC_TERM).testBit 14 = false by decide]; simp

theorem hasF_xor_list (f : Nat) (h : hasF f STR_FUNC_LIST = true) : hasF (f ^^^ STR_FUNC_LIST) STR_FUNC_LIST = false ∧
    hasF (f ^^^ STR_FUNC_LIST) STR_FUNC_TERM = hasF f STR_FUNC_TERM := by
  rw [hasF_list] at h
  rw [hasF_term, hasF_list, hasF_term]
  refine ⟨?_, ?_⟩
  · rw [Nat.testBit_xor, h, show (STR_FUNC_LIST).testBit 14 = true by decide]; rfl
  · rw [Nat.testBit_xor, show (STR_FUNC_LIST).testBit 15 = false by decide]; simp

/-- The literal that goes on, if any, with less left than `k`. -/
def StrNext (k : Nat) (q : StringLiteral) (s' : Lexer) : Prop :=
  (s'.strterm = none ∧ s'.buffer.R < k) ∨
  ∃ l, s'.strterm = some (.string l) ∧ l.heredocEnd = q.heredocEnd ∧ s'.buffer.R + strW l < k

theorem stringContent_wp {q : StringLiteral} {f : Nat} {t : UInt8} {pa : Option UInt8} {k : Nat} (hg : Good s.buffer)
    (hl : hasF q.func STR_FUNC_LIST = false) (ht : hasF q.func STR_FUNC_TERM = false) (hk : s.buffer.R ≤ k)
    (hp : s.buffer.R + 8 ≤ k ∨ s.buffer.eofp = true ∨ ∃ ch, Ahead s.buffer ch ∧ ¬ Stop f t q.nest ch) :
    Wp (stringContent q f t pa) (fun r s' => r ≠ .END_OF_INPUT ∧ FwS s s' ∧ Good s'.buffer ∧ StrNext (k + 3) q s') s := by
  unfold stringContent
  refine Wp.bind ((tokaddString_wp hg).mono ?_)
  rintro ⟨r, nest⟩ s1 ⟨h1, h2, h3⟩
  dsimp only at h3 ⊢
  have hR := h1.1.meas
  have hw : ∀ n, strW { q with nest := n } = 3 := by intro n; simp [strW, hl, ht]
  have hw' : ∀ n, strW { q with nest := n, func := q.func ||| STR_FUNC_TERM } = 1 := by
    intro n
    obtain ⟨h4, h5⟩ := hasF_or_term q.func
    simp [strW, h4, h5, hl]
  refine Wp.bind (Wp.getB ?_)
  refine Wp.ite (fun h4 => ?_) (fun h4 => ?_)
  · refine Wp.bind (Wp.pcur ?_)
    refine Wp.bind (Wp.setPtok (Nat.le_refl _) (.inr (Nat.le_succ _)) ?_)
    intro s2 h5 h6 h7
    have hR2 := h6.R
    refine Wp.ite (fun _ => ?_) (fun _ => ?_)
    · wstep; wstep
      rename_i u s3 h8
      refine Wp.bind (Wp.modS (Wp.pure ⟨by decide, ?_, ?_, .inl ⟨rfl, ?_⟩⟩))
      · exact ((h1.trans h5.fw).trans h8.fw).fws.trans (.setStrterm _ _)
      · exact h8.good (h6.good h2)
      · show s3.buffer.R < _
        rw [h8.1]; omega
    · have fin : ∀ s3, Same s2 s3 → Wp (do
          Lexer.modS fun s => { s with lval := some s.tokenbuf }
          restoreStrterm { q with nest := nest, func := q.func ||| STR_FUNC_TERM }
          Pure.pure Tok.tSTRING_CONTENT)
          (fun r s' => r ≠ .END_OF_INPUT ∧ FwS s s' ∧ Good s'.buffer ∧ StrNext (k + 3) q s') s3 := by
        intro s3 h8
        refine Wp.bind (Wp.modS (Wp.bind (Wp.modS (Wp.pure ⟨by decide, ?_, ?_, .inr ⟨_, rfl, rfl, ?_⟩⟩))))
        · have h9 := ((h1.trans h5.fw).trans h8.fw).fws
          exact ⟨h9.1, h9.2, h9.3, h9.4, h9.5⟩
        · exact h8.good (h6.good h2)
        · rw [hw']
          show s3.buffer.R + 1 < _
          rw [h8.1]; omega
      refine Wp.ite (fun _ => ?_) (fun _ => ?_)
      · wstep; wstep
        exact fin _ (by assumption)
      · wstep; wstep
        exact fin _ (by assumption)
  · refine Wp.bind (Wp.modS (Wp.bind (Wp.modS (Wp.pure ⟨by decide, ?_, h2, .inr ⟨_, rfl, rfl, ?_⟩⟩))))
    · have h9 := h1.fws
      exact ⟨h9.1, h9.2, h9.3, h9.4, h9.5⟩
    · rw [hw]
      show s1.buffer.R + 3 < _
      suffices s1.buffer.R < k by omega
      rcases hp with hp | hp | ⟨ch, hp1, hp2⟩
      · omega
      · have he := h1.1.eof hp
        match r, h3, h4 with
        | none, h3, _ => have : s1.buffer.R + 8 ≤ s.buffer.R := h3; omega
        | some x, _, h4 => exact absurd (by simp [he]) h4
      · match r, h3, h4 with
        | none, h3, _ => have : s1.buffer.R + 8 ≤ s.buffer.R := h3; omega
        | some none, h3, h4 =>
          rcases h3 with h3 | h3
          · exact absurd (by simp [h3]) h4
          · omega
        | some (some x), h3, _ =>
          rcases h3 with ⟨_, h3⟩ | ⟨_, _, h3 | ⟨h3, b1, s2, h5⟩⟩
          · omega
          · omega
          · obtain ⟨h6, _⟩ := hp1.read h5
            cases h6
            exact absurd h3 hp2

/-- What one call of `parse_string` does. -/
structure StrPost (s : Lexer) (q : StringLiteral) (t : Tok) (s' : Lexer) : Prop where
  tok : t ≠ .END_OF_INPUT
  fw : FwB s.buffer s'.buffer
  good : Good s'.buffer
  com : s'.comments = s.comments
  mag : s'.magicComments = s.magicComments
  loc : (s'.lvalStart = some s.buffer.pcur ∧ s'.lvalEnd = s.lvalEnd) ∨
    ∃ h, q.heredocEnd = some h ∧ s'.lvalStart = some h.start ∧ s'.lvalEnd = some h.stop
  next : StrNext (s.buffer.R + strW q) q s'

theorem parseString_wp {q : StringLiteral} (hg : Good s.buffer) : Wp (parseString q) (StrPost s q) s := by
  unfold parseString
  refine Wp.bind (Wp.modS ?_)
  dsimp only
  refine Wp.bind (Wp.modS ?_)
  dsimp only
  generalize hs0 : ({ s with strterm := none, lvalStart := some s.buffer.pcur } : Lexer) = s0
  have e1 : s0.buffer = s.buffer := by rw [← hs0]
  have hg0 : Good s0.buffer := by rw [e1]; exact hg
  have hw1 := strW_le q
  have post : ∀ t s', t ≠ Tok.END_OF_INPUT → FwS s0 s' → Good s'.buffer → StrNext (s.buffer.R + strW q) q s' → StrPost s q t s' := by
    intro t s' h1 h2 h3 h4
    refine ⟨h1, e1 ▸ h2.fw, h3, ?_, ?_, .inl ⟨?_, ?_⟩, h4⟩
    · rw [h2.com, ← hs0]
    · rw [h2.mag, ← hs0]
    · rw [h2.ls, ← hs0]
    · rw [h2.le, ← hs0]
  refine Wp.ite (fun hT => ?_) (fun hT => ?_)
  · -- the literal is over
    have fin : ∀ s1, Fw s0 s1 → Good s1.buffer → Wp (do
        setState EXPR_END
        Lexer.modS fun s => { s with strterm := none }
        if hasF q.func STR_FUNC_REGEXP then Pure.pure Tok.tREGEXP_END
        else match q.heredocEnd with
          | some h =>
            Lexer.modS fun s => { s with lvalStart := some h.start, lvalEnd := some h.stop, lval := some h.value }
            Pure.pure Tok.tSTRING_END
          | none => Pure.pure Tok.tSTRING_END) (StrPost s q) s1 := by
      intro s1 h1 h2
      wstep; wstep
      rename_i u s2 h3
      have h4 := h1.trans h3.fw
      have h5 := h4.fws.trans (.setStrterm s2 none)
      have h6 : Good s2.buffer := h3.good h2
      have h7 := h4.1.meas
      have h8 : StrNext (s.buffer.R + strW q) q { s2 with strterm := none } := .inl ⟨rfl, by
        show s2.buffer.R < _
        rw [e1] at h7; omega⟩
      refine Wp.bind (Wp.modS ?_)
      refine Wp.ite (fun _ => Wp.pure (post _ _ (by decide) h5 h6 h8)) (fun _ => ?_)
      split
      · rename_i h hh
        refine Wp.bind (Wp.modS (Wp.pure ⟨by decide, e1 ▸ h5.fw, h6, ?_, ?_, .inr ⟨h, hh, rfl, rfl⟩, ?_⟩))
        · exact h5.com.trans (by rw [← hs0])
        · exact h5.mag.trans (by rw [← hs0])
        · exact .inl ⟨rfl, by show s2.buffer.R < _; rw [e1] at h7; omega⟩
      · exact Wp.pure (post _ _ (by decide) h5 h6 h8)
    refine Wp.ite (fun _ => ?_) (fun _ => ?_)
    · refine Wp.bind (Wp.nextcG hg0 ?_)
      intro b0 c s1 hr
      exact fin s1 hr.fw hr.good
    · exact fin s0 (.refl _) hg0
  · refine Wp.bind (Wp.nextcG hg0 ?_)
    intro b0 c s1 hr
    have main : ∀ (c : MB) (s2 p : Lexer) (b1 : Buffer), Fw s0 p → Good p.buffer → RdG p b1 c s2 →
        (if hasF q.func STR_FUNC_QWORDS then MB.isSpace c = false else True) →
        ∀ isSp : Bool, (isSp = true → p.buffer.R + 8 ≤ s0.buffer.R) → (isSp = false → p = s0) → Wp (do
          let space := isSp || hasF q.func STR_FUNC_LIST
          let quote := if hasF q.func STR_FUNC_LIST then { q with func := q.func ^^^ STR_FUNC_LIST } else q
          if c = some q.term ∧ quote.nest = 0 then
            if hasF q.func STR_FUNC_QWORDS then
              Lexer.pushback c
              restoreStrterm { quote with func := quote.func ||| STR_FUNC_TERM }
              Pure.pure Tok.tSPACE
            else
              restoreStrterm quote
              stringTerm q.term q.func
          else if space then
            Lexer.pushback c
            restoreStrterm quote
            Pure.pure Tok.tSPACE
          else
            newtok
            if hasF q.func STR_FUNC_EXPAND && isC c '#' then
              match ← peekVariableName with
              | some t =>
                restoreStrterm quote
                Pure.pure t
              | none =>
                tokadd (asc '#')
                Lexer.pushback (← Lexer.nextc)
                stringContent quote q.func q.term q.paren
            else
              Lexer.pushback c
              stringContent quote q.func q.term q.paren) (StrPost s q) s2 := by
      clear hr
      intro c s2 p b1 hp hgp hr hsp isSp hI1 hI2
      dsimp only
      have hT' : hasF q.func STR_FUNC_TERM = false := by simpa using hT
      have hQ : ∀ Q, Q = (if hasF q.func STR_FUNC_LIST then { q with func := q.func ^^^ STR_FUNC_LIST } else q) →
          Q.nest = q.nest ∧ Q.heredocEnd = q.heredocEnd ∧ hasF Q.func STR_FUNC_LIST = false ∧
          hasF Q.func STR_FUNC_TERM = false := by
        rintro Q rfl
        split
        · rename_i h
          obtain ⟨h1, h2⟩ := hasF_xor_list _ h
          exact ⟨rfl, rfl, h1, h2.trans hT'⟩
        · rename_i h
          exact ⟨rfl, rfl, by simpa using h, hT'⟩
      generalize (if hasF q.func STR_FUNC_LIST then { q with func := q.func ^^^ STR_FUNC_LIST } else q) = Q at hQ ⊢
      obtain ⟨q1, q2, q3, q4⟩ := hQ Q rfl
      have w0 : strW q = 3 + (if hasF q.func STR_FUNC_LIST then 1 else 0) := by
        unfold strW; rw [hT']; simp; omega
      have w1 : strW Q = 3 := by simp [strW, q3, q4]
      have w2 : strW { Q with func := Q.func ||| STR_FUNC_TERM } = 1 := by
        obtain ⟨h4, h5⟩ := hasF_or_term Q.func
        simp [strW, h4, h5, q3]
      have hR := hp.1.meas
      rw [e1] at hR
      refine Wp.ite (fun h1 => ?_) (fun h1 => ?_)
      · refine Wp.ite (fun h2 => ?_) (fun h2 => ?_)
        · refine Wp.bind (Wp.pushbackG hr (.refl _) rfl (.refl _) ?_)
          intro s3 h8 h9 h10 h11 h12
          have := h8.1.meas
          refine Wp.bind (Wp.modS (Wp.pure (post _ _ (by decide) ((hp.trans h8).fws.trans (.setStrterm _ _)) h9 (.inr ⟨_, rfl, q2, ?_⟩))))
          rw [w2]
          show s3.buffer.R + 1 < _
          omega
        · refine Wp.bind (Wp.modS ?_)
          refine (stringTerm_wp hr.good).mono ?_
          rintro t s3 ⟨h3, h4, h5, h6⟩
          have h7 := h4.fw.meas
          have h8 := hr.fw.1.meas
          refine post _ _ h3 (((hp.trans hr.fw).fws.trans (.setStrterm _ _)).trans h4) h5 (.inl ⟨h6, ?_⟩)
          have h7 : s3.buffer.R ≤ s2.buffer.R := h7
          omega
      · refine Wp.ite (fun h2 => ?_) (fun h2 => ?_)
        · refine Wp.bind (Wp.pushbackG hr (.refl _) rfl (.refl _) ?_)
          intro s3 h8 h9 h10 h11 h12
          have := h8.1.meas
          refine Wp.bind (Wp.modS (Wp.pure (post _ _ (by decide) ((hp.trans h8).fws.trans (.setStrterm _ _)) h9 (.inr ⟨_, rfl, q2, ?_⟩))))
          rw [w1]
          show s3.buffer.R + 3 < _
          cases isSp with
          | true => have := hI1 rfl; rw [e1] at this; omega
          | false =>
            have h3 : hasF q.func STR_FUNC_LIST = true := by simpa using h2
            rw [h3] at w0; simp at w0; omega
        · have h3 : isSp = false ∧ hasF q.func STR_FUNC_LIST = false := by simpa using h2
          have e0 := (hI2 h3.1).symm
          subst e0
          have w3 : strW q = 3 := by rw [w0, h3.2]; simp
          refine Wp.bind (Wp.newtok ?_)
          intro s3 h4 h5 h6 _
          have fin : ∀ p s4, Fw s0 p → FwS p s4 → Good s4.buffer → StrNext (s.buffer.R + 3) Q s4 → ∀ t ≠ Tok.END_OF_INPUT, StrPost s q t s4 := by
            intro p s4 a1 a2 a3 a4 t a5
            refine post _ _ a5 (a1.fws.trans a2) a3 ?_
            rw [w3]
            rcases a4 with a4 | ⟨l, b1, b2, b3⟩
            · exact .inl a4
            · exact .inr ⟨l, b1, b2.trans q2, b3⟩
          refine Wp.ite (fun h7 => ?_) (fun h7 => ?_)
          · simp only [Bool.and_eq_true] at h7
            obtain rfl := isC_some h7.2
            have hm := h5.mid (hr.mid (by decide))
            have hmeas := hr.meas
            have hR3 := h5.R
            refine Wp.bind ((peekVariableName_wp hm (by rw [h5.eofp]; exact hr.noeof)).mono ?_)
            intro r s4 h8
            cases r with
            | some t =>
              rcases h8 with ⟨h8, _⟩ | ⟨h8, h9, h10⟩
              · simp at h8
              · have := h8.1.meas
                refine Wp.bind (Wp.modS (Wp.pure ?_))
                refine fin s0 { s4 with strterm := some (.string Q) } (.refl _) (((hr.fw.trans h4.fw).trans h8.fw).fws.trans (.setStrterm _ _)) h9.toGood
                  (.inr ⟨_, rfl, rfl, ?_⟩) t ?_
                · rw [w1]; show s4.buffer.R + 3 < _; rw [e1] at hmeas; omega
                · rcases h10 with h10 | h10 <;> cases h10 <;> decide
            | none =>
              have h10 : Same s3 s4 := by
                rcases h8 with ⟨_, h8⟩ | ⟨_, _, h8 | h8⟩
                · exact h8
                · cases h8
                · cases h8
              wstep; wstep
              rename_i u s5 h11
              have h12 := h10.trans h11
              have h13 : Good s5.buffer := h12.good hm.toGood
              refine Wp.bind (Wp.nextcG h13 ?_)
              intro b2 c2 s6 hr6
              refine Wp.bind (Wp.pushbackG hr6 (.refl _) rfl (.refl _) ?_)
              intro s7 h14 h15 _ _ _
              have h16 := ((hr.fw.trans h4.fw).trans h12.fw).trans h14
              have := h14.1.meas
              have h17 : s5.buffer.R = s3.buffer.R := by rw [h12.1]
              refine (stringContent_wp (k := s.buffer.R) h15 q3 q4 (by rw [e1] at hmeas; omega)
                (.inl (by rw [e1] at hmeas; omega))).mono ?_
              rintro t s8 ⟨a1, a2, a3, a4⟩
              exact fin s7 _ h16 a2 a3 a4 t a1
          · refine Wp.bind (Wp.pushbackG hr h5 h6 h4.2 ?_)
            intro s4 h8 h9 h10 h11 h12
            have := h8.1.meas
            refine (stringContent_wp (k := s.buffer.R) h9 q3 q4 (by rw [e1] at this; omega) ?_).mono ?_
            · cases c with
              | none =>
                have h13 := h10.R
                rcases (hr.isNone rfl).2.1 with h14 | h14
                · exact .inr (.inl (by rw [h10.eofp]; exact h14))
                · exact .inl (by rw [e1] at h14; omega)
              | some ch =>
                refine .inr (.inr ⟨ch, hr.ahead.bsame h10, ?_⟩)
                rintro (⟨a1, a2⟩ | ⟨a1, a2⟩ | ⟨a1, a2⟩)
                · exact h1 ⟨by rw [a1], a2⟩
                · exact h7 (by simp [a1, a2, isC])
                · rw [a1] at hsp
                  simp only [if_true] at hsp
                  exact absurd (show MB.isSpace (some ch) = true from a2) (by rw [hsp]; simp)
            · rintro t s8 ⟨a1, a2, a3, a4⟩
              exact fin s4 _ h8 a2 a3 a4 t a1
    have hd : hasF q.func STR_FUNC_QWORDS = false ∨ hasF q.func STR_FUNC_QWORDS = true := by
      cases hasF q.func STR_FUNC_QWORDS <;> simp
    refine Wp.ite (fun h => ?_) (fun h => ?_)
    · refine Wp.bind (Wp.fuel ?_)
      simp only [Bool.and_eq_true] at h
      have : ∃ ch, c = some ch := by
        cases c with
        | none => exact absurd h.2 (by decide)
        | some ch => exact ⟨ch, rfl⟩
      obtain ⟨ch, rfl⟩ := this
      have hm := hr.meas
      refine Wp.bind ((skipSpaces_wp _ s1 hr.good (by have := fuel_ok hr.good rfl; omega)).mono ?_)
      rintro c s2 ⟨⟨p, b1, h1, h1', h2⟩, h3⟩
      have := h1.1.meas
      have e : (hasF q.func STR_FUNC_QWORDS && MB.isSpace (some ch)) = true := by simp [h]
      rw [e]
      exact main c s2 p b1 (hr.fw.trans h1) h1' h2 (by simp [h3]) true (fun _ => by omega) (by simp)
    · have e : (hasF q.func STR_FUNC_QWORDS && MB.isSpace c) = false := by simpa using h
      rw [e]
      refine main c s1 s0 b0 (.refl _) hg0 hr ?_ false (by simp) (fun _ => rfl)
      split
      · rename_i h1; rw [h1] at e; simpa using e
      · trivial

end Lexer
end Verif
