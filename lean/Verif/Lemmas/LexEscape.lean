import Verif.Lemmas.LexCore
/-! Escapes inside literals: `tokadd_utf8`, `tok_hex`, `tokadd_escape`, `read_escape`. -/
namespace Verif.Lexer

variable {s b : Lexer}

/-- Any position up to the end of the line, reached from inside the line. -/
theorem raw_pos {b : Buffer} (hm : Mid b) (he : b.eofp = false) {p : Nat} (h1 : b.pcur ≤ p) (h2 : p ≤ b.pend) :
    LocB b { b with pcur := p } ∧ (p = b.pend → Good { b with pcur := p }) ∧
    (p < b.pend → b.d.bytes[p]? ≠ some 10 → Mid { b with pcur := p }) := by
  have hs : SameLine b { b with pcur := p } := ⟨rfl, rfl, rfl, rfl, rfl, rfl, rfl, rfl⟩
  refine ⟨⟨hs, h1, R_sameLine hs hm.nonl he h1 h2, by intro h; dsimp only; omega, id, fun _ h _ => h⟩, ?_, ?_⟩
  · intro h3
    exact { hm.toGood with
      lo := by have := hm.lo; dsimp only; omega
      hi := h2
      ns := by intro _ h; dsimp only at h; omega }
  · intro h3 h4
    exact { hm.toGood with
      lo := by have := hm.lo; dsimp only; omega
      hi := h2
      ns := by intro _ _ h; exact absurd h h4
      lt := by have := hm.lt; dsimp only; omega
      nolf := by
        by_cases e : p = b.pcur
        · subst e; exact hm.nolf
        · exact hm.toGood.inner (by have := hm.lo; dsimp only; omega) (by dsimp only; omega)
      nonl := hm.nonl }

theorem digits_plain {b : Buffer} (hm : Mid b) {dig : UInt8 → Option Nat} (h10 : dig 10 = none) (h13 : dig 13 = none) (len : Nat) :
    b.pcur + (Digits.run dig ((b.d.bytes.drop b.pcur).take len)).length ≤ b.pend ∧
    ∀ j, b.pcur ≤ j → j < b.pcur + (Digits.run dig ((b.d.bytes.drop b.pcur).take len)).length → PlainAt b j := by
  refine ⟨run_on_line_mid hm h10 len, ?_⟩
  intro j h1 h2
  obtain ⟨c, hc, hd⟩ := run_get (dig := dig) (bs := b.d.bytes) (start := b.pcur) (len := len) (j := j - b.pcur) (by omega)
  rw [show b.pcur + (j - b.pcur) = j by omega] at hc
  unfold PlainAt
  rw [hc]
  constructor <;> (intro h; simp at h; subst h; simp_all)

theorem hex_cr : Digits.hex 13 = none := by decide
theorem oct_cr : Digits.oct 13 = none := by decide

theorem scanHex_len (b : Buffer) (len start : Nat) :
    (scanHex b len start 0).2 = (Digits.run Digits.hex ((b.d.bytes.drop start).take len)).length := by rw [C27_scan_hex]
theorem scanOct_len (b : Buffer) (len start : Nat) :
    (scanOct b len start 0).2 = (Digits.run Digits.oct ((b.d.bytes.drop start).take len)).length := by rw [C27_scan_oct]

theorem afterDigits_mid {wide : Bool} (hm : Mid s.buffer) (he : s.buffer.eofp = false) (text : Bytes) :
    Loc s (afterDigits s (uDigits s.buffer wide) text) ∧ Mid (afterDigits s (uDigits s.buffer wide) text).buffer := by
  obtain ⟨h1, h2⟩ := digits_plain hm hex_lf hex_cr (if wide then s.buffer.pend - s.buffer.pcur else 4)
  obtain ⟨h3, h4⟩ := advance_mid hm (fun _ => he) h1 h2
  have hb : BSame { s.buffer with pcur := s.buffer.pcur + (uDigits s.buffer wide).length }
      (afterDigits s (uDigits s.buffer wide) text).buffer := ⟨⟨rfl, rfl, rfl, rfl, rfl, rfl, rfl, rfl⟩, rfl, rfl⟩
  refine ⟨⟨⟨h4.same.trans hb.same, by rw [hb.pcur]; exact h4.pcur, ?_, ?_, fun e => by rw [hb.eofp]; exact h4.eof e, ?_⟩,
    rfl, rfl, rfl, rfl, rfl⟩, hb.mid h3⟩
  · rw [hb.R, hb.pcur]; exact h4.meas
  · intro _
    unfold afterDigits
    dsimp only
    omega
  · intro p _ _
    unfold afterDigits
    dsimp only
    omega

theorem tokaddCodepoint_mid {regexp wide : Bool} {Q : Bool → Lexer → Prop} (hm : Mid s.buffer) (he : s.buffer.eofp = false)
    (hq : ∀ r s', Loc s s' → Mid s'.buffer → s'.buffer.eofp = false → (wide = true → r = true → s.buffer.pcur < s'.buffer.pcur) →
      Q r s') : Wp (tokaddCodepoint regexp wide) Q s := by
  have ha := fun text => afterDigits_mid (wide := wide) hm he text
  have hlen : uWellFormed wide (uDigits s.buffer wide) → wide = true → 0 < (uDigits s.buffer wide).length := by
    intro h hw; subst hw; exact h.1
  refine tokaddCodepoint_wp hm.hi ?_ ?_ ?_ ?_
  · intro _
    refine hq _ _ ⟨(ha []).1.1, rfl, rfl, rfl, rfl, rfl⟩ (ha []).2 he ?_
    intro _ h
    simp at h
    unfold afterDigits; dsimp only
    omega
  · intro hw _
    refine hq _ _ ⟨(ha []).1.1, rfl, rfl, rfl, rfl, rfl⟩ (ha []).2 he ?_
    intro h _; have := hlen hw h; unfold afterDigits; dsimp only; omega
  · intro hw _
    refine hq _ _ ⟨(ha []).1.1, rfl, rfl, rfl, rfl, rfl⟩ (ha []).2 he ?_
    intro h _; have := hlen hw h; unfold afterDigits; dsimp only; omega
  · intro hw _
    refine hq _ _ ⟨(ha _).1.1, rfl, rfl, rfl, rfl, rfl⟩ (ha _).2 he ?_
    intro h _; have := hlen hw h; unfold afterDigits; dsimp only; omega

theorem tokaddCodepoint_end {regexp : Bool} {Q : Bool → Lexer → Prop} (hg : Good s.buffer) (hp : s.buffer.pcur = s.buffer.pend)
    (hq : ∀ s', Loc s s' → Good s'.buffer → Q false s') : Wp (tokaddCodepoint regexp true) Q s := by
  have hd : uDigits s.buffer true = [] := by unfold uDigits; simp [hp, Digits.run]
  have hn : ¬ uWellFormed true (uDigits s.buffer true) := by rw [hd]; simp [uWellFormed]
  refine tokaddCodepoint_wp hg.hi ?_ (fun h => absurd h hn) (fun h => absurd h hn) (fun h => absurd h hn)
  intro _
  rw [hd]
  have hb : BSame s.buffer (afterDigits s [] []).buffer := ⟨⟨rfl, rfl, rfl, rfl, rfl, rfl, rfl, rfl⟩, rfl, rfl⟩
  exact hq _ ⟨hb.locB (fun _ => Nat.le_refl _) (.inr (Nat.le_succ _)), rfl, rfl, rfl, rfl, rfl⟩ (hb.good hg)

/-- A position on the line, as a state. -/
def atPos (s : Lexer) (p : Nat) : Lexer := { s with buffer := { s.buffer with pcur := p } }

theorem atPos_self (s : Lexer) : atPos s s.buffer.pcur = s := by cases s; rfl

theorem isSpace_none : MB.isSpace none = false := rfl

/-- Exit of the white space loops: at a character that is not white space (or at the end of input), or at the line end. -/
theorem atPos_exit {p : Nat} (hm : Mid s.buffer) (he : s.buffer.eofp = false) (h1 : s.buffer.pcur ≤ p) (h2 : p ≤ s.buffer.pend)
    (h3 : p = s.buffer.pcur ∨ p < s.buffer.pend) (h4 : MB.isSpace (s.buffer.byteAt p) = false) :
    Loc s (atPos s p) ∧ Mid (atPos s p).buffer := by
  obtain ⟨h5, _, h7⟩ := raw_pos hm he h1 h2
  refine ⟨⟨h5, Fr.refl _⟩, ?_⟩
  by_cases e : p = s.buffer.pcur
  · subst e; rw [atPos_self]; exact hm
  · refine h7 (by omega) ?_
    intro hh
    simp only [Buffer.byteAt, Input.byteAt] at h4
    simp only [Buffer.d] at hh
    rw [hh] at h4
    exact absurd h4 (by decide)

theorem utf8Skip1_wp {Q : MB → Lexer → Prop} (hm : Mid s.buffer) (he : s.buffer.eofp = false)
    (hq1 : ∀ c s', Loc s s' → Mid s'.buffer → s'.buffer.eofp = false → Q c s')
    (hq2 : ∀ c s', Loc s s' → Good s'.buffer → s'.buffer.pcur = s'.buffer.pend → s'.buffer.eofp = false → MB.isSpace c = true → Q c s') :
    ∀ n p, s.buffer.pcur ≤ p → (p = s.buffer.pcur ∨ p < s.buffer.pend) → s.buffer.pend - p < n → Wp (utf8Skip1 n) Q (atPos s p) := by
  intro n
  induction n with
  | zero => intro p _ _ h; omega
  | succ n ih =>
    intro p h1 h3 h4
    have h2 : p ≤ s.buffer.pend := by have := hm.hi; omega
    unfold utf8Skip1
    wstep
    refine Wp.getB ?_
    wstep
    · rename_i h5
      wstep
      have h5 : MB.isSpace (s.buffer.byteAt p) = false := (Bool.not_eq_true' _).mp h5
      obtain ⟨h6, h7⟩ := atPos_exit hm he h1 h2 h3 h5
      exact hq1 _ _ h6 h7 he
    · rename_i h5
      have h5 : MB.isSpace (s.buffer.byteAt p) = true := by
        have h5 := mt (Bool.not_eq_true' _).mpr h5
        exact Bool.not_eq_false _ ▸ h5
      have hplt : p < s.buffer.pend := by
        rcases h3 with h3 | h3
        · by_contra hc
          have := Mid.at_end hm (by omega)
          have hn : s.buffer.byteAt p = none := by
            simp only [Buffer.byteAt, Input.byteAt]
            simp only [Buffer.d] at this
            simp; omega
          rw [hn] at h5; simp [isSpace_none] at h5
        · exact h3
      refine Wp.bind (Wp.modB ?_)
      change Wp _ _ (atPos s (p + 1))
      refine Wp.bind (Wp.getB ?_)
      wstep
      · rename_i h6
        have h6 : s.buffer.pend ≤ p + 1 := by simpa [atPos] using h6
        obtain ⟨h7, h8, _⟩ := raw_pos hm he (p := p + 1) (by omega) (by omega)
        wstep
        exact hq2 _ _ ⟨h7, Fr.refl _⟩ (h8 (by omega)) (by show p + 1 = s.buffer.pend; omega) he h5
      · rename_i h6
        have h6 : p + 1 < s.buffer.pend := by simpa [atPos] using h6
        exact ih _ (by omega) (.inr h6) (by omega)

theorem utf8Skip2_wp {Q : Option (MB × MB) → Lexer → Prop} (hm : Mid s.buffer) (he : s.buffer.eofp = false)
    (hq1 : ∀ c l s', Loc s s' → Mid s'.buffer → s'.buffer.eofp = false → Q (some (c, l)) s')
    (hq2 : ∀ s', Loc s s' → Good s'.buffer → Q none s') :
    ∀ n p l, s.buffer.pcur ≤ p → (p = s.buffer.pcur ∨ p < s.buffer.pend) → s.buffer.pend - p < n → l ≠ none →
      Wp (utf8Skip2 n l) (fun r s' => (∀ c l', r = some (c, l') → l' ≠ none) ∧ Q r s') (atPos s p) := by
  intro n
  induction n with
  | zero => intro p _ _ _ h; omega
  | succ n ih =>
    intro p l h1 h3 h4 hl
    have h2 : p ≤ s.buffer.pend := by have := hm.hi; omega
    unfold utf8Skip2
    wstep
    refine Wp.getB ?_
    wstep
    · rename_i h5
      wstep
      have h5 : MB.isSpace (s.buffer.byteAt p) = false := (Bool.not_eq_true' _).mp h5
      obtain ⟨h6, h7⟩ := atPos_exit hm he h1 h2 h3 h5
      exact ⟨by intro c l' h; cases h; exact hl, hq1 _ _ _ h6 h7 he⟩
    · rename_i h5
      have h5 : MB.isSpace (s.buffer.byteAt p) = true := by
        have h5 := mt (Bool.not_eq_true' _).mpr h5
        exact Bool.not_eq_false _ ▸ h5
      have hplt : p < s.buffer.pend := by
        rcases h3 with h3 | h3
        · by_contra hc
          have := Mid.at_end hm (by omega)
          have hn : s.buffer.byteAt p = none := by
            simp only [Buffer.byteAt, Input.byteAt]
            simp only [Buffer.d] at this
            simp; omega
          rw [hn] at h5; simp [isSpace_none] at h5
        · exact h3
      refine Wp.bind (Wp.modB ?_)
      change Wp _ _ (atPos s (p + 1))
      refine Wp.bind (Wp.getB ?_)
      wstep
      · rename_i h6
        have h6 : s.buffer.pend ≤ p + 1 := by simpa [atPos] using h6
        obtain ⟨h7, h8, _⟩ := raw_pos hm he (p := p + 1) (by omega) (by omega)
        wstep
        exact ⟨by simp, hq2 _ ⟨h7, Fr.refl _⟩ (h8 (by omega))⟩
      · rename_i h6
        have h6 : p + 1 < s.buffer.pend := by simpa [atPos] using h6
        refine ih _ _ (by omega) (.inr h6) (by omega) ?_
        intro hn
        have hn : s.buffer.byteAt p = none := hn
        rw [hn] at h5; simp [isSpace_none] at h5

theorem fuel_line (hg : Good s.buffer) : s.buffer.pend - s.buffer.pcur < 64 * (s.buffer.d.bytes.length + 1) := by
  have := hg.pend_le; omega

/-- After the loop over the code points: inside the line if a closing brace follows. -/
theorem utf8Loop_wp {term : Option UInt8} {regexp : Bool} {Q : Option (MB × Option Nat × Bool) → Lexer → Prop}
    (hq1 : ∀ c x y s', Loc b s' → Mid s'.buffer → Q (some (c, x, y)) s')
    (hq2 : ∀ s', Loc b s' → Good s'.buffer → Q none s')
    (hq3 : ∀ c x y s', Loc b s' → Good s'.buffer → isC c '}' = false → Q (some (c, x, y)) s') :
    ∀ n c l x y s, Loc b s → s.buffer.eofp = false → l ≠ none → s.buffer.R + 1 ≤ n →
      (Mid s.buffer ∨ (Good s.buffer ∧ s.buffer.pcur = s.buffer.pend ∧ MB.isSpace c = true)) →
      Wp (utf8Loop term regexp n c l x y) Q s := by
  intro n
  induction n with
  | zero => intro c l x y s _ _ _ h; omega
  | succ n ih =>
    intro c l x y s hb he hl hR hpos
    unfold utf8Loop
    wstep
    · rename_i hc
      wstep
      rcases hpos with hm | ⟨_, _, h3⟩
      · exact hq1 _ _ _ _ hb hm
      · have : c = some (asc '}') := by simpa [isC] using hc
        rw [this] at h3; exact absurd h3 (by decide)
    · rename_i hc
      wstep
      · wstep
        refine hq2 _ hb ?_
        rcases hpos with hm | h
        · exact hm.toGood
        · exact h.1
      · -- the rest does not depend on how `second` is chosen
        have main : ∀ second s1, Same s s1 → Wp (do
            if !(← tokaddCodepoint regexp true) then return some (c, second, y)
            else
              match ← utf8Skip2 (← Lexer.fuel) l with
              | none => return none
              | some (c, last) => utf8Loop term regexp n c last second (if term.isNone && second.isNone then true else y)) Q s1 := by
          intro second s1 hs
          have hb1 := hb.trans hs.loc
          rcases hpos with hm | ⟨h1, h2, h3⟩
          · refine Wp.bind (tokaddCodepoint_mid (hs.mid hm) (by rw [hs.1]; exact he) ?_)
            intro r s2 h4 h5 h6 h7
            wstep
            · wstep; exact hq1 _ _ _ _ (hb1.trans h4) h5
            · rename_i hr
              have hr : r = true := by simpa using hr
              have h8 := h7 rfl hr
              have h9 := h4.1.meas
              refine Wp.bind (Wp.fuel (Wp.bind ?_))
              have hsk := utf8Skip2_wp (s := s2) (Q := fun r s' => (∀ c l', r = some (c, l') → l' ≠ none) →
                Wp (match r with
                  | none => pure none
                  | some (c, last) => utf8Loop term regexp n c last second (if term.isNone && second.isNone then true else y)) Q s')
                h5 h6 ?_ ?_ (64 * (s2.buffer.d.bytes.length + 1)) s2.buffer.pcur l (Nat.le_refl _) (.inl rfl) (fuel_line h5.toGood) hl
              · rw [atPos_self] at hsk
                exact hsk.mono fun a s' h => h.2 h.1
              · intro c' l' s' h10 h11 h12 h13
                dsimp only
                have h14 := h10.1.meas
                have : s1.buffer.R = s.buffer.R := by rw [hs.1]
                exact ih _ _ _ _ _ ((hb1.trans h4).trans h10) h12 (h13 _ _ rfl) (by omega) (.inl h11)
              · intro s' h10 h11 _
                dsimp only
                exact Wp.pure (hq2 _ ((hb1.trans h4).trans h10) h11)
          · refine Wp.bind (tokaddCodepoint_end (hs.good h1) (by rw [hs.1]; exact h2) ?_)
            intro s2 h4 h5
            wstep
            · wstep
              exact hq3 _ _ _ _ (hb1.trans h4) h5 (by simpa using hc)
            · rename_i h; simp at h
        have main2 : ∀ second s1, Same s s1 → Wp (do
            if regexp then tokaddMB l else pure ()
            if !(← tokaddCodepoint regexp true) then return some (c, second, y)
            else
              match ← utf8Skip2 (← Lexer.fuel) l with
              | none => return none
              | some (c, last) => utf8Loop term regexp n c last second (if term.isNone && second.isNone then true else y)) Q s1 := by
          intro second s1 hs
          cases regexp with
          | true =>
            simp only [if_true]
            refine Wp.bind (Wp.tokaddMB hl ?_)
            intro s2 hs2
            exact main _ _ (hs.trans hs2)
          | false =>
            simp only [Bool.false_eq_true, if_false]
            exact main _ _ hs
        cases y with
        | true =>
          simp only [if_true]
          refine Wp.bind (Wp.map (Wp.pcur ?_))
          exact main2 _ _ (Same.refl _)
        | false =>
          simp only [Bool.false_eq_true, if_false]
          exact Wp.bind (Wp.pure (main2 _ _ (Same.refl _)))

theorem utf8Unterminated_wp {Q : Unit → Lexer → Prop} (hg : Good s.buffer) (hq : ∀ s', Loc s s' → Good s'.buffer → Q () s') :
    Wp utf8Unterminated Q s := by
  unfold utf8Unterminated
  refine Wp.bind (Wp.tokenFlush ?_)
  intro s1 h1 h2 h3
  refine Wp.bind (Wp.getB (Wp.pu (Pu.compileError _ _) ?_))
  intro _ s2 hs
  exact hq _ (h1.trans hs.loc) (hs.good (h2.good hg))

theorem tokaddUtf8_wp {Q : Unit → Lexer → Prop} {term : Option UInt8} {regexp : Bool} (hm : Mid s.buffer) (he : s.buffer.eofp = false)
    (hq : ∀ s', Loc s s' → Good s'.buffer → Q () s') : Wp (tokaddUtf8 term regexp) Q s := by
  unfold tokaddUtf8
  have main : ∀ s1, Same s s1 → Wp (do
      if ← peek '{' then
        let last ← nextc
        if ← getB fun b => decide (b.pcur ≥ b.pend) then utf8Unterminated
        else
          let c ← utf8Skip1 (← Lexer.fuel)
          match ← utf8Loop term regexp (← Lexer.fuel) c last none false with
          | none => utf8Unterminated
          | some (c, second, err) =>
            if !isC c '}' then utf8Unterminated
            else
              match second with
              | some second =>
                if err then
                  let p ← Lexer.pcur
                  Lexer.modB fun b => { b with pcur := second }
                  Lexer.tokenFlush
                  Lexer.modB fun b => { b with pcur := p }
                  yyerror0 .MultipleCodepointAtSingleChar
                  Lexer.tokenFlush
                else pure ()
              | none => pure ()
              if regexp then tokadd (asc '}') else pure ()
              let _ ← nextc
              return ()
      else if !(← tokaddCodepoint regexp false) then Lexer.tokenFlush
      else pure ()) Q s1 := by
    intro s1 hs
    have hm1 := hs.mid hm
    have he1 : s1.buffer.eofp = false := by rw [hs.1]; exact he
    wstep
    wstep
    rename_i r hr
    wstep
    · rename_i hr1
      obtain ⟨h1, h2⟩ := hr.1 hr1
      wstep
      wstep
      rename_i last s2 hrd
      have hlast : last ≠ some 10 ∧ last ≠ none := by
        rcases hrd.of_byte h2 (by decide) (by decide) with h | h
        · rw [h]; decide
        · exact absurd h (hrd.not_none he1 h1)
      have hm2 := hrd.mid hlast.1
      have he2 := (hrd.some_eof hlast.2).2.1
      have hl2 : Loc s s2 := hs.loc.trans hrd.loc
      refine Wp.bind (Wp.getB ?_)
      wstep
      · exact utf8Unterminated_wp hm2.toGood fun s' h3 h4 => hq _ (hl2.trans h3) h4
      · refine Wp.bind (Wp.fuel (Wp.bind ?_))
        have loop : ∀ c s3, Loc s s3 → s3.buffer.eofp = false →
            (Mid s3.buffer ∨ (Good s3.buffer ∧ s3.buffer.pcur = s3.buffer.pend ∧ MB.isSpace c = true)) → Wp (do
          match ← utf8Loop term regexp (← Lexer.fuel) c last none false with
          | none => utf8Unterminated
          | some (c, second, err) =>
            if !isC c '}' then utf8Unterminated
            else
              match second with
              | some second =>
                if err then
                  let p ← Lexer.pcur
                  Lexer.modB fun b => { b with pcur := second }
                  Lexer.tokenFlush
                  Lexer.modB fun b => { b with pcur := p }
                  yyerror0 .MultipleCodepointAtSingleChar
                  Lexer.tokenFlush
                else pure ()
              | none => pure ()
              if regexp then tokadd (asc '}') else pure ()
              let _ ← nextc
              return ()) Q s3 := by
          intro c s3 hl3 he3 hp3
          refine Wp.bind (Wp.fuel (Wp.bind ?_))
          have fin : ∀ s4, Loc s s4 → Mid s4.buffer → Wp (do
              if regexp then tokadd (asc '}') else pure ()
              let _ ← nextc
              return ()) Q s4 := by
            intro s4 hl4 hm4
            have fin2 : ∀ s5, Same s4 s5 → Wp (do
              let _ ← nextc
              return ()) Q s5 := by
              intro s5 hs5
              wstep
              wstep
              wstep
              refine hq _ ?_ ?_
              · loc_tac
              · good_tac
            cases regexp with
            | true =>
              simp only [if_true]
              refine Wp.bind (Wp.pu (Pu.tokadd _) ?_)
              intro _ s5 hs5
              exact fin2 _ hs5
            | false => exact fin2 _ (Same.refl _)
          refine utf8Loop_wp (b := s) ?_ ?_ ?_ _ _ _ _ _ _ hl3 he3 hlast.2 ?_ hp3
          · intro c' x y s4 h3 h4
            dsimp only
            wstep
            · exact utf8Unterminated_wp h4.toGood fun s' h5 h6 => hq _ (h3.trans h5) h6
            · cases x with
              | none => exact fin _ h3 h4
              | some second =>
                dsimp only
                cases y with
                | false => exact fin _ h3 h4
                | true =>
                  simp only [if_true]
                  refine Wp.bind (Wp.pcur (Wp.bind (Wp.modB (Wp.bind (Wp.modB (Wp.bind (Wp.modB ?_)))))))
                  dsimp only [Buffer.tokenFlush, Buffer.setPtok]
                  refine Wp.bind (Wp.pu (Pu.yyerror0 _) ?_)
                  intro _ s5 hs5
                  refine Wp.bind (Wp.tokenFlush ?_)
                  intro s6 h6 h7 h8
                  have hb5 : BSame s4.buffer s5.buffer := by
                    rw [hs5.1]; exact ⟨⟨rfl, rfl, rfl, rfl, rfl, rfl, rfl, rfl⟩, rfl, rfl⟩
                  have hb6 : BSame s4.buffer s6.buffer := ⟨hb5.same.trans h7.same, h7.pcur.trans hb5.pcur, h7.eofp.trans hb5.eofp⟩
                  refine fin _ (h3.trans ⟨hb6.locB ?_ ?_, ?_⟩) (hb6.mid h4)
                  · intro _; rw [h8, hb6.pcur, hb5.pcur]; exact Nat.le_refl _
                  · exact .inr (by rw [h8, hb5.pcur]; exact Nat.le_succ _)
                  · have h9 : Fr s4 s5 := hs5.2
                    exact h9.trans h6.2
          · intro s4 h3 h4
            exact utf8Unterminated_wp h4 fun s' h5 h6 => hq _ (h3.trans h5) h6
          · intro c' x y s4 h3 h4 h5
            dsimp only
            rw [h5]
            exact utf8Unterminated_wp h4 fun s' h5 h6 => hq _ (h3.trans h5) h6
          · have hg3 : Good s3.buffer := by rcases hp3 with h | h; exacts [h.toGood, h.1]
            have := hg3.R_le
            omega
        refine Eq.mp (congrArg (Wp _ _) (atPos_self s2)) (utf8Skip1_wp hm2 he2 ?_ ?_ _ _ (Nat.le_refl _) (.inl rfl)
          (fuel_line hm2.toGood))
        · intro c s3 h3 h4 h5
          exact loop c s3 (hl2.trans h3) h5 (.inl h4)
        · intro c s3 h3 h4 h5 h6 h7
          exact loop c s3 (hl2.trans h3) h6 (.inr ⟨h4, h5, h7⟩)
    · refine Wp.bind (tokaddCodepoint_mid hm1 he1 ?_)
      intro r s2 h1 h2 h3 _
      wstep
      · refine Wp.tokenFlush ?_
        intro s3 h4 h5 h6
        exact hq _ ((hs.loc.trans h1).trans h4) (h5.good h2.toGood)
      · wstep
        exact hq _ (hs.loc.trans h1) h2.toGood
  cases regexp with
  | true =>
    simp only [if_true]
    wstep; wstep; wstep; wstep
    exact main _ (by same_tac)
  | false => exact main _ (Same.refl _)

theorem tokHex_wp {Q : MB × Nat → Lexer → Prop} (hm : Mid s.buffer) (he : s.buffer.eofp = false)
    (hq : ∀ c n s', Loc s s' → Mid s'.buffer → s'.buffer.pcur = s.buffer.pcur + n → s'.buffer.eofp = false → c ≠ none → Q (c, n) s') :
    Wp tokHex Q s := by
  unfold tokHex
  refine Wp.bind (Wp.getB ?_)
  have hlen := scanHex_len s.buffer 2 s.buffer.pcur
  rcases hsc : scanHex s.buffer 2 s.buffer.pcur 0 with ⟨v, k⟩
  rw [hsc] at hlen
  dsimp only at hlen ⊢
  obtain ⟨h1, h2⟩ := digits_plain hm hex_lf hex_cr 2
  rw [← hlen] at h1 h2
  wstep
  · wstep; wstep; wstep; wstep
    refine Wp.bind (Wp.tokenFlush ?_)
    intro s3 h3 h4 h5
    wstep
    rename_i s1 hs1 _ s2 hs2
    have hs := hs1.trans hs2
    exact hq _ _ _ (hs.loc.trans h3) (h4.mid (hs.mid hm)) (by rw [h4.pcur, hs.1]; omega) (by rw [h4.eofp, hs.1]; exact he) (by simp)
  · refine Wp.bind (Wp.advance hm (fun _ => he) h1 h2 ?_)
    intro s1 h3 h4 h5 h6 _
    wstep
    exact hq _ _ _ h3 h4 h5 (by rw [h6]; exact he) (by simp)

theorem readEscapeEof_wp {Q : MB → Lexer → Prop} (hg : Good s.buffer)
    (hq : ∀ s', Loc s s' → Good s'.buffer → Q (some 0) s') : Wp readEscapeEof Q s := by
  unfold readEscapeEof
  wstep; wstep; wstep
  refine Wp.tokenFlush ?_
  intro s1 h1 h2 h3
  wstep
  rename_i hs
  exact hq _ (hs.loc.trans h1) (h2.good (hs.good hg))

theorem tokaddEscape_wp {Q : Bool → Lexer → Prop} (hm : Mid s.buffer)
    (hq : ∀ r s', Loc s s' → Good s'.buffer → Q r s') : Wp tokaddEscape Q s := by
  unfold tokaddEscape
  wstep
  wstep
  rename_i c s1 hr
  cases c with
  | none =>
    dsimp only
    wstep; wstep; wstep
    refine Wp.tokenFlush ?_
    intro s2 h1 h2 h3
    wstep
    rename_i hs
    exact hq _ _ ((hr.loc.trans hs.loc).trans h1) (h2.good (hs.good hr.good))
  | some ch =>
    dsimp only
    have he := (hr.some_eof (by simp)).2.1
    have he0 := (hr.some_eof (by simp)).1
    have hlt := hm.lt
    wstep
    · wstep; exact hq _ _ hr.loc hr.good
    · rename_i h10
      have hm1 := hr.mid (by simpa using h10)
      obtain ⟨hp1, hb1⟩ := (hr.isSome ch rfl).byte h10
      wstep
      · rename_i hoct
        refine Wp.bind (Wp.pcurSub (by omega) (Wp.bind (Wp.modB (Wp.bind (Wp.getB ?_)))))
        have hsb : ({ s1.buffer with pcur := s1.buffer.pcur - 1 } : Buffer) = s.buffer := by
          rw [hr.eqB]; rw [hp1, he, ← he0]; cases s.buffer; rfl
        have hs2 : ({ s1 with buffer := { s1.buffer with pcur := s1.buffer.pcur - 1 } } : Lexer) = { s1 with buffer := s.buffer } := by
          rw [hsb]
        rw [hs2]
        generalize hs3 : ({ s1 with buffer := s.buffer } : Lexer) = s3
        have hsame : Same s s3 := by rw [← hs3]; exact ⟨rfl, hr.loc.2⟩
        have hlen := scanOct_len s3.buffer 3 s3.buffer.pcur
        rcases hsc : scanOct s3.buffer 3 s3.buffer.pcur 0 with ⟨v, k⟩
        rw [hsc] at hlen
        dsimp only at hlen ⊢
        have hm3 := hsame.mid hm
        obtain ⟨h1, h2⟩ := digits_plain hm3 oct_lf oct_cr 3
        rw [← hlen] at h1 h2
        refine Wp.bind (Wp.advance hm3 (fun _ => by rw [hsame.1]; exact he0) h1 h2 ?_)
        intro s4 h3 h4 h5 h6 _
        refine Wp.bind (Wp.tokcopy ?_ ?_ ?_)
        · rw [h5, hsame.1]; omega
        · have := h4.toGood.hi; have := h4.toGood.pend_le; omega
        · intro s5 hs5
          wstep
          exact hq _ _ ((hsame.loc.trans h3).trans hs5.loc) (hs5.good h4.toGood)
      · wstep
        · refine Wp.bind (tokHex_wp hm1 he ?_)
          intro v k s2 h1 h2 h3 h4 _
          dsimp only
          wstep
          · wstep; exact hq _ _ (hr.loc.trans h1) h2.toGood
          · refine Wp.bind (Wp.tokcopy ?_ ?_ ?_)
            · rw [h3]; omega
            · have := h2.toGood.hi; have := h2.toGood.pend_le; omega
            · intro s3 hs3
              wstep
              exact hq _ _ ((hr.loc.trans h1).trans hs3.loc) (hs3.good h2.toGood)
        · repeat' wstep
          refine hq _ _ ?_ ?_
          · loc_tac
          · good_tac

macro_rules | `(tactic| wstep) => `(tactic| first
  | ((with_reducible refine readEscapeEof_wp ?_ ?_); (· good_tac); intro _ _ _)
  | fail "no step")

theorem Pu.peekU : Pu peekU := Pu.getB _

theorem isC_eq {c : MB} {ch : Char} (h : isC c ch = true) : c = some (asc ch) := by simpa [isC] using h

theorem readEscape_wp : ∀ n m c (s : Lexer), Mid s.buffer → 1 + (!m).toNat + (!c).toNat ≤ n →
    Wp (readEscape n m c) (fun r s' => r ≠ none ∧ Loc s s' ∧ Good s'.buffer) s := by
  intro n
  induction n with
  | zero => intro m c s _ h; omega
  | succ n ih =>
    intro m ctl s hm hn
    unfold readEscape
    wstep
    wstep
    rename_i c s1 hr
    cases c with
    | none =>
      dsimp only
      wstep
      exact ⟨by simp, by loc_tac, by assumption⟩
    | some ch =>
      dsimp only
      have he := (hr.some_eof (by simp)).2.1
      have he0 := (hr.some_eof (by simp)).1
      iterate 8 (refine Wp.ite (fun _ => Wp.pure ⟨by simp, hr.loc, hr.good⟩) fun _ => ?_)
      refine Wp.ite ?_ fun _ => ?_
      · intro hd
        wstep
        wstep
        rename_i s2 h1 h2 h3 h4 h5 h6
        refine Wp.bind (Wp.getB ?_)
        have hlen := scanOct_len s2.buffer 3 s2.buffer.pcur
        rcases hsc : scanOct s2.buffer 3 s2.buffer.pcur 0 with ⟨v, k⟩
        rw [hsc] at hlen
        dsimp only at hlen ⊢
        obtain ⟨h7, h8⟩ := digits_plain h2 oct_lf oct_cr 3
        rw [← hlen] at h7 h8
        refine Wp.bind (Wp.advance h2 (fun _ => by rw [h5]; exact he) h7 h8 ?_)
        intro s4 h9 h10 _ _ _
        wstep
        exact ⟨by simp, h1.trans h9, h10.toGood⟩
      refine Wp.ite ?_ fun _ => ?_
      · rintro rfl
        have hm1 := hr.mid (by decide)
        refine Wp.bind (tokHex_wp hm1 he ?_)
        intro v k s2 h1 h2 h3 h4 h5
        dsimp only
        wstep
        · wstep; exact ⟨by simp, hr.loc.trans h1, h2.toGood⟩
        · wstep; exact ⟨h5, hr.loc.trans h1, h2.toGood⟩
      iterate 2 (refine Wp.ite (fun _ => Wp.pure ⟨by simp, hr.loc, hr.good⟩) fun _ => ?_)
      refine Wp.ite ?_ fun _ => ?_
      · rintro rfl
        have hm1 := hr.mid (by decide)
        wstep
        · wstep; exact ⟨by simp, by loc_tac, by assumption⟩
        rename_i hmeta
        wstep
        wstep
        rename_i c2 s2 hr2
        wstep
        · wstep; exact ⟨by simp, by loc_tac, by assumption⟩
        rename_i hc2
        have hc2 : c2 = some (asc '-') := isC_eq (by simpa using hc2)
        have hm2 := hr2.mid (by rw [hc2]; decide)
        wstep
        wstep
        rename_i c3 s3 hr3
        wstep
        · rename_i hc3
          have hm3 := hr3.mid (by rw [isC_eq hc3]; decide)
          refine Wp.bind (Wp.pu Pu.peekU ?_)
          intro _ s4 hs4
          wstep
          · wstep; wstep; wstep
            exact ⟨by simp, by loc_tac, by assumption⟩
          · refine Wp.bind ((ih true ctl s4 (hs4.mid hm3) (by simp at hmeta; subst hmeta; simp at hn ⊢; omega)).mono ?_)
            rintro r s5 ⟨h1, h2, h3⟩
            wstep
            exact ⟨by simpa using h1, by loc_tac, h3⟩
        · wstep
          · wstep; exact ⟨by simp, by loc_tac, by assumption⟩
          rename_i hnn
          have hc3 : c3 ≠ none := by intro h; rw [h] at hnn; simp at hnn
          split
          · split
            · wstep; wstep; wstep
              exact ⟨by simpa using hc3, by loc_tac, by good_tac⟩
            · wstep; wstep; wstep
              exact ⟨by simpa using hc3, by loc_tac, by good_tac⟩
          · wstep
            · wstep; exact ⟨by simp, by loc_tac, by assumption⟩
            · wstep; exact ⟨by simpa using hc3, by loc_tac, by good_tac⟩
      refine Wp.ite ?_ fun _ => Wp.pure ⟨by simp, hr.loc, hr.good⟩
      intro hcc
      have hm1 : Mid s1.buffer := hr.mid (by rcases hcc with rfl | rfl <;> decide)
      have main : ∀ bad s2, Loc s s2 → Good s2.buffer → (bad = false → Mid s2.buffer) → Wp (
        if bad = true then readEscapeEof
        else if ctl then readEscapeEof
        else do
          let c ← nextc
          if isC c '\\' then
            if ← peekU then
              let _ ← nextc
              readEscapeEof
            else
              let r ← readEscape n m true
              return r.map fun c => c &&& 0x9f
          else if isC c '?' then return some 0x7f
          else if c.isNone || !MB.isAscii c then readEscapeEof
          else
            match MB.escapedControlCode c with
            | some c2 =>
              if MB.isControl c then
                if m then warnSpaceChar c2 "\\M-" else warnSpaceChar c2 ""
              else if m then warnSpaceChar c2 "\\M-\\C-"
              else warnSpaceChar c2 "\\C-"
              return c.map fun c => c &&& 0x9f
            | none =>
              if MB.isControl c then readEscapeEof
              else return c.map fun c => c &&& 0x9f) (fun r s' => r ≠ none ∧ Loc s s' ∧ Good s'.buffer) s2 := by
        intro bad s2 hl2 hg2 hb2
        wstep
        · wstep; exact ⟨by simp, by loc_tac, by assumption⟩
        rename_i hbad
        have hm2 := hb2 (by simpa using hbad)
        wstep
        · wstep; exact ⟨by simp, by loc_tac, by assumption⟩
        rename_i hctl
        wstep
        wstep
        rename_i c3 s3 hr3
        wstep
        · rename_i hc3
          have hm3 := hr3.mid (by rw [isC_eq hc3]; decide)
          refine Wp.bind (Wp.pu Pu.peekU ?_)
          intro _ s4 hs4
          wstep
          · wstep; wstep; wstep
            exact ⟨by simp, by loc_tac, by assumption⟩
          · refine Wp.bind ((ih m true s4 (hs4.mid hm3) (by simp at hctl; subst hctl; simp at hn ⊢; omega)).mono ?_)
            rintro r s5 ⟨h1, h2, h3⟩
            wstep
            exact ⟨by simpa using h1, by loc_tac, h3⟩
        · wstep
          · wstep; exact ⟨by simp, by loc_tac, by good_tac⟩
          wstep
          · wstep; exact ⟨by simp, by loc_tac, by assumption⟩
          rename_i hnn
          have hc3 : c3 ≠ none := by intro h; rw [h] at hnn; simp at hnn
          split
          · split
            · split
              · wstep; wstep; wstep
                exact ⟨by simpa using hc3, by loc_tac, by good_tac⟩
              · wstep; wstep; wstep
                exact ⟨by simpa using hc3, by loc_tac, by good_tac⟩
            · split
              · wstep; wstep; wstep
                exact ⟨by simpa using hc3, by loc_tac, by good_tac⟩
              · wstep; wstep; wstep
                exact ⟨by simpa using hc3, by loc_tac, by good_tac⟩
          · wstep
            · wstep; exact ⟨by simp, by loc_tac, by assumption⟩
            · wstep; exact ⟨by simpa using hc3, by loc_tac, by good_tac⟩
      split
      · wstep
        wstep
        wstep
        rename_i c2 s2 hr2
        exact main (!isC c2 '-') s2 (by loc_tac) hr2.good (fun h => hr2.mid (by
          have h : c2 = some (asc '-') := isC_eq (by simpa using h)
          rw [h]; decide))
      · wstep
        wstep
        exact main false s1 (by loc_tac) hr.good (fun _ => hm1)

end Verif.Lexer
