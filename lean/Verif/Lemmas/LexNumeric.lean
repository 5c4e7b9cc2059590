import Verif.Lemmas.LexTac
import Verif.Model.Lexer.Numeric
/-! `parse_numeric` stays within the line and does not panic. -/
namespace Verif.Lexer

variable {s b : Lexer}

/-- Going back to an earlier position on the line. -/
theorem Wp.rewind {Q : Unit → Lexer → Prop} {p : Nat} (hm : Mid b.buffer) (hl : Loc b s) (he : s.buffer.eofp = false)
    (hbe : b.buffer.eofp = false) (hp : p = b.buffer.pcur) (ht : b.buffer.ptok ≤ b.buffer.pcur → s.buffer.ptok ≤ b.buffer.pcur)
    (hq : ∀ s', Loc b s' → Mid s'.buffer → Q () s') :
    Wp (Lexer.modB fun b => { b with pcur := p }) Q s := by
  refine Wp.modB ?_
  have hs := hl.1.same
  have hsame : SameLine b.buffer { s.buffer with pcur := p } :=
    ⟨hs.input, hs.lineCount, hs.prevline, hs.lastline, hs.nextline, hs.pbeg, hs.pend, hs.sl⟩
  have hb : BSame b.buffer { s.buffer with pcur := p } := ⟨hsame, hp, by rw [hbe]; exact he⟩
  have hlow := hl.1.low (min b.buffer.ptok (b.buffer.pcur - 1)) (Nat.min_le_left _ _)
  exact hq _ ⟨hb.locB (by dsimp only; rw [hp]; exact ht) (by dsimp only; omega), hl.2⟩ (hb.mid hm)

/-- A result found within the line. -/
def NPost (b : Lexer) (_ : Tok) (s' : Lexer) : Prop := Loc b s' ∧ Good s'.buffer

theorem NPost.mono {a b s' : Lexer} {t : Tok} (h : Loc a b) (hp : NPost b t s') : NPost a t s' :=
  ⟨h.trans hp.1, hp.2⟩

theorem trailingUc_wp {c : UInt8} {Q : Tok → Lexer → Prop} (hm : Mid s.buffer)
    (hq : ∀ s', Loc s s' → Mid s'.buffer → Q .END_OF_INPUT s') : Wp (trailingUc c) Q s := by
  unfold trailingUc
  wstep
  refine Wp.pcurSub (by have := hm.lt; omega) ?_
  wstep
  refine Wp.setPtok (by omega) (by omega) ?_
  intro _ _ _ _
  repeat' wstep
  refine hq _ ?_ ?_
  · loc_tac
  · mid_tac

theorem setNumberLiteral_pu (v t x) : Pu (setNumberLiteral v t x) := by
  unfold setNumberLiteral
  exact Pu.ite (Pu.bind (Pu.setLval _) fun _ => Pu.bind (Pu.setState _) fun _ => Pu.pure _)
    (Pu.bind (Pu.setLval _) fun _ => Pu.bind (Pu.setState _) fun _ => Pu.pure _)

theorem setIntegerLiteral_pu (v x) : Pu (setIntegerLiteral v x) := by
  unfold setIntegerLiteral
  exact Pu.ite (setNumberLiteral_pu _ _ _) (setNumberLiteral_pu _ _ _)

macro_rules | `(tactic| wstep) => `(tactic| first
  | ((with_reducible refine Wp.pu (setNumberLiteral_pu _ _ _) ?_); intro _ _ _)
  | ((with_reducible refine Wp.pu (setIntegerLiteral_pu _ _) ?_); intro _ _ _)
  | fail "no step")

theorem noDigits_wp {Q : Tok → Lexer → Prop} (hm : Mid s.buffer) (hq : ∀ t s', Loc s s' → Mid s'.buffer → Q t s') :
    Wp noDigits Q s := by
  unfold noDigits
  wstep
  wstep
  wstep
  wstep
  wstep
  · rename_i h hp
    obtain ⟨h1, h2⟩ := h.1 hp
    wstep
    wstep
    rename_i c1 _ hr
    have hne : c1 ≠ some 10 := by
      rcases hr.of_byte h2 (by decide) (by decide) with h | h <;> rw [h] <;> decide
    wstep
    refine hq _ _ ?_ ?_
    · loc_tac
    · mid_tac
  · wstep
    refine hq _ _ ?_ ?_
    · loc_tac
    · mid_tac

theorem noDigits_good {Q : Tok → Lexer → Prop} (hg : Good s.buffer) (hm : Mid s.buffer ∨ s.buffer.pcur = s.buffer.pend)
    (hq : ∀ t s', Loc s s' → Good s'.buffer → Q t s') : Wp noDigits Q s := by
  rcases hm with hm | hm
  · exact noDigits_wp hm fun t s' h1 h2 => hq t s' h1 h2.toGood
  · unfold noDigits
    wstep
    wstep
    rename_i s1 hs
    wstep
    wstep
    wstep
    · rename_i h hp
      have := (h.1 hp).1
      rw [hs.1, hm] at this
      exact absurd this (Nat.lt_irrefl _)
    · wstep
      refine hq _ _ ?_ ?_
      · loc_tac
      · good_tac

theorem suffixLoop_wp {lastp : Nat} (hm0 : Mid b.buffer) (hlp : lastp = b.buffer.pcur) :
    ∀ n mask r s, Mid s.buffer → Loc b s → s.buffer.ptok = b.buffer.ptok → s.buffer.R + 2 ≤ n →
      Wp (suffixLoop lastp n mask r) (fun _ s' => Loc b s' ∧ Mid s'.buffer) s := by
  intro n
  induction n with
  | zero => intro _ _ s _ _ _ h; omega
  | succ n ih =>
    intro mask r s hm hl ht hR
    unfold suffixLoop
    wstep
    wstep
    rename_i c s1 hr
    have hpt : s1.buffer.ptok = b.buffer.ptok := by rw [hr.eqB]; exact ht
    wstep
    · wstep
      exact ⟨by loc_tac, by
        refine hr.mid ?_
        char_tac⟩
    · have hc : c ≠ none := by rename_i h; simpa using h
      have h2 := hr.meas hc
      wstep
      · have hcc : c ≠ some 10 := by rename_i h; simp at h; char_tac
        exact ih _ _ _ (hr.mid hcc) (by loc_tac) hpt (by omega)
      · wstep
        · have hcc : c ≠ some 10 := by rename_i h; simp at h; char_tac
          exact ih _ _ _ (hr.mid hcc) (by loc_tac) hpt (by omega)
        · wstep
          · wstep
            have h3 := hr.some_eof hc
            refine Wp.rewind hm0 (by loc_tac) h3.2.1 ?_ hlp ?_ ?_
            · have h4 := hl.1.eof
              cases hb : b.buffer.eofp with
              | false => rfl
              | true => rw [h4 hb] at h3; simp at h3
            · rw [hpt]; exact id
            · intro s' h4 h5; wstep; exact ⟨h4, h5⟩
          · repeat' wstep
            exact ⟨by loc_tac, by mid_tac⟩

theorem numberLiteralSuffix_wp {Q : NumSuffix → Lexer → Prop} {mask} (hm : Mid s.buffer)
    (hq : ∀ t s', Loc s s' → Mid s'.buffer → Q t s') : Wp (numberLiteralSuffix mask) Q s := by
  unfold numberLiteralSuffix
  repeat' wstep
  refine (suffixLoop_wp hm rfl _ _ _ _ hm (.refl _) rfl ?_).mono fun t s' h => hq t s' h.1 h.2
  have := hm.toGood.R_le
  omega

macro_rules | `(tactic| wstep) => `(tactic| first
  | ((with_reducible refine numberLiteralSuffix_wp ?_ ?_); (· mid_tac); intro _ _ _ _)
  | ((with_reducible refine trailingUc_wp ?_ ?_); (· mid_tac); intro _ _ _)
  | ((with_reducible refine noDigits_wp ?_ ?_); (· mid_tac); intro _ _ _ _)
  | fail "no step")

theorem parseNumericFooter_wp {Q : Tok → Lexer → Prop} {f e} (hm : Mid s.buffer)
    (hq : ∀ t s', Loc s s' → Mid s'.buffer → Q t s') : Wp (parseNumericFooter f e) Q s := by
  unfold parseNumericFooter
  repeat' wstep
  all_goals refine hq _ _ ?_ ?_
  any_goals loc_tac
  all_goals mid_tac

macro_rules | `(tactic| wstep) => `(tactic| first
  | ((with_reducible refine parseNumericFooter_wp ?_ ?_); (· mid_tac); intro _ _ _ _)
  | fail "no step")

theorem decodeNum_wp {c nd f e} (h : Wp (pushback c) (fun _ s' => Loc b s' ∧ Mid s'.buffer) s) :
    Wp (decodeNum c nd f e) (NPost b) s := by
  unfold decodeNum
  wstep
  refine h.mono ?_
  rintro _ s1 ⟨h1, h2⟩
  split
  · repeat' wstep
    exact ⟨by loc_tac, by good_tac⟩
  · repeat' wstep
    exact ⟨by loc_tac, by good_tac⟩

/-- What a digit test must exclude. -/
def DigitOk (isD : MB → Bool) : Prop := isD none = false ∧ isD (some 10) = false

theorem digitLoop_wp {isD : MB → Bool} (hD : DigitOk isD) :
    ∀ n c nd p s, Rd p c s → Loc b p → s.buffer.R + 2 ≤ n → c ≠ none →
      Wp (digitLoop isD n c nd) (fun r s' => ∃ p', Loc b p' ∧ Rd p' r.1 s') s := by
  intro n
  induction n with
  | zero => intro _ _ _ s _ _ h; omega
  | succ n ih =>
    intro c nd p s hr hl hR hc
    unfold digitLoop
    wstep
    · wstep
      · wstep
        exact ⟨p, hl, hr⟩
      · wstep
        wstep
        wstep
        wstep
        rename_i s1 hs c1 s2 hr2
        wstep
        · wstep
          exact ⟨_, by loc_tac, hr2⟩
        · have hc2 : c1 ≠ none := by rename_i h; simpa using h
          have h3 := hr2.meas hc2
          exact ih _ _ _ _ hr2 (by loc_tac) (by rw [hs.1] at h3; omega) hc2
    · wstep
      · wstep
        exact ⟨p, hl, hr⟩
      · have hcc : c ≠ some 10 := by rename_i h; rintro rfl; simp [hD.2] at h
        wstep
        wstep
        wstep
        wstep
        rename_i s1 hs c1 s2 hr2
        wstep
        · wstep
          exact ⟨_, by loc_tac, hr2⟩
        · have hc2 : c1 ≠ none := by rename_i h; simpa using h
          have h3 := hr2.meas hc2
          exact ih _ _ _ _ hr2 (by loc_tac) (by rw [hs.1] at h3; omega) hc2

theorem prefixed_wp {isD : MB → Bool} (hD : DigitOk isD) {start c p} (hr : Rd p c s) (hc : c ≠ none) (hcc : c ≠ some 10) :
    Wp (prefixed isD start c) (NPost p) s := by
  unfold prefixed
  wstep
  wstep
  wstep
  wstep
  rename_i s1 hs c1 s2 hr2
  have fin : ∀ (c : MB) (nd : Option MB) (p' s' : Lexer), Loc p p' → Rd p' c s' → Wp (do
      pushback c
      let __do_lift ← toklen
      if __do_lift = start + 1 then noDigits
        else
          match nd with
          | some (some byte) => trailingUc byte
          | _ => do
            let suffix ← numberLiteralSuffix NUM_SUFFIX_ALL
            let tok ← takeTok
            setIntegerLiteral (ascs "0" ++ tok) suffix) (NPost p) s' := by
    intro c nd p' s' h1 h2
    wsteps
    · exact ⟨by loc_tac, by good_tac⟩
    · split <;> wsteps
      · exact ⟨by loc_tac, by good_tac⟩
      · exact ⟨by loc_tac, by good_tac⟩
  wstep
  · rename_i hd
    have hc1 : c1 ≠ none := by rintro rfl; rw [hD.1] at hd; simp at hd
    wstep
    wstep
    wstep
    refine (digitLoop_wp hD _ _ _ _ _ hr2 (b := p) (by loc_tac) ?_ hc1).mono ?_
    · have := fuel_ok (b := s2.buffer) hr2.good rfl; omega
    · rintro ⟨c, nd⟩ s' ⟨p', h1, h2⟩
      exact fin c nd p' s' h1 h2
  · wstep
    wstep
    exact fin _ none _ _ (by loc_tac) hr2

theorem octalLoop_wp : ∀ n c nd p s, Rd p c s → Loc b p → s.buffer.R + 2 ≤ n → c ≠ none → nd ≠ some none →
      Wp (octalLoop n c nd) (fun r s' => ∃ p', Loc b p' ∧ Rd p' (match r with | .stop c _ => c | .invalid c _ => c) s' ∧
        (match r with | .stop _ nd => nd ≠ some none | .invalid c nd => MB.isDigit c = true ∧ nd ≠ some none)) s := by
  intro n
  induction n with
  | zero => intro _ _ _ s _ _ h; omega
  | succ n ih =>
    intro c nd p s hr hl hR hc hnd
    unfold octalLoop
    wstep
    · wstep
      · wstep
        exact ⟨p, hl, hr, hnd⟩
      · wstep
        wstep
        wstep
        wstep
        rename_i s1 hs c1 s2 hr2
        wstep
        · wstep
          exact ⟨_, by loc_tac, hr2, by simpa using hc⟩
        · have hc2 : c1 ≠ none := by rename_i h; simpa using h
          have h3 := hr2.meas hc2
          exact ih _ _ _ _ hr2 (by loc_tac) (by rw [hs.1] at h3; omega) hc2 (by simpa using hc)
    · wstep
      · wstep
        exact ⟨p, hl, hr, hnd⟩
      · have hcc : c ≠ some 10 := by char_tac
        have hcd : MB.isDigit c = true := by
          rename_i h
          cases c with
          | none => exact absurd rfl hc
          | some ch =>
            simp only [MB.lt, MB.gt, Bool.or_eq_true, decide_eq_true_eq, not_or, UInt8.not_lt] at h
            simp only [MB.isDigit, MB.u8Digit, Bool.and_eq_true, decide_eq_true_eq]
            exact h
        wstep
        · unfold invalidOctal
          wsteps
          exact ⟨p, hl, hr.same (by same_tac), hcd, hnd⟩
        · wstep
          wstep
          wstep
          wstep
          rename_i s1 hs c1 s2 hr2
          wstep
          · wstep
            exact ⟨_, by loc_tac, hr2, by simp⟩
          · have hc2 : c1 ≠ none := by rename_i h; simpa using h
            have h3 := hr2.meas hc2
            exact ih _ _ _ _ hr2 (by loc_tac) (by rw [hs.1] at h3; omega) hc2 (by simp)

theorem parseOctal_wp {c nd start p} (hr : Rd p c s) (hl : Loc b p) (hc : c ≠ none) (hnd : nd ≠ some none) :
    Wp (parseOctal c nd start) (fun r s' => match r with
      | .tok t => NPost b t s'
      | .cont c nd => ∃ p', Loc b p' ∧ Rd p' c s' ∧ (MB.isDigit c = true ∨ nd = none) ∧ nd ≠ some none) s := by
  unfold parseOctal
  wstep
  wstep
  wstep
  refine (octalLoop_wp _ _ _ _ _ hr hl (by have := fuel_ok (b := s.buffer) hr.good rfl; omega) hc hnd).mono ?_
  rintro r s' ⟨p', h1, h2, h3⟩
  cases r with
  | invalid c nd => wstep; exact ⟨p', h1, h2, .inl h3.1, h3.2⟩
  | stop c nd =>
    dsimp only at h2 h3 ⊢
    wsteps
    · split <;> wsteps
      · exact ⟨by loc_tac, by good_tac⟩
      · exact ⟨by loc_tac, by good_tac⟩
    · split <;> wsteps
      · exact ⟨by loc_tac, by good_tac⟩
      · rename_i hno
        refine ⟨p', h1, h2.same (by same_tac), .inr ?_, h3⟩
        match nd, h3, hno with
        | none, _, _ => rfl
        | some none, h3, _ => exact absurd rfl h3
        | some (some x), _, hno => exact absurd rfl (hno x)

/-- The pending separator was read just before. -/
def NdOk (b : Lexer) (nd : Option MB) (p : Lexer) : Prop :=
  ∀ x, nd = some x → x ≠ none ∧ ∃ p0 p1, Loc b p0 ∧ Rd p0 x p1 ∧ Same p1 p

theorem numLoop_wp : ∀ n c f sp se nd p s, Rd p c s → Loc b p → (s.buffer.R + 2 ≤ n ∨ (c = none ∧ 1 ≤ n)) → (MB.isDigit c = true ∨ NdOk b nd p) →
      Wp (numLoop n c f sp se nd) (NPost b) s := by
  intro n
  induction n with
  | zero => intro _ _ _ _ _ _ s _ _ h; omega
  | succ n ih =>
    intro c f sp se nd p s hr hl hR hnd
    have simple : ∀ nd, Wp (decodeNum c nd f se) (NPost b) s := by
      intro nd
      apply decodeNum_wp
      wstep
      exact ⟨by loc_tac, by mid_tac⟩
    have next : ∀ {s1 s2 c2}, c ≠ none → Loc s s1 → Rd s1 c2 s2 → (s2.buffer.R + 2 ≤ n ∨ (c2 = none ∧ 1 ≤ n)) := by
      intro s1 s2 c2 hc h1 h2
      have hR' : s.buffer.R + 2 ≤ n + 1 := hR.elim id fun h => absurd h.1 hc
      have h4 := h1.1.meas
      by_cases e : c2 = none
      · exact .inr ⟨e, by omega⟩
      · have := h2.meas e
        exact .inl (by omega)
    unfold numLoop
    wstep
    · have hc : c ≠ none := by char_tac
      wsteps
      rename_i h1 _ _ h2
      exact ih _ _ _ _ _ _ _ h2 (by loc_tac) (next hc h1.loc h2) (.inr (by intro x hx; simp at hx))
    · wstep
      · have hc : c ≠ none := by char_tac
        split
        · wsteps; exact ⟨by loc_tac, by good_tac⟩
        · wstep
          · exact simple _
          · wstep
            wstep
            rename_i c0 s1 hr1
            wstep
            · wsteps
              apply decodeNum_wp
              refine Wp.pushback_again hr (.refl _) hr1 (by assumption) (by assumption) (by assumption) rfl ?_
              intro s4 h1 h2 _ _
              exact ⟨hl.trans h1, h2⟩
            · have hc0 : c0 ≠ none := by char_tac
              wsteps
              rename_i h1 _ h2 _ _ h3
              exact ih _ _ _ _ _ _ _ h3 (by loc_tac) (next hc (by loc_tac) h3) (.inr (by intro x hx; simp at hx))
      · wstep
        · have hc : c ≠ none := by char_tac
          split
          · rename_i nd0
            obtain ⟨h1, p0, p1, h2, h3, h4⟩ := (hnd.resolve_left (by assumption)) nd0 rfl
            wsteps
            apply decodeNum_wp
            refine Wp.pushback_again h3 h4 hr (by assumption) (by assumption) (by assumption) rfl ?_
            intro s4 h5 h6 _ _
            exact ⟨h2.trans h5, h6⟩
          · wstep
            · exact simple _
            · wstep
              wstep
              rename_i c1 s1 hr1
              wstep
              · wsteps
                apply decodeNum_wp
                by_cases hc1 : c1 = none
                · subst hc1
                  exact ⟨_, _, rfl, by loc_tac, by mid_tac⟩
                · refine Wp.pushback_again hr (.refl _) hr1 (by assumption) (by assumption) (by assumption) ?_ ?_
                  · cases c <;> cases c1 <;> simp_all
                  · intro s4 h1 h2 _ _
                    exact ⟨hl.trans h1, h2⟩
              · have hc1 : c1 ≠ none := by char_tac
                wsteps
                rename_i h1 _ h2 _ _ h3
                refine ih _ _ _ _ _ _ _ h3 (by loc_tac) (next hc (by loc_tac) h3) (.inr ?_)
                intro x hx
                split at hx
                · cases hx
                  exact ⟨hc1, s, s1, by loc_tac, hr1, by same_tac⟩
                · simp at hx
        · wstep
          · have hc : c ≠ none := by char_tac
            wstep
            wstep
            wstep
            · apply decodeNum_wp
              wsteps
              exact ⟨by loc_tac, by mid_tac⟩
            · wsteps
              rename_i h1 _ _ _ h3
              refine ih _ _ _ _ _ _ _ h3 (by loc_tac) (next hc (by loc_tac) h3) (.inr ?_)
              intro x hx
              cases hx
              exact ⟨hc, p, s, hl, hr, h1⟩
          · exact simple _

theorem numLoop_start {c f sp se nd p} {b s : Lexer} (hr : Rd p c s) (hl : Loc b p) (hnd : MB.isDigit c = true ∨ nd = none) :
    Wp (numLoop (64 * (s.buffer.d.bytes.length + 1)) c f sp se nd) (NPost b) s := by
  refine numLoop_wp _ _ _ _ _ _ _ _ hr hl (.inl ?_) (hnd.imp id ?_)
  · have := fuel_ok (b := s.buffer) hr.good rfl; omega
  · rintro rfl x hx; simp at hx

theorem afterZero_wp {c nd p} (hr : Rd p c s) (hl : Loc b p) (hnd : MB.isDigit c = true ∨ nd = none) :
    Wp (afterZero c nd) (NPost b) s := by
  unfold afterZero invalidOctal
  wsteps
  · exact numLoop_start (hr.same (by same_tac)) hl hnd
  · exact numLoop_start (hr.same (by same_tac)) hl hnd
  · exact ⟨by loc_tac, by good_tac⟩

theorem Rd.mid_or {p : Lexer} {c} (h : Rd p c s) : Mid s.buffer ∨ s.buffer.pcur = s.buffer.pend := by
  by_cases e : c = some 10
  · exact .inr ((h.isSome 10 e).lf rfl).1
  · exact .inl (h.mid e)

theorem zeroOctal_wp {c nd start p} (hr : Rd p c s) (hl : Loc b p) (hnd : MB.isDigit c = true ∨ nd = none)
    (hnn : nd ≠ some none) :
    Wp (zeroOctal c nd start) (NPost b) s := by
  unfold zeroOctal
  wstep
  · have h0 : nd = none := hnd.resolve_left (by
      rename_i h
      have : c = some (asc 'o') ∨ c = some (asc 'O') := by simpa [isC] using h
      rcases this with rfl | rfl <;> decide)
    subst h0
    wstep
    wstep
    wstep
    wstep
    rename_i c1 s2 hr2
    wstep
    · refine noDigits_good hr2.good hr2.mid_or ?_
      intro t s' h1 h2
      exact ⟨by loc_tac, h2⟩
    · have hc1 : c1 ≠ none := by char_tac
      wstep
      · wstep
        refine (parseOctal_wp (b := b) hr2 (by loc_tac) hc1 (by simp)).mono ?_
        intro r s' h
        cases r with
        | tok t => wstep; exact h
        | cont c nd =>
          obtain ⟨p', h1, h2, h3, _⟩ := h
          exact afterZero_wp h2 h1 h3
      · exact afterZero_wp hr2 (by loc_tac) (.inr rfl)
  · wstep
    · have hc : c ≠ none := by char_tac
      wstep
      refine (parseOctal_wp (b := b) hr hl hc hnn).mono ?_
      intro r s' h
      cases r with
      | tok t => wstep; exact h
      | cont c nd =>
        obtain ⟨p', h1, h2, h3, _⟩ := h
        exact afterZero_wp h2 h1 h3
    · exact afterZero_wp hr hl hnd

theorem NPost.same {a b s' : Lexer} {t : Tok} (h : Same a b) (hp : NPost b t s') : NPost a t s' := hp.mono h.loc

theorem zeroLiteral_wp (hm : Mid s.buffer) : Wp zeroLiteral (NPost s) s := by
  unfold zeroLiteral
  wstep
  wstep
  rename_i start s1 hs
  wstep
  wstep
  rename_i c s2 hr
  wstep
  · exact (prefixed_wp ⟨rfl, rfl⟩ hr (by char_tac) (by char_tac)).mono fun _ _ h => h.same hs
  · wstep
    · exact (prefixed_wp ⟨rfl, rfl⟩ hr (by char_tac) (by char_tac)).mono fun _ _ h => h.same hs
    · wstep
      · exact (prefixed_wp ⟨rfl, rfl⟩ hr (by char_tac) (by char_tac)).mono fun _ _ h => h.same hs
      · wstep
        · wstep
          refine (parseOctal_wp (b := s) hr hs.loc (by char_tac) (by simp)).mono ?_
          intro r s' h
          cases r with
          | tok t => wstep; exact h
          | cont c nd =>
            obtain ⟨p', h1, h2, h3, h4⟩ := h
            exact zeroOctal_wp h2 h1 h3 h4
        · exact zeroOctal_wp hr hs.loc (.inr rfl) (by simp)

/-- `parse_numeric`: `pre` has been read; it is a digit, or a sign with a digit next. -/
theorem parseNumeric_wp {pre : UInt8} (hm : Mid s.buffer)
    (hpre : MB.u8Digit pre = true ∨ pre = asc '-' ∨ pre = asc '+') : Wp (parseNumeric pre) (NPost s) s := by
  unfold parseNumeric
  wstep
  wstep
  wstep
  wstep
  rename_i s1 hs s2 h1 h2 h3 h4
  have hm2 : Mid s2.buffer := by mid_tac
  have hl2 : Loc s s2 := by loc_tac
  wstep
  · wstep
    wstep
    wstep
    wstep
    rename_i s3 h5 c s4 hr
    wstep
    · have hm4 : Mid s4.buffer := by mid_tac
      exact (zeroLiteral_wp hm4).mono fun _ _ h => h.mono (by loc_tac)
    · wsteps
      exact numLoop_start hr (by loc_tac) (.inr rfl)
  · have hd : MB.u8Digit pre = true := by
      rename_i h; rcases hpre with h1 | h1
      · exact h1
      · exact absurd h1 h
    wstep
    wstep
    wstep
    · exact (zeroLiteral_wp hm2).mono fun _ _ h => h.mono hl2
    · wsteps
      rw [show 64 * (s2.buffer.d.bytes.length + 1) = 64 * (s2.buffer.d.bytes.length + 1) - 1 + 1 by omega]
      unfold numLoop
      wstep
      · wsteps
        rename_i s5 h5 c s6 h6
        refine numLoop_wp (b := s) _ _ _ _ _ _ _ _ h6 (by loc_tac) (.inl ?_) (.inr (by intro x hx; simp at hx))
        have := fuel_ok (b := s2.buffer) h6.good (by rw [h6.loc.1.same.input, h5.1])
        omega
      · rename_i h; exact absurd hd h

/-- `parse_numeric` on a `.` that is followed by a digit. -/
theorem parseNumeric_dot (hm : Mid s.buffer)
    (hd : ∀ s1 c s2, BSame s.buffer s1.buffer → Rd s1 c s2 → MB.isDigit c = true) : Wp (parseNumeric (asc '.')) (NPost s) s := by
  unfold parseNumeric
  wstep
  wstep
  wstep
  wstep
  rename_i s1 hs s2 h1 h2 h3 h4
  have hm2 : Mid s2.buffer := by mid_tac
  wstep
  · rename_i h; exact absurd h (by decide)
  · wstep
    wstep
    wstep
    · rename_i h; exact absurd h (by decide)
    · wstep
      wstep
      rw [show 64 * (s2.buffer.d.bytes.length + 1) = 64 * (s2.buffer.d.bytes.length + 1) - 1 + 1 by omega]
      unfold numLoop
      wstep
      · rename_i h; exact absurd h (by decide)
      · wstep
        · dsimp only
          wstep
          · rename_i h; exact absurd h (by decide)
          · wstep
            wstep
            rename_i c s3 hr
            have hdig := hd s2 c s3 (by rw [hs.1] at h2; exact h2) hr
            wstep
            · rename_i h; rw [hdig] at h; simp at h
            · wsteps
              rename_i s4 h5 s5 h6 c' s6 h7
              refine numLoop_wp (b := s) _ _ _ _ _ _ _ _ h7 (by loc_tac) (.inl ?_) (.inr (by intro x hx; simp at hx))
              have := fuel_ok (b := s2.buffer) h7.good (by rw [h7.loc.1.same.input, h6.1, h5.1, hr.loc.1.same.input])
              omega
        · rename_i h; exact absurd (show isC (some (asc '.')) '.' = true by decide) h

end Verif.Lexer
