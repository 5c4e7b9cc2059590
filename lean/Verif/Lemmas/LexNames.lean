import Verif.Lemmas.LexEscape
import Verif.Lemmas.LexNumeric
import Verif.Model.Lexer.Names
import Verif.Props.ReservedWords
/-! Names, variables, character literals and percent literals run without panic and stay within the line. -/
namespace Verif.Lexer

variable {s b : Lexer}

/-- A token that may have started a string literal. -/
def SPost (b : Lexer) (t : Tok) (s' : Lexer) : Prop := t = .END_OF_INPUT ∨
  (LocB b.buffer s'.buffer ∧ Good s'.buffer ∧ s'.lvalStart = b.lvalStart ∧ s'.lvalEnd = b.lvalEnd ∧
    (s'.strterm = b.strterm ∨ ∃ l, s'.strterm = some (.string l) ∧ l.heredocEnd = none))

theorem SPost.mono {a b s' : Lexer} {t : Tok} (h : Loc a b) (hp : SPost b t s') : SPost a t s' := by
  refine hp.imp id ?_
  rintro ⟨h1, h2, h3, h4, h5⟩
  exact ⟨h.1.trans h1, h2, h3.trans h.2.2.1, h4.trans h.2.2.2.1, by rw [← h.2.1]; exact h5⟩

theorem SPost.of_loc {a s' : Lexer} {t : Tok} (h : Loc a s') (hg : Good s'.buffer) : SPost a t s' :=
  .inr ⟨h.1, hg, h.2.2.1, h.2.2.2.1, .inl h.2.1⟩

theorem LPost.toS {a s' : Lexer} {t : Tok} (h : LPost a t s') : SPost a t s' := by
  rcases h with h | h
  · exact .inl h
  · exact .of_loc h.1 h.2

theorem reservedWord_total (tok : Bytes) : ∃ r, reservedWord tok = .ok r := by
  obtain ⟨r, h, _⟩ := C18_lookup tok
  exact ⟨r, h⟩

/-- `pushback` after bookkeeping in the buffer. -/
theorem Wp.pushback_bsame {Q : Unit → Lexer → Prop} {s0 s1 s2 : Lexer} {c : MB} (h : Rd s0 c s1)
    (hb : BSame s1.buffer s2.buffer) (ht : s2.buffer.ptok = s1.buffer.ptok) (hf : Fr s1 s2)
    (hq : ∀ s3, Loc s0 s3 → Mid s3.buffer → s3.buffer.pcur = s0.buffer.pcur → Q () s3) : Wp (Lexer.pushback c) Q s2 := by
  refine Wp.pushback h hb.same hb.pcur ht (by rw [hb.eofp]; exact id) hf ?_
  intro s3 h1 h2 h3 _ _ _
  exact hq s3 h1 h2 h3

theorem identSuffix_wp {p : Lexer} {c : MB} {Q : Tok → Lexer → Prop} (hr : Rd p c s)
    (hq : ∀ t s', Loc p s' → Mid s'.buffer → Q t s') : Wp (identSuffix c) Q s := by
  unfold identSuffix
  have hg := hr.good
  have m2 : ∀ b s1, Same s s1 → (b = true → isC c '=' = true) → Wp (
      if b = true then do
        tokaddMB c
        pure Tok.tIDENTIFIER
      else do
        Lexer.pushback c
        Pure.pure Tok.tCONSTANT) Q s1 := by
    intro b s1 hs hb
    wstep
    · rename_i h
      have hc := isC_eq (hb h)
      wsteps
      exact hq _ _ (by loc_tac) (by have := hr.mid (by rw [hc]; decide); mid_tac)
    · wsteps
      exact hq _ _ (by loc_tac) (by mid_tac)
  have main : ∀ b s1, Same s s1 → (b = true → isC c '!' = true ∨ isC c '?' = true) → Wp (
    if b = true then do
      tokaddMB c
      Pure.pure Tok.tFID
    else do
      let st ← getState
      let setter ← if isC c '=' && st.isSome EXPR_FNAME then setterSuffix else Pure.pure false
      if setter then
        tokaddMB c
        Pure.pure .tIDENTIFIER
      else
        Lexer.pushback c
        Pure.pure .tCONSTANT) Q s1 := by
    intro b s1 hs hb
    wstep
    · rename_i h
      have hc : c ≠ none ∧ c ≠ some 10 := by
        rcases hb h with h | h <;> rw [isC_eq h] <;> decide
      have := hr.mid hc.2
      wstep
      refine Wp.tokaddMB hc.1 ?_
      intro s2 h2
      wstep
      exact hq _ _ (by loc_tac) (by mid_tac)
    · wstep
      wstep
      rename_i st s2 hs2
      split
      · rename_i hset
        unfold setterSuffix
        have hg2 : Good s2.buffer := by good_tac
        wstep
        have hok : ∃ r, (do
            if ← s2.buffer.peek (asc '~') then return false
            else if ← s2.buffer.peek (asc '>') then return false
            else if !(← s2.buffer.peek (asc '=')) then return true
            else s2.buffer.peekN (asc '>') 1 : Res Bool) = .ok r := by
          simp only [Buffer.peek, peekN_ok hg2, Bind.bind, Except.bind, Pure.pure, Except.pure]
          split
          · exact ⟨_, rfl⟩
          · split
            · exact ⟨_, rfl⟩
            · split <;> exact ⟨_, rfl⟩
        obtain ⟨r, hr⟩ := hok
        refine Wp.liftB r hr (m2 r s2 (by same_tac) ?_)
        intro _
        simp at hset; exact hset.1
      · wstep
        wstep
        exact m2 false s2 (by same_tac) (by simp)
  split
  · rename_i h
    wstep
    wstep
    wstep
    exact main _ s (.refl _) (fun _ => by simpa using h)
  · wstep
    wstep
    exact main false s (.refl _) (by simp)

theorem identKeyword_pu (kw) : Pu (identKeyword kw) := by
  unfold identKeyword
  refine Pu.bind Pu.getState fun st => Pu.ite ?_ ?_
  · exact Pu.bind (Pu.setState _) fun _ => Pu.bind Pu.setYylvalName fun _ => Pu.pure _
  · refine Pu.bind (Pu.setState _) fun _ => Pu.bind (Pu.modS fun s => ?_) fun _ => Pu.ite ?_ ?_
    · split <;> exact ⟨rfl, rfl, rfl, rfl, rfl, rfl⟩
    · refine Pu.bind Pu.isLambdaBeginning fun l => Pu.ite ?_ ?_
      · exact Pu.bind (Pu.modS fun s => ⟨rfl, rfl, rfl, rfl, rfl, rfl⟩) fun _ => Pu.pure _
      · refine Pu.bind (Pu.getS _) fun _ => Pu.ite (Pu.pure _) ?_
        exact Pu.bind (Pu.getS _) fun _ => Pu.ite (Pu.pure _) (Pu.pure _)
    · refine Pu.ite (Pu.pure _) ?_
      refine Pu.ite (Pu.bind (Pu.setState _) fun _ => Pu.pure _) (Pu.pure _)

theorem identName_pu (x l t c) : Pu (identName x l t c) := by
  unfold identName
  have fin : Pu (do
      setYylvalName
      let ident ← Lexer.getS (·.tokenbuf)
      if !Utf8.valid ident then
        yyerror0 .InvalidMultibyteChar
        Pure.pure .END_OF_INPUT
      else
        let result := if t = .tCONSTANT ∧ isVarName x ident then Tok.tIDENTIFIER else t
        if !LexState.isSome l (EXPR_DOT ||| EXPR_FNAME) && result == .tIDENTIFIER && (← isLvarDefined ident) then
          setState (EXPR_END ||| EXPR_LABEL)
          Pure.pure result
        else Pure.pure result) := by
    refine Pu.bind Pu.setYylvalName fun _ => Pu.bind (Pu.getS _) fun id => Pu.ite ?_ ?_
    · exact Pu.bind (Pu.yyerror0 _) fun _ => Pu.pure _
    · refine Pu.bind (Pu.isLvarDefined _) fun d => Pu.ite ?_ (Pu.pure _)
      exact Pu.bind (Pu.setState _) fun _ => Pu.pure _
  refine Pu.bind Pu.getState fun st => Pu.ite ?_ (Pu.ite ?_ ?_)
  all_goals exact Pu.bind (Pu.setState _) fun _ => fin

theorem parseIdent_wp {x c cmd} (hm : Mid s.buffer) (he : c ≠ none → s.buffer.eofp = false) :
    Wp (parseIdent x c cmd) (LPost s) s := by
  unfold parseIdent
  wstep
  wstep
  rename_i lst s1 hs
  wstep
  wstep
  wstep
  refine identLoop_wp (b := s1) _ _ _ (hs.mid hm) (by rw [hs.1]; exact he) ?_ (.refl _) ?_ ?_
  · have := (hs.mid hm).toGood.R_le; omega
  · intro s'; dsimp only; wstep; exact .inl rfl
  intro p c' s2 hl hr
  dsimp only
  wstep
  refine identSuffix_wp hr ?_
  intro t s3 h3 hm3
  have hl3 : Loc s s3 := (hs.loc.trans hl).trans h3
  have hname : ∀ s4, Loc s s4 → Mid s4.buffer → Wp (identName x lst t cmd) (LPost s) s4 := by
    intro s4 h4 h5
    refine Wp.pu (identName_pu _ _ _ _) ?_
    intro t s5 h6
    exact .inr ⟨by loc_tac, by good_tac⟩
  have main : ∀ b s4, Loc s s4 → Mid s4.buffer → (b = true → s4.buffer.pcur < s4.buffer.pend ∧ s4.buffer.d.bytes[s4.buffer.pcur]? = some 58) →
    Wp (if b = true then do
      setState (EXPR_ARG ||| EXPR_LABELED)
      let _ ← Lexer.nextc
      setYylvalName
      Pure.pure .tLABEL
    else do
      let st ← getState
      let kw ← if !st.isSome EXPR_DOT then do
          let tok ← Lexer.getS (·.tokenbuf)
          Lexer.liftB fun _ => reservedWord tok
        else Pure.pure none
      match kw with
      | some kw => identKeyword kw
      | none => identName x lst t cmd) (LPost s) s4 := by
    intro b s4 h4 h5 h6
    wstep
    · rename_i hb
      have hcol := (h6 hb).2
      wsteps
      rename_i s5 hs5 c6 s6 hr6 s7 hs7
      refine .inr ⟨by loc_tac, by good_tac⟩
    · wstep
      wstep
      rename_i st s5 hs5
      split
      · wstep
        wstep
        wstep
        obtain ⟨r, hr⟩ := reservedWord_total s5.tokenbuf
        refine Wp.liftB r hr ?_
        cases r with
        | none => exact hname _ (by loc_tac) (by mid_tac)
        | some kw =>
          refine Wp.pu (identKeyword_pu _) ?_
          intro t s6 h7
          exact .inr ⟨by loc_tac, by good_tac⟩
      · wstep
        wstep
        exact hname _ (by loc_tac) (by mid_tac)
  wstep
  wstep
  rename_i st s4 hs4
  split
  · wstep
    wstep
    rename_i r hlab
    exact main r s4 (by loc_tac) (by mid_tac) hlab
  · wstep
    wstep
    exact main false s4 (by loc_tac) (by mid_tac) (by simp)

theorem nthLoop_wp {Q : MB → Lexer → Prop} : ∀ n c s, Mid s.buffer → c ≠ none → s.buffer.R + 2 ≤ n → Loc b s →
    (∀ p c' s', Loc b p → Rd p c' s' → Q c' s') → Wp (nthLoop n c) Q s := by
  intro n
  induction n with
  | zero => intro _ s _ _ h; omega
  | succ n ih =>
    intro c s hm hc hR hl hq
    unfold nthLoop
    wstep
    wstep
    wstep
    wstep
    rename_i s1 hs c1 s2 hr
    wstep
    · wstep; exact hq s1 _ _ (by loc_tac) hr
    · rename_i hd
      have hc1 : c1 ≠ none ∧ c1 ≠ some 10 := by
        constructor
        · rintro rfl; simp at hd
        · rintro rfl; exact hd (by decide)
      have h2 := hr.meas hc1.1
      rw [hs.1] at h2
      exact ih _ _ (hr.mid hc1.2) hc1.1 (by omega) (by loc_tac) hq

theorem gvarName_wp {c : MB} (hm : Mid s.buffer) (hc : c ≠ none → s.buffer.eofp = false) : Wp (gvarName c) (LPost s) s := by
  unfold gvarName
  wstep
  refine tokaddIdent_wp hm hc ?_
  intro r s1 h
  wstep
  · wstep; exact .inl rfl
  · rename_i hr
    obtain ⟨h1, h2⟩ := h (by simpa using hr)
    wsteps
    exact .inr ⟨by loc_tac, by good_tac⟩

theorem parseGvar_wp {l} (hm : Mid s.buffer) : Wp (parseGvar l) (LPost s) s := by
  unfold parseGvar
  have hlt := hm.lt
  wstep
  wstep
  rename_i s0 hs0
  refine Wp.bind (Wp.pcurSub (by rw [hs0.1]; omega) (Wp.bind (Wp.setPtok (by omega) (by omega) ?_)))
  intro s1 h1 h2 h3
  wstep
  wstep
  rename_i s2 h4 h5 h6 h7
  have hm2 : Mid s2.buffer := by mid_tac
  have hl2 : Loc s s2 := by loc_tac
  wstep
  wstep
  rename_i c s3 hr
  wstep
  · rename_i hc
    have hm3 := hr.mid (by rw [isC_eq hc]; decide)
    wstep
    wstep
    rename_i c4 s4 hr4
    wstep
    refine Wp.isIdentchar hr4.pos ?_
    intro r hi
    wstep
    · rename_i hrt
      obtain ⟨h8, h9⟩ := hr4.ident (hi.1 hrt)
      wsteps
      rename_i s5 hs5 _ s6 hs6
      refine (gvarName_wp (s := s6) (by mid_tac) (fun _ => by rw [hs6.1, hs5.1]; exact (hr4.some_eof h9).2.1)).mono ?_
      intro t s' h; exact h.mono (by loc_tac)
    · wsteps
      exact .inr ⟨by loc_tac, by good_tac⟩
  wstep
  · rename_i hc
    have hcn : c ≠ none := by rintro rfl; simp at hc
    wsteps
    exact .inr ⟨by loc_tac, by good_tac⟩
  wstep
  · rename_i hc
    have hc := isC_eq hc
    have hm3 := hr.mid (by rw [hc]; decide)
    wstep
    wstep
    wstep
    refine Wp.tokaddMB (by rw [hc]; simp) ?_
    intro s5 hs5
    wstep
    wstep
    rename_i s4 hs4 c6 s6 hr6
    wstep
    refine Wp.isIdentchar hr6.pos ?_
    intro r hi
    wstep
    · rename_i hrt
      obtain ⟨h8, h9⟩ := hr6.ident (hi.1 hrt)
      wstep
      refine Wp.tokaddMbchar (hr6.mid h8) (fun _ => (hr6.some_eof h9).2.1) ?_
      intro r s7 h10
      wstep
      · wstep; exact .inl rfl
      · rename_i hrr
        obtain ⟨h11, h12, _⟩ := h10 (by simpa using hrr)
        wstep
        exact .inr ⟨by loc_tac, by good_tac⟩
    · wstep
      wstep
      rename_i s7 h11 h12 h13 h14 h15 h16
      wstep
      show Wp (Lexer.pushback (some 0)) _ _
      refine Wp.pushback_again (c := c) hr (hs4.trans hs5) hr6 h11 h13 h14 (by rw [hc]; rfl) ?_
      intro s8 h17 h18 _ _
      wstep
      exact .inr ⟨by loc_tac, by good_tac⟩
  wstep
  · rename_i hc
    wstep
    · wsteps
      exact .inr ⟨by loc_tac, by good_tac⟩
    · wsteps
      exact .inr ⟨by loc_tac, by good_tac⟩
  wstep
  · rename_i hc
    have hcn : c ≠ none ∧ c ≠ some 10 := by
      constructor
      · rintro rfl; simp [MB.ge] at hc
      · rintro rfl; exact absurd hc (by decide)
    have hm3 := hr.mid hcn.2
    wstep
    wstep
    rename_i s4 hs4
    wstep
    wstep
    wstep
    refine nthLoop_wp (b := s4) _ _ _ (by mid_tac) hcn.1 ?_ (.refl _) ?_
    · have := (hs4.mid hm3).toGood.R_le; omega
    intro p c' s5 hlp hrp
    wstep
    wstep
    wstep
    all_goals
      wstep
      exact .inr ⟨by loc_tac, by good_tac⟩
  wstep
  refine Wp.isIdentchar hr.pos ?_
  intro r hi
  wstep
  · split
    · split <;> wsteps <;> exact .inr ⟨by loc_tac, by good_tac⟩
    · wsteps
      exact .inr ⟨by loc_tac, by good_tac⟩
  · rename_i hrt
    obtain ⟨h8, h9⟩ := hr.ident (hi.1 (by simpa using hrt))
    wsteps
    rename_i s4 hs4
    refine (gvarName_wp (s := s4) (hs4.mid (hr.mid h8)) (fun _ => by rw [hs4.1]; exact (hr.some_eof h9).2.1)).mono ?_
    intro t s' h; exact h.mono (by loc_tac)

theorem parseAtmark_wp {l} (hm : Mid s.buffer) (ht : s.buffer.ptok < s.buffer.pcur) : Wp (parseAtmark l) (LPost s) s := by
  unfold parseAtmark
  have hlt := hm.lt
  wstep
  wstep
  wstep
  wstep
  rename_i c s1 hr
  have hpc := hr.loc.1.pcur
  have hpt := hr.ptokEq
  refine Wp.bind (Wp.liftB _ (csub_of_le (by omega)) (Wp.bind (Wp.setPtok (by omega) (by omega) ?_)))
  intro s2 h1 h2 h3
  wstep
  wstep
  rename_i s3 h4 h5 h6 h7
  wstep
  wstep
  rename_i s4 h8
  have hb : BSame s1.buffer s4.buffer := by rw [h8.1]; exact ⟨h2.same.trans h5.same, h5.pcur.trans h2.pcur, h5.eofp.trans h2.eofp⟩
  have hl4 : Loc s s4 := by loc_tac
  have hf : Fr s1 s4 := (h1.trans (h4.trans h8.loc)).2
  have main : ∀ (result : Tok) (c : MB) (s5 : Lexer), Loc s s5 → Good s5.buffer → 0 < s5.buffer.pcur →
      (s5.buffer.eofp = false ∧ s5.buffer.isIdentcharAt (s5.buffer.pcur - 1) = true → Mid s5.buffer ∧ s5.buffer.eofp = false) →
      (∀ s6, Same s5 s6 → Wp (pushback c) (fun _ s' => Loc s s' ∧ Good s'.buffer) s6) → Wp (do
        setState (if LexState.isSome l EXPR_FNAME then EXPR_ENDFN else EXPR_END)
        let bad ← if c.isNone then Pure.pure true else (!·) <$> isIdentchar
        if bad then
          Lexer.pushback c
          compileError (if result = .tIVAR then .IvarWithoutId else .CvarWithoutId) (← currentLoc)
          setState EXPR_END
          Pure.pure result
        else
          match c with
          | some ch =>
            if MB.u8Digit ch then
              compileError (if result = .tIVAR then .InvalidIvarName ch else .InvalidCvarName ch) (← currentLoc)
              setState EXPR_END
              Pure.pure result
            else if ← tokaddIdent c then Pure.pure .END_OF_INPUT
            else
              setYylvalName
              Pure.pure result
          | none => fail .unreachable) (LPost s) s5 := by
    intro result c s5 hl5 hg5 hp5 hmid hpb
    have bad : ∀ s6, Same s5 s6 → Wp (do
          Lexer.pushback c
          compileError (if result = .tIVAR then .IvarWithoutId else .CvarWithoutId) (← currentLoc)
          setState EXPR_END
          Pure.pure result) (LPost s) s6 := by
      intro s6 hs6
      refine Wp.bind ((hpb s6 hs6).mono ?_)
      rintro _ s7 ⟨h1, h2⟩
      wsteps
      exact .inr ⟨by loc_tac, by good_tac⟩
    wstep
    wstep
    rename_i s6 hs6
    refine Wp.ite (fun _ => ?_) (fun hcn => ?_)
    · wstep
      wstep
      exact bad s6 hs6
    · wstep
      wstep
      refine Wp.isIdentchar (by rw [hs6.1]; exact hp5) ?_
      intro r hi
      cases r with
      | false => exact bad s6 hs6
      | true =>
        have hh := hi.1 rfl
        rw [hs6.1] at hh
        obtain ⟨hm5, he5⟩ := hmid hh
        dsimp only [Bool.not_true]
        wstep
        · contradiction
        · cases c with
          | none => simp at hcn
          | some ch =>
            dsimp only
            wstep
            · wsteps
              exact .inr ⟨by loc_tac, by good_tac⟩
            · wstep
              refine tokaddIdent_wp (by mid_tac) (fun _ => by rw [hs6.1]; exact he5) ?_
              intro r s7 h9
              wstep
              · wstep; exact .inl rfl
              · rename_i hr7
                obtain ⟨h10, h11⟩ := h9 (by simpa using hr7)
                wsteps
                exact .inr ⟨by loc_tac, by good_tac⟩
  refine Wp.ite (fun hc => ?_) (fun hc => ?_)
  · have hm1 := hr.mid (by rw [isC_eq hc]; decide)
    have hm4 : Mid s4.buffer := hb.mid hm1
    wstep
    wstep
    wstep
    wstep
    wstep
    rename_i s5 hs5 c6 s6 hr6
    wstep
    refine main .tCVAR c6 s6 (by loc_tac) hr6.good hr6.pos ?_ ?_
    · intro hi
      obtain ⟨h9, h10⟩ := hr6.ident hi
      exact ⟨hr6.mid h9, hi.1⟩
    · intro s7 hs7
      wstep
      exact ⟨by loc_tac, by good_tac⟩
  · wstep
    wstep
    refine main .tIVAR c s4 hl4 (hb.good hr.good) (by rw [hb.pcur]; exact hr.pos) ?_ ?_
    · intro hi
      have hin : s1.buffer.input = s4.buffer.input := hb.same.input.symm
      obtain ⟨h9, h10⟩ := hr.ident (by
        rw [hb.eofp, hb.pcur] at hi
        unfold Buffer.isIdentcharAt at hi ⊢
        rw [hin]; exact hi)
      exact ⟨hb.mid (hr.mid h9), hi.1⟩
    · intro s7 hs7
      refine Wp.pushback_gen hr (by rw [hs7.1]; exact hb.same) (by rw [hs7.1]; exact hb.pcur) ?_ (by intro p _ hp; rw [hs7.1, h8.1, h6, h3]; omega) (by rw [hs7.1, hb.eofp]; exact id) (hf.trans hs7.2) ?_
      · intro _; rw [hs7.1, h8.1, h6, h3]; omega
      · intro s8 h9 h10 _ _ _ _
        exact ⟨h9, h10.toGood⟩

theorem qmarkTernary_wp {c : MB} {Q : Tok → Lexer → Prop} {s0 s1 : Lexer} (h : Rd s0 c s1)
    (hb : BSame s1.buffer s.buffer) (ht : s.buffer.ptok = s1.buffer.ptok) (hf : Fr s1 s)
    (hq : ∀ t s3, Loc s0 s3 → Mid s3.buffer → Q t s3) : Wp (qmarkTernary c) Q s := by
  unfold qmarkTernary
  refine Wp.bind (Wp.pushback_bsame h hb ht hf ?_)
  intro s3 h1 h2 _
  wsteps
  exact hq _ _ (by loc_tac) (by mid_tac)

theorem qmarkNameLoop_wp {Q : Option Nat → Lexer → Prop} : ∀ n ptr s, ptr ≤ s.buffer.d.bytes.length →
    s.buffer.d.bytes.length - ptr + 2 ≤ n → (∀ r s', Same s s' → (∀ q, r = some q → ptr ≤ q ∧ q ≤ s.buffer.d.bytes.length) → Q r s') →
    Wp (qmarkNameLoop n ptr) Q s := by
  intro n
  induction n with
  | zero => intro _ s _ h; omega
  | succ n ih =>
    intro ptr s hp hn hq
    unfold qmarkNameLoop
    refine Wp.bind (Wp.multibyteCharLen ?_)
    intro r s1 hs hr
    split
    · wstep; exact hq _ _ hs (by simp)
    · rename_i len
      obtain ⟨h1, h2, h3, _⟩ := hr len rfl
      wstep
      wstep
      wstep
      · refine ih _ _ (by rw [hs.1]; exact h3) (by rw [hs.1]; omega) ?_
        intro r s2 hs2 hr2
        refine hq _ _ (hs.trans hs2) ?_
        intro q hq; have := hr2 q hq; rw [hs.1] at this; exact ⟨by omega, this.2⟩
      · wstep
        refine hq _ _ hs ?_
        rintro q ⟨⟩
        exact ⟨by omega, h3⟩

theorem qmarkChar_pu : Pu qmarkChar := Pu.bind Pu.takeTok fun _ => Pu.bind (Pu.setLval _) fun _ => Pu.bind (Pu.setState _) fun _ => Pu.pure _

macro_rules | `(tactic| wstep) => `(tactic| first
  | ((with_reducible refine Wp.pu qmarkChar_pu ?_); intro _ _ _)
  | fail "no step")

theorem qmarkName_wp {c : MB} {b : Bool} {s0 s1 : Lexer} (h : Rd s0 c s1)
    (hb : BSame s1.buffer s.buffer) (ht : s.buffer.ptok = s1.buffer.ptok) (hf : Fr s1 s) (hc : c ≠ none) :
    Wp (qmarkName b c) (LPost s0) s := by
  unfold qmarkName
  have hg : Good s.buffer := hb.good h.good
  have h1 := h.mid0.lt
  have h2 := (h.some_eof hc).2.2
  have h3 := hb.pcur
  have h4 := hg.hi
  have h5 := hg.pend_le
  wstep
  · refine Wp.bind (Wp.pcurSub (by omega) ?_)
    wstep
    wstep
    wstep
    refine qmarkNameLoop_wp _ _ _ (by omega) (by omega) ?_
    intro r s2 hs2 hr
    split
    · wstep; exact .inl rfl
    · rename_i q
      obtain ⟨h6, h7⟩ := hr q rfl
      refine Wp.bind (Wp.liftB _ (substrAt_ok (b := s2.buffer) h6 (by rw [hs2.1]; exact h7)) ?_)
      dsimp only
      refine Wp.bind (Wp.liftB _ (csub_of_le (by omega)) ?_)
      wstep
      wstep
      rename_i s3 hs3
      have hbb : s3.buffer = s.buffer := by rw [hs3.1, hs2.1]
      exact qmarkTernary_wp h (by rw [hbb]; exact hb) (by rw [hbb]; exact ht) (hf.trans (hs2.trans hs3).2)
        fun t s3 h1 h2 => .inr ⟨h1, h2.toGood⟩
  · exact qmarkTernary_wp h hb ht hf fun t s3 h1 h2 => .inr ⟨h1, h2.toGood⟩

theorem qmarkEscape_wp (hm : Mid s.buffer) (he : s.buffer.eofp = false) : Wp qmarkEscape (LPost s) s := by
  unfold qmarkEscape
  wstep
  wstep
  rename_i r hr
  wstep
  · rename_i hrt
    obtain ⟨h1, h2⟩ := hr.1 hrt
    wstep
    wstep
    rename_i c s1 hrd
    have hc : c = some (asc 'u') := (hrd.of_byte h2 (by decide) (by decide)).resolve_right (hrd.not_none he h1)
    wstep
    refine tokaddUtf8_wp (hrd.mid (by rw [hc]; decide)) (hrd.some_eof (by rw [hc]; simp)).2.1 ?_
    intro s2 h3 h4
    wstep
    exact .inr ⟨by loc_tac, by good_tac⟩
  · wstep
    wstep
    wstep
    · rename_i hcond
      simp only [Buffer.isEol, Bool.and_eq_true, Bool.not_eq_true', decide_eq_false_iff_not, Nat.not_le] at hcond
      wstep
      wstep
      wstep
      wstep
      rename_i c s1 hrd
      have hne := hrd.not_none he hcond.1
      have hb : s.buffer.byteAt s.buffer.pcur = s.buffer.d.bytes[s.buffer.pcur]? := rfl
      obtain ⟨x, hx⟩ := hm.toGood.byte hcond.1
      rw [hb, hx] at hcond ⊢
      have hx10 : x ≠ 10 ∧ x ≠ 13 := by
        constructor <;> rintro rfl <;> exact absurd hcond.2 (by decide)
      have hc := (hrd.of_byte hx hx10.1 hx10.2).resolve_right hne
      wstep
      refine Wp.tokaddMbchar (hrd.mid (by rw [hc]; simpa using hx10.1)) (fun _ => (hrd.some_eof hne).2.1) ?_
      intro r s2 h3
      wstep
      · wstep; exact .inl rfl
      · rename_i hrr
        obtain ⟨h4, h5, _⟩ := h3 (by simpa using hrr)
        wstep
        exact .inr ⟨by loc_tac, by good_tac⟩
    · wstep
      refine (readEscape_wp 4 false false s hm (by decide)).mono ?_
      rintro c s1 ⟨h1, h2, h3⟩
      wsteps
      exact .inr ⟨by loc_tac, by good_tac⟩

theorem parseQmark_wp {sp} (hm : Mid s.buffer) : Wp (parseQmark sp) (LPost s) s := by
  unfold parseQmark
  wstep
  wstep
  rename_i st s0 hs0
  wstep
  · wsteps
    exact .inr ⟨by loc_tac, by good_tac⟩
  wstep
  wstep
  rename_i c s1 hr
  wstep
  · wsteps; exact .inl rfl
  rename_i hcn
  have hcn : c ≠ none := by rintro rfl; simp at hcn
  wstep
  · have fin : ∀ s2, Same s1 s2 → Wp (qmarkTernary c) (LPost s) s2 := by
      intro s2 hs2
      exact qmarkTernary_wp hr (by rw [hs2.1]; exact .refl _) (by rw [hs2.1]) hs2.2
        fun t s3 h1 h2 => .inr ⟨hs0.loc.trans h1, h2.toGood⟩
    wstep
    wstep
    refine Wp.ite (fun _ => ?_) (fun _ => ?_)
    · split
      · wstep
        wstep
        exact fin _ (by same_tac)
      · exact fin _ (by same_tac)
    · exact fin _ (by same_tac)
  rename_i hsp
  have h10 : c ≠ some 10 := by rintro rfl; exact hsp (by decide)
  have hm1 := hr.mid h10
  have he1 := (hr.some_eof hcn).2.1
  wstep
  wstep
  rename_i s2 h1 h2 h3 h4
  have hm2 : Mid s2.buffer := h2.mid hm1
  have he2 : s2.buffer.eofp = false := by rw [h2.eofp]; exact he1
  wstep
  refine Wp.isAsciiPrev (by have := hm2.lt; omega) ?_
  wstep
  · wstep
    refine Wp.tokaddMbchar hm2 (fun _ => he2) ?_
    intro r s3 h5
    wstep
    · wstep; exact .inl rfl
    · rename_i hrr
      obtain ⟨h6, h7, _⟩ := h5 (by simpa using hrr)
      wstep
      exact .inr ⟨by loc_tac, by good_tac⟩
  · wstep
    wstep
    wstep
    · exact (qmarkName_wp hr h2 h3 h1.2 hcn).mono fun _ _ h => h.mono (by loc_tac)
    · wstep
      · exact (qmarkEscape_wp hm2 he2).mono fun _ _ h => h.mono (by loc_tac)
      · wsteps
        exact .inr ⟨by loc_tac, by good_tac⟩

/-- The length fits an `i32`. -/
def Small (b : Buffer) : Prop := b.d.bytes.length < 2 ^ 31

theorem Small.of_input {b b' : Buffer} (h : Small b) (e : b'.input = b.input) : Small b' := by
  unfold Small Buffer.d at *; rw [e]; exact h

theorem Small.loc {a b : Lexer} (h : Small a.buffer) (e : Loc a b) : Small b.buffer := h.of_input e.1.same.input

theorem Wp.currentLocShort {Q : Verif.Loc → Lexer → Prop} (hg : Good s.buffer) (hz : Small s.buffer) (hp : 0 < s.buffer.pcur)
    (hq : ∀ l, Q l s) : Wp currentLocShort Q s := by
  refine Wp.liftB ⟨s.buffer.ptok, s.buffer.pcur - 1⟩ ?_ (hq _)
  have h1 := hg.hi
  have h2 := hg.pend_le
  unfold Small at hz
  have : Verif.Loc.adjustNat s.buffer.pcur (-1) = .ok (s.buffer.pcur - 1) := by
    unfold Verif.Loc.adjustNat
    rw [if_pos (by omega)]
    dsimp only
    rw [if_pos (by omega), if_pos (by omega)]
    congr 1; omega
  simp [Verif.Loc.adjustEnd, this, Bind.bind, Except.bind, Pure.pure, Except.pure]

theorem percentUnknown_wp {c : MB} {p : Lexer} (hr : Rd p c s) (hz : Small s.buffer) : Wp (percentUnknown c) (SPost b) s := by
  unfold percentUnknown
  wstep
  wstep
  rename_i s1 h1 h2 h3 h4 h5 h6
  wstep
  wstep
  wstep
  refine Wp.multibyteCharLen ?_
  intro r s2 hs2 hr2
  split
  · wstep; exact .inl rfl
  · rename_i len
    obtain ⟨h7, h8, h9, h10⟩ := hr2 len rfl
    refine Wp.bind (Wp.modB ?_)
    refine Wp.bind ?_
    refine Wp.liftB ⟨s2.buffer.ptok, s2.buffer.pcur + len - 1⟩ ?_ ?_
    · have hz1 : s1.buffer.d.bytes.length < 2 ^ 31 := by
        have h := h1.1.same.input
        have h' := hr.loc.1.same.input
        unfold Small Buffer.d at hz
        unfold Buffer.d
        rw [h, ← h']; exact hz
      have hle : s1.buffer.pcur + len ≤ s1.buffer.d.bytes.length := h9
      have : Verif.Loc.adjustNat (s2.buffer.pcur + len) (-1) = .ok (s2.buffer.pcur + len - 1) := by
        unfold Verif.Loc.adjustNat
        rw [hs2.1, if_pos (by omega)]
        dsimp only
        rw [if_pos (by omega), if_pos (by omega)]
        congr 1; omega
      simp [Verif.Loc.adjustEnd, this, Bind.bind, Except.bind, Pure.pure, Except.pure]
    · wsteps
      exact .inl rfl

theorem Wp.newStrterm {Q : Unit → Lexer → Prop} {f t p h} (hq : ∀ s', s'.buffer = s.buffer → s'.lvalStart = s.lvalStart →
    s'.lvalEnd = s.lvalEnd → s'.strterm = some (.string ⟨0, f, p, t, h⟩) → Q () s') : Wp (newStrterm f t p h) Q s :=
  Wp.modS (hq _ rfl rfl rfl rfl)

theorem SPost.str {t : Tok} {s1 s2 s3 : Lexer} {l : StringLiteral} (h : Loc b s1) (hg : Good s1.buffer) (hb : s2.buffer = s1.buffer)
    (h1 : s2.lvalStart = s1.lvalStart) (h2 : s2.lvalEnd = s1.lvalEnd) (h3 : s2.strterm = some (.string l))
    (hl : l.heredocEnd = none) (hs : Same s2 s3) : SPost b t s3 := by
  refine .inr ⟨?_, by rw [hs.1, hb]; exact hg, ?_, ?_, .inr ⟨l, by rw [hs.2.1, h3], hl⟩⟩
  · rw [hs.1, hb]; exact h.1
  · rw [hs.2.2.1, h1, h.2.2.1]
  · rw [hs.2.2.2.1, h2, h.2.2.2.1]

theorem percentOpen_wp {k o : UInt8} {ptok : Nat} (hg : Good s.buffer) (hz : Small s.buffer) (h0 : 0 < ptok) (hp : ptok ≤ s.buffer.pcur)
    (ht : s.buffer.ptok < ptok) (hl : Loc b s) : Wp (percentOpen k o ptok) (SPost b) s := by
  unfold percentOpen
  have body : ∀ (term : UInt8) (paren : Option UInt8), Wp (do
      setPtok (← Lexer.liftB fun _ => csub ptok 1)
      let go (func : Nat) (t : Tok) : LexM Tok := do
        Lexer.newStrterm func term paren none
        Pure.pure t
      if k = asc 'Q' then go str_dquote .tSTRING_BEG
      else if k = asc 'q' then go str_squote .tSTRING_BEG
      else if k = asc 'W' then go str_dword .tWORDS_BEG
      else if k = asc 'w' then go str_sword .tQWORDS_BEG
      else if k = asc 'I' then go str_dword .tSYMBOLS_BEG
      else if k = asc 'i' then go str_sword .tQSYMBOLS_BEG
      else if k = asc 'x' then go str_xquote .tXSTRING_BEG
      else if k = asc 'r' then go str_regexp .tREGEXP_BEG
      else if k = asc 's' then
        Lexer.newStrterm str_ssym term paren none
        setState (EXPR_FNAME ||| EXPR_FITEM)
        Pure.pure .tSYMBEG
      else
        compileError .UnknownTypeOfPercentString (← Lexer.currentLocShort)
        Pure.pure .END_OF_INPUT) (SPost b) s := by
    intro term paren
    refine Wp.bind (Wp.liftB _ (csub_of_le h0) (Wp.bind (Wp.setPtok (by omega) (by omega) ?_)))
    intro s1 h1 h2 h3
    have hg1 : Good s1.buffer := h2.good hg
    dsimp only
    have go : ∀ func t, Wp (do
        Lexer.newStrterm func term paren none
        Pure.pure t) (SPost b) s1 := by
      intro func t
      refine Wp.bind (Wp.newStrterm ?_)
      intro s2 h4 h5 h6 h7
      wstep
      exact SPost.str (by loc_tac) hg1 h4 h5 h6 h7 rfl (.refl _)
    iterate 8 (refine Wp.ite (fun _ => go _ _) (fun _ => ?_))
    refine Wp.ite (fun _ => ?_) (fun _ => ?_)
    · refine Wp.bind (Wp.newStrterm ?_)
      intro s2 h4 h5 h6 h7
      wsteps
      exact SPost.str (by loc_tac) hg1 h4 h5 h6 h7 rfl (by assumption)
    · wstep
      refine Wp.currentLocShort hg1 (hz.loc h1) (by rw [h2.pcur]; omega) ?_
      intro l
      wsteps
      exact .inl rfl
  split
  exact body _ _

theorem percentUnterminated_wp : Wp percentUnterminated (SPost b) s := by
  unfold percentUnterminated
  wsteps
  exact .inl rfl

theorem percentQuotation_wp {c : MB} {ptok : Nat} (hr : Rd b c s) (hz : Small s.buffer) (hp : ptok = b.buffer.pcur)
    (ht : b.buffer.ptok < b.buffer.pcur) :
    Wp (percentQuotation c ptok) (SPost b) s := by
  unfold percentQuotation
  have h1 := hr.mid0.lt
  have h2 := hr.loc.1.pcur
  split
  · exact percentUnterminated_wp
  · rename_i ch
    wstep
    · wstep
      · exact percentUnknown_wp hr hz
      · exact percentOpen_wp hr.good hz (by omega) (by omega) (by rw [hr.ptokEq, hp]; exact ht) hr.loc
    · rename_i ha
      have h10 : ch ≠ 10 := by rintro rfl; exact ha (by decide)
      have := hr.mid (by simpa using h10)
      wstep
      wstep
      rename_i c2 s2 hr2
      wstep
      · exact percentUnknown_wp hr2 (hz.loc hr2.loc)
      · split
        · exact percentUnterminated_wp
        · have h3 := hr2.loc.1.pcur
          exact percentOpen_wp hr2.good (hz.loc hr2.loc) (by omega) (by omega) (by rw [hr2.ptokEq, hr.ptokEq, hp]; exact ht) (by loc_tac)

theorem parsePercent_wp {sp l} (hm : Mid s.buffer) (hz : Small s.buffer) (ht : s.buffer.ptok < s.buffer.pcur) : Wp (parsePercent sp l) (SPost s) s := by
  unfold parsePercent
  wstep
  wstep
  wstep
  wstep
  rename_i st s1 hs1
  have hm1 : Mid s1.buffer := by mid_tac
  wstep
  · wstep
    wstep
    rename_i c s2 hr
    exact (percentQuotation_wp hr ((hz.loc hs1.loc).loc hr.loc) (by rw [hs1.1]) (by rw [hs1.1]; exact ht)).mono fun _ _ h => h.mono hs1.loc
  · wstep
    wstep
    rename_i c s2 hr
    wstep
    · wsteps
      exact .of_loc (by loc_tac) (by good_tac)
    · wstep
      wstep
      rename_i b s3 hs3
      wstep
      wstep
      rename_i st2 s4 hs4
      wstep
      · have hs : Same s2 s4 := by same_tac
        exact (percentQuotation_wp (hr.same hs) (((hz.loc hs1.loc).loc hr.loc).loc hs.loc) (by rw [hs1.1]) (by rw [hs1.1]; exact ht)).mono
          fun _ _ h => h.mono hs1.loc
      · wsteps
        exact .of_loc (by loc_tac) (by good_tac)

end Verif.Lexer
