import Verif.Lemmas.LexLine
import Verif.Lemmas.LexEscape
/-! String contents: no panic, progress. -/
namespace Verif.Lexer
variable {b s : Lexer}

theorem updateIndent_bsame (c : MB) (b : Buffer) : BSame b (updateIndent c b) ∧ (updateIndent c b).ptok = b.ptok := by
  unfold updateIndent
  repeat' split
  all_goals exact ⟨⟨⟨rfl, rfl, rfl, rfl, rfl, rfl, rfl, rfl⟩, rfl, rfl⟩, rfl⟩

/-- The result of a step within a line: it goes on, or ends without a character, or with a backslash. -/
def TsLoc (p : Lexer) (r : TsStep) (s' : Lexer) : Prop :=
  Loc p s' ∧ Good s'.buffer ∧ ∀ x n, r = .done x n → x = none ∨ x = some (some (asc '\\'))

theorem TsLoc.go {p s' : Lexer} {n : Nat} (h : Loc p s') (hg : Good s'.buffer) : TsLoc p (.go n) s' := ⟨h, hg, by simp⟩
theorem TsLoc.none {p s' : Lexer} {n : Nat} (h : Loc p s') (hg : Good s'.buffer) : TsLoc p (.done Option.none n) s' :=
  ⟨h, hg, by rintro x n h; cases h; exact .inl rfl⟩

theorem tsEscapeOther_wp {p : Lexer} {ch t : UInt8} {pa : Option UInt8} {f nest : Nat} (hr : Rd p (some ch) s) (h10 : ch ≠ 10) :
    Wp (tsEscapeOther f t pa nest ch) (TsLoc p) s := by
  unfold tsEscapeOther
  have main : ∀ s1, Same s s1 → Wp (do
      if hasF f STR_FUNC_REGEXP then
        if ch = asc 'c' ∨ ch = asc 'C' ∨ ch = asc 'M' then
          Lexer.pushback (some ch)
          match ← readEscape 4 false false with
          | none => fail .expect
          | some v =>
            modS fun s => { s with tokenbuf := s.tokenbuf ++ escbuf v }
            return .go nest
        else if ch = t ∧ !simpleReMeta (some ch) then
          tokadd ch
          return .go nest
        else
          Lexer.pushback (some ch)
          if !(← tokaddEscape) then return .done none nest else return .go nest
      else if hasF f STR_FUNC_EXPAND then
        Lexer.pushback (some ch)
        if hasF f STR_FUNC_ESCAPE then tokadd (asc '\\') else pure ()
        match ← readEscape 4 false false with
        | none => return .done none nest
        | some v =>
          tokadd v
          return .go nest
      else if hasF f STR_FUNC_QWORDS && MB.u8Space ch then
        tokadd ch
        return .go nest
      else if ch ≠ t ∧ some ch ≠ pa then
        tokadd (asc '\\')
        Lexer.pushback (some ch)
        return .go nest
      else
        tokadd ch
        return .go nest) (TsLoc p) s1 := by
    intro s1 hs1
    have hr1 := hr.same hs1
    have hm1 : Mid s1.buffer := hr1.mid (by simpa using h10)
    refine Wp.ite (fun _ => ?_) (fun _ => ?_)
    · refine Wp.ite (fun _ => ?_) (fun _ => ?_)
      · wstep
        wstep
        rename_i s2 h1 h2 h3 h4 h5 h6
        wstep
        refine (readEscape_wp 4 false false s2 h2 (by decide)).mono ?_
        intro r s3 ⟨h7, h8, h9⟩
        cases r with
        | none => exact absurd rfl h7
        | some v =>
          refine Wp.bind (Wp.pu (Pu.modS fun _ => ⟨rfl, rfl, rfl, rfl, rfl, rfl⟩) ?_)
          intro _ s4 hs4
          wstep
          exact .go (by loc_tac) (by good_tac)
      · refine Wp.ite (fun _ => ?_) (fun _ => ?_)
        · wsteps
          exact .go (by have := hr1.loc; loc_tac) (by good_tac)
        · wstep
          wstep
          rename_i s2 h1 h2 h3 h4 h5 h6
          wstep
          refine tokaddEscape_wp h2 ?_
          intro r s3 h7 h8
          wstep
          · wstep
            exact .none (by loc_tac) (by good_tac)
          · wstep
            exact .go (by loc_tac) (by good_tac)
    · refine Wp.ite (fun _ => ?_) (fun _ => ?_)
      · wstep
        wstep
        rename_i s2 h1 h2 h3 h4 h5 h6
        have fin : ∀ s3, Same s2 s3 → Wp (do
            match ← readEscape 4 false false with
            | none => return .done none nest
            | some v =>
              tokadd v
              return .go nest) (TsLoc p) s3 := by
          intro s3 hs3
          wstep
          refine (readEscape_wp 4 false false s3 (hs3.mid h2) (by decide)).mono ?_
          intro r s4 ⟨h7, h8, h9⟩
          cases r with
          | none => exact absurd rfl h7
          | some v =>
            wsteps
            exact .go (by loc_tac) (by good_tac)
        refine Wp.ite (fun _ => ?_) (fun _ => ?_)
        · wstep
          wstep
          exact fin _ (by assumption)
        · exact fin _ (.refl _)
      · refine Wp.ite (fun _ => ?_) (fun _ => ?_)
        · wsteps
          exact .go (by have := hr1.loc; loc_tac) (by good_tac)
        · refine Wp.ite (fun _ => ?_) (fun _ => ?_)
          · wsteps
            exact .go (by loc_tac) (by good_tac)
          · wsteps
            exact .go (by have := hr1.loc; loc_tac) (by good_tac)
  refine Wp.ite (fun _ => ?_) (fun _ => ?_)
  · wstep
    wstep
    rename_i s1 hs1
    wstep
    wstep
    exact main _ (by same_tac)
  · exact main _ (.refl _)

theorem tsBackslash_wp {t : UInt8} {pa : Option UInt8} {f nest : Nat} (hm : Mid s.buffer) :
    Wp (tsBackslash f t pa nest) (TsLoc s) s := by
  unfold tsBackslash
  have h0 := hm.lt
  refine Wp.bind (Wp.pcurSub (by omega) (Wp.bind (Wp.setPtok (by omega) (by omega) ?_)))
  intro s1 h1 h2 h3
  have hm1 : Mid s1.buffer := h2.mid hm
  wstep
  wstep
  rename_i c s2 hr
  have hl2 : Loc s s2 := by loc_tac
  cases c with
  | none =>
    wstep
    exact .none (by loc_tac) (by good_tac)
  | some ch =>
    dsimp only
    wstep
    · wstep
      · wsteps
        exact .go (by loc_tac) (by good_tac)
      · wstep
        · have body : ∀ (x : Bool), Wp (if x = true then Pure.pure (TsStep.go nest)
              else if ch = t then Pure.pure (.done (some (some (asc '\\'))) nest)
              else do
                tokadd (asc '\\')
                tokadd ch
                Pure.pure (.go nest)) (TsLoc s) s2 := by
            intro x
            refine Wp.ite (fun _ => ?_) (fun _ => ?_)
            · wstep
              exact .go (by loc_tac) (by good_tac)
            · refine Wp.ite (fun _ => ?_) (fun _ => ?_)
              · wstep
                exact ⟨hl2, by good_tac, by rintro x n h; cases h; exact .inr rfl⟩
              · wsteps
                exact .go (by loc_tac) (by good_tac)
          refine Wp.bind (Wp.getB ?_)
          exact body _
        · wsteps
          exact .go (by loc_tac) (by good_tac)
    · have h10 : ch ≠ 10 := by assumption
      wstep
      · have fin : ∀ s3, Same s2 s3 → Wp (do
            tokadd ch
            Pure.pure (.go nest)) (TsLoc s) s3 := by
          intro s3 hs3
          wsteps
          exact .go (by loc_tac) (by good_tac)
        refine Wp.ite (fun _ => ?_) (fun _ => ?_)
        · wstep
          wstep
          exact fin _ (by assumption)
        · exact fin _ (.refl _)
      · wstep
        · wstep
          · wsteps
            exact .go (by loc_tac) (by good_tac)
          · wstep
            refine tokaddUtf8_wp (hr.mid (by simpa using h10)) (hr.some_eof (by simp)).2.1 ?_
            intro s3 h7 h8
            wstep
            exact .go (by loc_tac) (by good_tac)
        · refine (tsEscapeOther_wp hr h10).mono ?_
          rintro r s3 ⟨h7, h8, h9⟩
          exact ⟨h1.trans h7, h8, h9⟩

/-- The characters at which the content of a literal stops (nesting depth `nest`). -/
def Stop (f : Nat) (t : UInt8) (nest : Nat) (ch : UInt8) : Prop :=
  (ch = t ∧ nest = 0) ∨ (hasF f STR_FUNC_EXPAND = true ∧ ch = asc '#') ∨ (hasF f STR_FUNC_QWORDS = true ∧ MB.u8Space ch = true)

/-- Where the content of a literal stops: at a malformed escape, at the end of input, after a backslash, before `ch`. -/
def TsEnd (s : Lexer) (f : Nat) (t : UInt8) (nest : Nat) (r : Option MB) (s' : Lexer) : Prop :=
  match r with
  | none => s'.buffer.R + 8 ≤ s.buffer.R
  | some none => s'.buffer.eofp = true ∨ s'.buffer.R + 17 ≤ s.buffer.R
  | some (some ch) => (ch = asc '\\' ∧ s'.buffer.R + 8 ≤ s.buffer.R) ∨
      (Ahead s'.buffer ch ∧ (∃ k, Stop f t k ch) ∧
        (s'.buffer.R + 8 ≤ s.buffer.R ∨ (Stop f t nest ch ∧ ∃ b1 s1, RdG s b1 (some ch) s1)))

/-- One step of the content. -/
def TsG (s : Lexer) (f : Nat) (t : UInt8) (nest : Nat) (r : TsStep) (s' : Lexer) : Prop :=
  Fw s s' ∧ Good s'.buffer ∧ match r with
  | .go _ => s'.buffer.R + 8 ≤ s.buffer.R
  | .done r _ => TsEnd s f t nest r s'

theorem tsStep_wp {t : UInt8} {pa : Option UInt8} {f nest : Nat} (hg : Good s.buffer) :
    Wp (tsStep f t pa nest) (TsG s f t nest) s := by
  unfold tsStep
  refine Wp.bind (Wp.nextcG hg ?_)
  intro b0 c s1 hr
  cases c with
  | none =>
    dsimp only
    wstep
    refine ⟨hr.fw, hr.good, ?_⟩
    obtain ⟨h1, h2, _⟩ := hr.isNone rfl
    show _ ∨ _
    rw [h1]; exact h2
  | some ch =>
    dsimp only
    have hb : BSame s1.buffer (if s1.buffer.heredocIndent > 0 then updateIndent (some ch) s1.buffer else s1.buffer) ∧
        (if s1.buffer.heredocIndent > 0 then updateIndent (some ch) s1.buffer else s1.buffer).ptok = s1.buffer.ptok := by
      split
      · exact updateIndent_bsame _ _
      · exact ⟨.refl _, rfl⟩
    refine Wp.bind (Wp.modB_same hb.1 hb.2 ?_)
    intro s2 hl2 hb2 ht2
    have hm := hr.meas
    have hR2 : s2.buffer.R = s1.buffer.R := hb2.R
    have hg2 : Good s2.buffer := hb2.good hr.good
    have hf2 : Fw s s2 := hr.fw.trans hl2.fw
    have hp2 : 0 < s2.buffer.pcur := by have := hr.pos; rw [hb2.pcur]; omega
    have go : ∀ n s3, Same s2 s3 → TsG s f t nest (.go n) s3 := by
      intro n s3 hs
      refine ⟨hf2.trans hs.fw, hs.good hg2, ?_⟩
      show s3.buffer.R + 8 ≤ _
      rw [hs.1, hR2]; exact hm
    have back : Stop f t nest ch → Wp (do
        Lexer.pushback (some ch)
        Pure.pure (TsStep.done (some (some ch)) nest)) (TsG s f t nest) s2 := by
      intro hst
      refine Wp.bind (Wp.pushbackG hr hb2 ht2 hl2.2 ?_)
      intro s3 h1 h2 h3 h4 h5
      wstep
      exact ⟨h1, h2, .inr ⟨hr.ahead.bsame h3, ⟨_, hst⟩, .inr ⟨hst, _, _, hr⟩⟩⟩
    refine Wp.ite (fun _ => ?_) (fun _ => ?_)
    · wsteps
      exact go _ _ (by assumption)
    · refine Wp.ite (fun h1 => ?_) (fun h1 => ?_)
      · refine Wp.ite (fun h2 => ?_) (fun h2 => ?_)
        · exact back (.inl ⟨h1, h2⟩)
        · wsteps
          exact go _ _ (by assumption)
      · refine Wp.bind (Wp.getB ?_)
        refine Wp.ite (fun h2 => ?_) (fun h2 => ?_)
        · refine Wp.bind (Wp.getB ?_)
          refine Wp.ite (fun h3 => ?_) (fun h3 => ?_)
          · refine back (.inr (.inl ?_))
            simp only [Bool.and_eq_true, beq_iff_eq] at h2
            exact h2.1
          · wsteps
            exact go _ _ (by assumption)
        · refine Wp.ite (fun h3 => ?_) (fun h3 => ?_)
          · have h10 : ch ≠ 10 := by rintro rfl; exact absurd h3 (by decide)
            refine (tsBackslash_wp (hb2.mid (hr.mid h10))).mono ?_
            rintro r s3 ⟨h4, h5, h6⟩
            have h7 := h4.1.meas
            refine ⟨hf2.trans h4.fw, h5, ?_⟩
            cases r with
            | go n => show s3.buffer.R + 8 ≤ _; omega
            | done x n =>
              rcases h6 x n rfl with rfl | rfl
              · show s3.buffer.R + 8 ≤ _; omega
              · exact .inl ⟨rfl, by omega⟩
          · refine Wp.bind (Wp.isAsciiPrev hp2 ?_)
            refine Wp.ite (fun h3 => ?_) (fun h3 => ?_)
            · wsteps
              exact go _ _ (by assumption)
            · refine Wp.ite (fun h3 => ?_) (fun h3 => ?_)
              · refine back (.inr (.inr ?_))
                simpa using h3
              · wsteps
                exact go _ _ (by assumption)

theorem tsLoop_wp {t : UInt8} {pa : Option UInt8} {f : Nat} : ∀ n nest (s : Lexer), Good s.buffer → s.buffer.R + 2 ≤ n →
    Wp (tsLoop f t pa n nest) (fun r s' => Fw s s' ∧ Good s'.buffer ∧ TsEnd s f t nest r.1 s') s := by
  intro n
  induction n with
  | zero => intro _ _ _ h; omega
  | succ n ih =>
    intro nest s hg hn
    unfold tsLoop
    refine Wp.bind ((tsStep_wp hg).mono ?_)
    rintro r s1 ⟨h1, h2, h3⟩
    cases r with
    | done r k =>
      wstep
      exact ⟨h1, h2, h3⟩
    | go k =>
      have h3' : s1.buffer.R + 8 ≤ s.buffer.R := h3
      refine (ih k s1 h2 (by omega)).mono ?_
      rintro ⟨r, k2⟩ s2 ⟨h4, h5, h6⟩
      refine ⟨h1.trans h4, h5, ?_⟩
      have h7 := h4.1.meas
      match r, h6 with
      | none, h6 =>
        have : s2.buffer.R + 8 ≤ s1.buffer.R := h6
        show s2.buffer.R + 8 ≤ _
        omega
      | some none, h6 =>
        exact Or.imp id (fun h => by omega) h6
      | some (some ch), h6 =>
        rcases h6 with ⟨e, h⟩ | ⟨h, h', _⟩
        · exact .inl ⟨e, by omega⟩
        · exact .inr ⟨h, h', .inl (by omega)⟩

theorem tokaddString_wp {t : UInt8} {pa : Option UInt8} {f nest : Nat} (hg : Good s.buffer) :
    Wp (tokaddString f t pa nest) (fun r s' => Fw s s' ∧ Good s'.buffer ∧ TsEnd s f t nest r.1 s') s := by
  unfold tokaddString
  wstep
  wstep
  refine tsLoop_wp _ _ _ hg ?_
  have := fuel_ok hg rfl
  omega

end Verif.Lexer
