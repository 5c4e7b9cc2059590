import Verif.Lemmas.ReadVars
import Verif.Lemmas.LexDispatch
/-! The text of the remaining tokens outside of literals. -/
namespace Verif.Lexer
open Spec

/-- The token is a part of a literal or the end. -/
def Part (t : Tok) : Prop := notName t = true ∧ plainWord t = false
theorem Part.wd {t : Tok} {s : Lexer} (h : Part t) : Wd t s := ⟨h.1, fun e => by rw [h.2] at e; cases e⟩

section
variable {D : Bytes} {k : Nat} {s : Lexer}

theorem qmarkChar_ret : Ret Part Lexer.qmarkChar := by
  unfold Lexer.qmarkChar
  exact Ret.bind fun _ => Ret.bind fun _ => Ret.bind fun _ => Ret.pure ⟨rfl, rfl⟩

theorem qmarkEscape_ret : Ret Part Lexer.qmarkEscape := by
  unfold Lexer.qmarkEscape
  refine Ret.bind fun _ => Ret.ite (fun _ => Ret.bind fun _ => Ret.bind fun _ => qmarkChar_ret) fun _ => Ret.bind fun _ => Ret.ite (fun _ => ?_) fun _ => ?_
  · exact Ret.bind fun _ => Ret.bind fun _ => Ret.bind fun _ => Ret.ite (fun _ => Ret.pure ⟨rfl, rfl⟩) fun _ => qmarkChar_ret
  · exact Ret.bind fun _ => Ret.bind fun _ => qmarkChar_ret

theorem Pc.part {x : LexM Tok} (h : Ret Part x) : Pc x Wd s := Pc.ofRet h fun _ _ h => h.wd

theorem qmarkTernary_pc {c : MB} (h : Rx D k c s) : Pc (Lexer.qmarkTernary c) Wd s := by
  unfold Lexer.qmarkTernary
  exact Pc.bind (Pc.pushbackT h fun s1 h1 => Pc.bind (Pc.nuT h1 Nu.setState fun _ s2 h2 => Pc.pure ⟨rfl, fun _ => h2.toFx.val⟩))

theorem qmarkName_pc {b : Bool} {c : MB} (h : Rx D k c s) : Pc (Lexer.qmarkName b c) Wd s := by
  unfold Lexer.qmarkName
  refine Pc.ite (fun _ => ?_) fun _ => qmarkTernary_pc h
  refine Pc.bind (Pc.nuR h Nu.pcurSub fun p s1 h1 => Pc.bind (Pc.fuel fun n => Pc.bind (Pc.nuR h1 Nu.qmarkNameLoop fun r s2 h2 => ?_)))
  cases r with
  | none => exact Pc.pure ⟨rfl, fun h => absurd h (by decide)⟩
  | some ptr =>
    refine Pc.bind (Pc.nuR h2 (Nu.liftB _) fun r s3 h3 => ?_)
    cases r with
    | none => exact Pc.fail
    | some name => exact Pc.bind (Pc.nuR h3 (Nu.liftB _) fun _ s4 h4 => Pc.bind (Pc.nuR h4 Nu.warn fun _ s5 h5 => qmarkTernary_pc h5))

theorem parseQmark_pc {b : Bool} (h : Tx D k s) : Pc (Lexer.parseQmark b) Wd s := by
  unfold Lexer.parseQmark
  refine Pc.bind (Pc.nuT h Nu.getState fun _ s1 h1 => Pc.ite (fun _ => ?_) fun _ => Pc.bind (Pc.nextcT h1 fun c s2 h2 => ?_))
  · exact Pc.bind (Pc.nuT h1 Nu.setState fun _ s2 h2 => Pc.pure ⟨rfl, fun _ => h2.toFx.val⟩)
  refine Pc.ite (fun _ => ?_) fun _ => Pc.ite (fun _ => ?_) fun _ => ?_
  · exact Pc.part (Ret.bind fun _ => Ret.bind fun _ => Ret.pure ⟨rfl, rfl⟩)
  · refine Pc.bind (Pc.nuR h2 Nu.getState fun _ s3 h3 => Pc.ite (fun _ => ?_) fun _ => qmarkTernary_pc h3)
    split
    · exact Pc.bind (Pc.nuR h3 Nu.warnSpaceChar fun _ s4 h4 => qmarkTernary_pc h4)
    · exact qmarkTernary_pc h3
  · refine Pc.bind (Pc.newtokR h2 fun s3 h3 _ => Pc.bind (Pc.nuR h3 Nu.isAsciiPrev fun _ s4 h4 => Pc.ite (fun _ => ?_) fun _ => ?_))
    · exact Pc.part (Ret.bind fun _ => Ret.ite (fun _ => Ret.pure ⟨rfl, rfl⟩) fun _ => qmarkChar_ret)
    · refine Pc.bind (Pc.nuR h4 (Nu.getB _) fun _ s5 h5 => Pc.ite (fun _ => qmarkName_pc h5) fun _ => Pc.ite (fun _ => Pc.part qmarkEscape_ret) fun _ => ?_)
      exact Pc.part (Ret.bind fun _ => qmarkChar_ret)

theorem percentUnknown_ret {c} : Ret Part (Lexer.percentUnknown c) := by
  unfold Lexer.percentUnknown
  refine Ret.bind fun _ => Ret.bind fun _ => Ret.bind fun r => ?_
  cases r with
  | none => exact Ret.pure ⟨rfl, rfl⟩
  | some len => exact Ret.bind fun _ => Ret.bind fun _ => Ret.bind fun _ => Ret.pure ⟨rfl, rfl⟩
theorem percentUnterminated_ret : Ret Part Lexer.percentUnterminated := by
  unfold Lexer.percentUnterminated
  exact Ret.bind fun _ => Ret.bind fun _ => Ret.pure ⟨rfl, rfl⟩
theorem percentOpen_ret {a b c} : Ret Part (Lexer.percentOpen a b c) := by
  unfold Lexer.percentOpen
  refine Ret.bind fun _ => Ret.bind fun _ => ?_
  repeat' first
    | exact Ret.pure (P := Part) ⟨by rfl, by rfl⟩
    | (with_reducible refine Ret.bind fun _ => ?_)
    | (with_reducible refine Ret.ite (fun _ => ?_) fun _ => ?_)
theorem percentQuotation_ret {c p} : Ret Part (Lexer.percentQuotation c p) := by
  unfold Lexer.percentQuotation
  split
  · exact percentUnterminated_ret
  · refine Ret.ite (fun _ => Ret.ite (fun _ => percentUnknown_ret) fun _ => percentOpen_ret) fun _ => Ret.bind fun t => Ret.ite (fun _ => percentUnknown_ret) fun _ => ?_
    split
    · exact percentUnterminated_ret
    · exact percentOpen_ret

theorem parsePercent_pc {b l} (h : Tx D k s) : Pc (Lexer.parsePercent b l) Wd s := by
  unfold Lexer.parsePercent
  refine Pc.bind (Pc.nuT h Nu.pcur fun p s1 h1 => Pc.bind (Pc.nuT h1 Nu.getState fun _ s2 h2 => Pc.ite (fun _ => ?_) fun _ => ?_))
  · exact Pc.part (Ret.bind fun _ => percentQuotation_ret)
  · have rest : ∀ {c : MB} {s : Lexer}, Rx D k c s → Pc (do
        setStateAfterOp EXPR_BEG
        Lexer.pushback c
        warnBalanced .tPERCENT "%%" "string literal" c b l) Wd s := by
      intro c s h
      repeat' astep
    refine Pc.bind (Pc.nextcT h2 fun c s3 h3 => Pc.ite (fun _ => ?_) fun _ => Pc.bind (Pc.nuR h3 Nu.spacearg fun r s4 h4 => ?_))
    · repeat' astep
    · refine Pc.bind (Pc.nuR h4 Nu.getState fun _ s5 h5 => Pc.ite (fun _ => Pc.part percentQuotation_ret) fun _ => rest h5)

theorem NumP.wd {t : Tok} (h : NumP t s) : Wd t s := by
  obtain ⟨h1, h2, h3⟩ := h
  refine ⟨h2, fun hw => ?_⟩
  rcases h3 with rfl | ⟨v, hv⟩
  · cases hw
  · unfold Val; rw [hv]; exact (h1 v hv).2

theorem lexPlus_pc {b l} (h : Tx D k s) : Pc (Lexer.lexPlus b l) OpN s := by
  unfold Lexer.lexPlus Lexer.done
  repeat' astep
  all_goals
    rename_i h0 hd
    exact Pc.mono (parseNumeric_pc h0.lv (.inl rfl)) fun t s' ht => Pc.pure ht.wd

theorem Pc.pushbackD {Q : Unit → Lexer → Prop} {c : MB} (h : Rx D k c s) (hc : MB.isDigit c = true)
    (hq : ∀ s', Tx D k s' → DigitNext s' → Q () s') : Pc (Lexer.pushback c) Q s := by
  intro u s' e
  have hT : Tx D k s' := Pc.pushbackT (Q := fun _ s' => Tx D k s') h (fun s' h => h) u s' e
  refine hq s' hT ?_
  obtain ⟨⟨p, b, h1, h2, h3⟩, h4, h5, h6, h7⟩ := h
  obtain ⟨b', e1, rfl⟩ := pushback_eq e
  have e2 : Lexer.pushback c { b with buffer := s.buffer } = .ok ((), { b with buffer := b' }) := by
    simp only [Lexer.pushback, e1, Bind.bind, Except.bind, Pure.pure, Except.pure]
  have key := Pc.of_wp (Wp.pushback_gen (Q := fun _ s3 => Loc p s3 ∧ s3.buffer.pcur = p.buffer.pcur ∧ s3.buffer.eofp = s.buffer.eofp)
    (s2 := { b with buffer := s.buffer }) h2 h3.same h3.pcur (by intro h; show s.buffer.ptok ≤ _; rw [h7, ← h1.tok]; exact h)
    (by intro q h _; show q ≤ s.buffer.ptok; rw [h7, ← h1.tok]; exact h)
    (by intro h; show s.buffer.eofp = true; rw [h3.eofp]; exact h) (.refl _) fun s3 k1 _ k3 _ _ k4 => ⟨k1, k3, k4⟩) _ _ e2
  obtain ⟨k1, k3, k4⟩ := key
  dsimp only at k3 k4
  cases c with
  | none => cases hc
  | some ch =>
    have h10 : ch ≠ 10 := by rintro rfl; exact absurd hc (by decide)
    obtain ⟨k5, k6⟩ := (h2.isSome ch rfl).byte h10
    have k7 := h2.good.hi
    have k8 : b.buffer.pend = p.buffer.pend := h2.loc.1.same.pend
    have k9 : b'.pend = p.buffer.pend := k1.1.same.pend
    refine ⟨?_, hT.mid.nonl, ?_, ch, ?_, hc⟩
    · show b'.eofp = false
      rw [k4, h3.eofp]; exact (h2.some_eof (by simp)).2.1
    · show b'.pcur ≠ b'.pend
      omega
    · show b'.d.bytes[b'.pcur]? = _
      rw [k3, show b'.d.bytes = D from hT.bytes, ← h1.bytes]; exact k6

theorem lexDotDigit_pc {b} (h : LvA s) (hd : DigitNext s) : Pc (Lexer.lexDotDigit b) OpN s := by
  unfold Lexer.lexDotDigit
  refine Pc.bind (Pc.liftB fun _ _ => Pc.bind (Pc.mono (parseNumeric_pc h (.inr (.inr (.inr ⟨rfl, hd⟩)))) fun t s1 h1 => ?_))
  refine Pc.bind (Pc.tn Tn.yyerror0 fun _ s2 h2 => Pc.bind (Pc.tn Tn.setState fun _ s3 h3 => Pc.bind (Pc.tn Tn.tokenFlush fun _ s4 h4 => Pc.pure ?_)))
  exact ((h1.1.congr h2.1).congr h3.1).congr h4.1

theorem lexDot_pc {b l} (h : Tx D k s) : Pc (Lexer.lexDot b l) OpN s := by
  unfold Lexer.lexDot
  refine Pc.bind (Pc.nuT h Nu.getState fun st s1 h1 => Pc.bind (Pc.nuT h1 Nu.setState fun _ s2 h2 => Pc.bind (Pc.nextcT h2 fun c s3 h3 => ?_)))
  refine Pc.ite (fun hc => ?_) fun _ => ?_
  · refine Pc.bind (Pc.nextcT (by tx_tac) fun c s4 h4 => Pc.ite (fun hc => lexDot3_pc (by tx_tac)) fun _ => ?_)
    refine Pc.bind (Pc.pushbackT h4 fun s5 h5 => Pc.pure ⟨?_, fun _ => h5.toFx.val⟩)
    split <;> rfl
  · by_cases hd : MB.isDigit c = true
    · refine Pc.bind (Pc.pushbackD h3 hd fun s4 h4 h5 => ?_)
      rw [if_pos hd]
      exact lexDotDigit_pc h4.lv h5
    · rw [if_neg hd]
      unfold Lexer.done
      repeat' astep

theorem heredocStart_ret {t a b c d} (h : Part t) : Ret Part (Lexer.heredocStart t a b c d) := by
  unfold Lexer.heredocStart
  refine Ret.bind fun _ => Ret.bind fun r => ?_
  cases r with
  | none => exact Ret.fail _
  | some id => exact Ret.bind fun _ => Ret.bind fun _ => Ret.bind fun _ => Ret.bind fun _ => Ret.bind fun _ => Ret.bind fun _ => Ret.pure h

/-- Neither the value nor the bounds changed. -/
def Lq (s s' : Lexer) : Prop := s'.lval = s.lval ∧ s'.lvalStart = s.lvalStart ∧ s'.lvalEnd = s.lvalEnd
theorem Pc.lq_nextc {Q : MB → Lexer → Prop} (hq : ∀ c s', Lq s s' → Q c s') : Pc Lexer.nextc Q s := by
  intro c s' e; obtain ⟨b, -, rfl⟩ := nextc_eq e; exact hq _ _ ⟨rfl, rfl, rfl⟩
theorem Pc.lq_pushback {c} {Q : Unit → Lexer → Prop} (hq : ∀ c s', Lq s s' → Q c s') : Pc (Lexer.pushback c) Q s := by
  intro c s' e; obtain ⟨b, -, rfl⟩ := pushback_eq e; exact hq _ _ ⟨rfl, rfl, rfl⟩
theorem Pc.lq_pushbackByte {Q : Unit → Lexer → Prop} (hq : ∀ c s', Lq s s' → Q c s') : Pc (Lexer.pushbackByte) Q s := by
  intro c s' e; obtain ⟨b, -, rfl⟩ := pushbackByte_eq' e; exact hq _ _ ⟨rfl, rfl, rfl⟩
theorem Lq.trans {a b c : Lexer} (h : Lq a b) (h' : Lq b c) : Lq a c := ⟨h'.1.trans h.1, h'.2.1.trans h.2.1, h'.2.2.trans h.2.2⟩
theorem Nt.lq {a b : Lexer} (h : Nt a b) : Lq a b := ⟨h.lv, h.ls, h.le⟩

/-- No heredoc: nothing was read. -/
def HdP (s : Lexer) (r : Option Tok) (s' : Lexer) : Prop := match r with
  | some t => Part t
  | none => Lq s s'

theorem heredocIdentifier_pc : Pc Lexer.heredocIdentifier (HdP s) s := by
  unfold Lexer.heredocIdentifier
  have main : ∀ {c : MB} {f o : Nat} {i : Int} {s1 : Lexer}, Lq s s1 → Pc (do
      if isC c '\'' || isC c '"' || isC c '`' then
        let func := if isC c '\'' then f ||| str_squote else if isC c '"' then f ||| str_dquote else f ||| str_xquote
        let token := if isC c '`' then Tok.tXSTRING_BEG else Tok.tSTRING_BEG
        if !(← hereQuoteLoop c (← Lexer.fuel)) then Pure.pure (some Tok.END_OF_INPUT)
        else Pure.pure (some (← heredocStart token (o + 1) 1 func i))
      else if !(← Lexer.isIdentchar) then
        Lexer.pushback c
        if hasF f STR_FUNC_INDENT then Lexer.pushbackByte else Pure.pure ()
        Pure.pure none
      else
        match ← hereIdLoop (← Lexer.fuel) with
        | none => Pure.pure (some Tok.END_OF_INPUT)
        | some c =>
          Lexer.pushback c
          Pure.pure (some (← heredocStart .tSTRING_BEG o 0 (f ||| str_dquote) i))) (HdP s) s1 := by
    intro c f o i s1 h1
    refine Pc.ite (fun _ => ?_) fun _ => ?_
    · refine Pc.ofRet (P := fun r => ∃ t, r = some t ∧ Part t) ?_ (by rintro r s' ⟨t, rfl, ht⟩; exact ht)
      refine Ret.bind fun _ => Ret.bind fun _ => Ret.ite (fun _ => Ret.pure ⟨_, rfl, rfl, rfl⟩) fun _ => ?_
      refine Ret.bindP (heredocStart_ret ?_) fun t ht => Ret.pure ⟨_, rfl, ht⟩
      split <;> exact ⟨rfl, rfl⟩
    · refine Pc.bind (Pc.nu Nu.isIdentchar fun _ s2 h2 => Pc.ite (fun _ => ?_) fun _ => ?_)
      · refine Pc.bind (Pc.lq_pushback fun _ s3 h3 => Pc.ite (fun _ => ?_) fun _ => ?_)
        · exact Pc.bind (Pc.lq_pushbackByte fun _ s4 h4 => Pc.pure (((h1.trans h2.lq).trans h3).trans h4))
        · exact Pc.pure ((h1.trans h2.lq).trans h3)
      · refine Pc.ofRet (P := fun r => ∃ t, r = some t ∧ Part t) ?_ (by rintro r s' ⟨t, rfl, ht⟩; exact ht)
        refine Ret.bind fun _ => Ret.bind fun r => ?_
        cases r with
        | none => exact Ret.pure ⟨_, rfl, rfl, rfl⟩
        | some c => exact Ret.bind fun _ => Ret.bindP (heredocStart_ret ⟨rfl, rfl⟩) fun t ht => Ret.pure ⟨_, rfl, ht⟩
  refine Pc.bind (Pc.nu (Nu.liftB _) fun o s1 h1 => Pc.bind (Pc.lq_nextc fun c s2 h2 => ?_))
  refine Pc.ite (fun _ => ?_) fun _ => Pc.ite (fun _ => ?_) fun _ => ?_
  · exact Pc.bind (Pc.lq_nextc fun c s3 h3 => Pc.bind (Pc.pure (main (c := c) ((h1.lq.trans h2).trans h3))))
  · exact Pc.bind (Pc.lq_nextc fun c s3 h3 => Pc.bind (Pc.pure (main (c := c) ((h1.lq.trans h2).trans h3))))
  · exact Pc.bind (Pc.pure (main (c := c) (h1.lq.trans h2)))

theorem lexLtOp2_pc {b l} (h : Tx D k s) : Pc (Lexer.lexLtOp (some 60) b l) OpN s := by
  unfold Lexer.lexLtOp Lexer.done
  repeat' astep
  all_goals exact absurd rfl ‹_›

theorem lexLt_pc {b l} (h : Tx D k s) (ha : At s 60) (hk : s.buffer.d.bytes[s.buffer.ptok]? = some 60) : Pc (Lexer.lexLt b l) OpN s := by
  unfold Lexer.lexLt
  obtain ⟨hm, ht1, ht2⟩ := ha.plain (by decide)
  refine Pc.bind ?_
  intro c s1 e
  have hr : Rd s c s1 := Pc.of_wp (Wp.nextc (Q := fun c s' => Rd s c s') h.mid fun c s' h => h) c s1 e
  have h1 : Rx D k c s1 := Pc.nextcT (Q := fun c s' => Rx D k c s') h (fun _ _ h => h) c s1 e
  refine Pc.bind (Pc.getS (Pc.ite (fun hc => ?_) fun _ => lexLtOp_pc h1))
  have hc' : c = some 60 := by
    simp only [Bool.and_eq_true] at hc
    simpa [isC, asc] using hc.1.1.1
  subst hc'
  obtain ⟨hb1, hb2⟩ := (hr.isSome 60 rfl).byte (by decide)
  have hsl := hr.loc.1.same
  have hd : s1.buffer.d = s.buffer.d := by simp only [Buffer.d, hsl.input]
  have hpt : s1.buffer.ptok = s.buffer.ptok := by rw [hr.eqB]
  have hne := (hr.some_eof (by simp)).2.1
  have hm1 : Mid s1.buffer := hr.mid (by decide)
  have h2 : Tx D k s1 := h1.go (by intro ch e; cases e; decide) (by decide)
  refine Pc.bind (Pc.mono (Pc.and (Pc.of_wp (heredocIdentifier_wp hm1 hne (by omega) ?_)) heredocIdentifier_pc) fun r s2 h3 => ?_)
  · intro j h1 h2
    unfold PlainAt
    rw [hd]
    rcases (by omega : j = s.buffer.ptok ∨ j = s.buffer.pcur) with e | e
    · rw [e, ht2]; decide
    · rw [e, hb2]; decide
  obtain ⟨h3, h4⟩ := h3
  cases r with
  | some t => exact Pc.pure (Part.wd h4)
  | none =>
    obtain ⟨k1, k2, k3, k4⟩ := h3
    obtain ⟨k5, k6, k7⟩ := h4
    refine lexLtOp2_pc (D := D) (k := k) ⟨⟨?_, k6.trans h2.ls, k7.trans h2.le, h2.lv.congr k5, by rw [k3, k4]; exact h2.asc⟩, k2, k4.trans h2.tok, by rw [k3]; exact h2.past⟩
    rw [← h2.bytes]; simp only [Buffer.d, k1.1.same.input]

/-- What follows a line break or a comment. -/
def NlR (r : Next) : Prop := r = .tok .tNL ∨ r = .tok .END_OF_INPUT ∨ ∃ b, r = .retry b

/-- Line breaks and comments. -/
theorem Tn.opn {x : LexM Next} (h : LvA s) (hx : Tn x) (hr : Ret NlR x) : Pc x OpN s := by
  intro r s' e
  have h1 := hx s r s' e
  rcases hr s r s' e with rfl | rfl | ⟨b, rfl⟩
  · exact ⟨rfl, fun h => absurd h (by decide)⟩
  · exact ⟨rfl, fun h => absurd h (by decide)⟩
  · exact h.congr h1.1

theorem normalNewline_ret : Ret (fun r => r = Tok.tNL) Lexer.normalNewline := by
  unfold Lexer.normalNewline
  exact Ret.bind fun _ => Ret.bind fun _ => Ret.pure rfl

theorem newlineLoop_ret : ∀ {n b}, Ret NlR (Lexer.newlineLoop n b) := by
  intro n
  induction n with
  | zero => intro b; exact Ret.fail _
  | succ n ih =>
    intro b
    unfold Lexer.newlineLoop
    have rest : ∀ {c : MB} {l : Bool}, Ret NlR (do
        if l then
          Lexer.pushback c
          Pure.pure (Next.retry b)
        else if c.isNone then
          newlineLoop.liftBuf (·.eofNoDecrement)
          Pure.pure (Next.tok (← normalNewline))
        else
          let sourceline ← Lexer.liftB fun b => csub b.rubySourceline 1
          Lexer.modB fun b => { b with rubySourceline := sourceline, nextline := b.lastline }
          newlineLoop.liftBuf (·.eofNoDecrement)
          Pure.pure (Next.tok (← normalNewline))) := by
      intro c l
      refine Ret.ite (fun _ => Ret.bind fun _ => Ret.pure (.inr (.inr ⟨_, rfl⟩))) fun _ => Ret.ite (fun _ => Ret.bind fun _ => ?_) fun _ =>
        Ret.bind fun _ => Ret.bind fun _ => Ret.bind fun _ => ?_
      all_goals exact Ret.bindP normalNewline_ret fun t ht => Ret.pure (.inl (by rw [ht]))
    refine Ret.bind fun c => Ret.ite (fun _ => ih) fun _ => Ret.ite (fun _ => Ret.bind fun _ => Ret.pure (.inr (.inr ⟨_, rfl⟩))) fun _ => ?_
    refine Ret.ite (fun _ => Ret.bind fun _ => rest) fun _ => Ret.bind fun _ => rest

theorem lexNewline_ret {a b} : Ret NlR (Lexer.lexNewline a b) := by
  unfold Lexer.lexNewline
  refine Ret.bind fun _ => Ret.bind fun _ => Ret.ite (fun _ => Ret.bind fun _ => Ret.ite (fun _ => ?_) fun _ => Ret.pure (.inr (.inr ⟨_, rfl⟩))) fun _ =>
    Ret.bind fun _ => newlineLoop_ret
  exact Ret.bindP normalNewline_ret fun t ht => Ret.pure (.inl (by rw [ht]))
theorem lexNewline_pc {a b} (h : LvA s) : Pc (Lexer.lexNewline a b) OpN s := Tn.opn h Tn.lexNewline lexNewline_ret
theorem lexComment_pc {x a b} (h : LvA s) : Pc (Lexer.lexComment x a b) OpN s := by
  refine Tn.opn h Tn.lexComment ?_
  unfold Lexer.lexComment Lexer.done
  refine Ret.bind fun _ => Ret.bind fun _ => Ret.bind fun _ => Ret.bind fun r => ?_
  cases r with
  | none => exact Ret.pure (.inr (.inl rfl))
  | some m =>
    have rest : ∀ {t : Bool}, Ret NlR (do
      if t then Lexer.liftB (fun b => setFileEncoding b b.pcur b.pend) else Pure.pure ()
      gotoEol
      pushComment (← currentLoc)
      lexNewline a b) := by
      intro t
      refine Ret.ite (fun _ => Ret.bind fun _ => ?_) fun _ => ?_ <;>
      exact Ret.bind fun _ => Ret.bind fun _ => Ret.bind fun _ => lexNewline_ret
    exact Ret.ite (fun _ => Ret.bind fun _ => rest) fun _ => Ret.bind fun _ => rest
theorem lexEq_pc {b} (h : Tx D k s) : Pc (Lexer.lexEq b) OpN s := by
  unfold Lexer.lexEq
  have rest : ∀ {s : Lexer} {d : Bool}, Tx D k s → Pc (do
      if d then
        let b' ← Lexer.pcurSub 1
        let beginLoc : Verif.Loc := ⟨b', (← Lexer.pcur) + 5⟩
        gotoEol
        if ← embdocLoop beginLoc (← Lexer.fuel) then
          gotoEol
          pushComment (beginLoc.withEnd (← Lexer.pcur))
          Pure.pure (Next.retry b)
        else Lexer.done .END_OF_INPUT
      else lexEqOp) OpN s := by
    intro s d h
    refine Pc.ite (fun _ => Tn.opn h.lv ?_ ?_) fun _ => lexEqOp_pc h
    · repeat' tn1
    · refine Ret.bind fun _ => Ret.bind fun _ => Ret.bind fun _ => Ret.bind fun _ => Ret.bind fun _ => Ret.ite (fun _ => ?_) fun _ => Ret.pure (.inr (.inl rfl))
      exact Ret.bind fun _ => Ret.bind fun _ => Ret.bind fun _ => Ret.pure (.inr (.inr ⟨_, rfl⟩))
  refine Pc.bind (Pc.nuT h (Nu.getB _) fun r s1 h1 => Pc.ite (fun _ => ?_) fun _ => Pc.bind (Pc.pure (rest h1)))
  exact Pc.bind (Pc.nuT h1 (Nu.liftB _) fun d s2 h2 => rest h2)

end
end Verif.Lexer
