import Verif.Lemmas.ReadStrings
import Verif.Lemmas.LexMain
import Verif.Spec.WellRead
/-! What `yylex` gives is what its type says. -/
namespace Verif.Lexer
open Spec

/-- The value and the end of a token fit its type. -/
structure TG (D : Bytes) (t : Tok) (s : Lexer) : Prop where
  word : plainWord t = true → Utf8.valid (Val s) = true ∨ (t = .tLABEL ∧ 13 ∈ Val s ∧ 13 ∈ D)
  name : t = .tIDENTIFIER ∨ t = .tLABEL → Val s ≠ []
  nth : t = .tNTH_REF → ∃ c rest, Val s = c :: rest ∧ c.toNat < 128
  label : t = .tLABEL → tBegin s < tEnd s
  labelEnd : t = .tLABEL_END → tBegin s + 2 ≤ tEnd s

section
variable {D T : Bytes} {k : Nat} {s : Lexer} {t : Tok} {c : UInt8}

theorem TG.of_notName (h : notName t = true) (hv : plainWord t = true → Utf8.valid (Val s) = true) : TG D t s := by
  refine ⟨fun hw => .inl (hv hw), ?_, ?_, ?_, ?_⟩
  · rintro (rfl | rfl) <;> exact absurd h (by decide)
  all_goals (rintro rfl; exact absurd h (by decide))
theorem TG.end : TG D .END_OF_INPUT s := .of_notName (by rfl) fun h => absurd h (by decide)
theorem TG.of_wd (h : Wd t s) : TG D t s := .of_notName h.1 fun hw => (h.2 hw).valid
theorem TG.of_part (h : Part t) : TG D t s := .of_wd h.wd

theorem slice_ne_nil {D : Bytes} {p q : Nat} (h : p < q) (hp : p < D.length) : slice D p q ≠ [] := by
  intro e
  have := congrArg List.length e
  simp only [slice, List.length_take, List.length_drop, List.length_nil] at this
  omega

theorem Tx.val_ne (h : Tx D k s) : Val s ≠ [] := by
  unfold Val
  cases hv : s.lval with
  | some v => exact (h.lv v hv).1
  | none =>
    simp only [Option.getD_none, tBegin, tEnd, h.ls, h.le, h.tok]
    have h1 := h.mid.toGood.hi
    have h2 := h.mid.toGood.pend_le
    have h3 := h.past
    exact slice_ne_nil h3 (by omega)

theorem TG.of_vr (h : VrP D k t s) : TG D t s := by
  rcases h with rfl | h | ⟨rfl, h⟩
  · exact .end
  · exact .of_notName h.1 h.2
  · refine ⟨fun _ => .inl h.toFx.val.valid, ?_, fun _ => ?_, ?_, ?_⟩
    · rintro (h | h) <;> cases h
    · have h1 := h.toFx.val
      have h2 := h.val_ne
      cases hv : Val s with
      | nil => exact absurd hv h2
      | cons c r => rw [hv] at h1; exact ⟨c, r, rfl, h1 c (by simp)⟩
    · intro h; cases h
    · intro h; cases h

theorem TG.of_idp (h : IdP D T k t s) (hk : D[k]? = some c) (hT : T = [] ∨ c = 13) : TG D t s := by
  have hlen : k < D.length := (List.getElem?_eq_some_iff.1 hk).1
  rcases h with rfl | ⟨rfl, e, h1, h2, h3, h4, h5⟩ | ⟨h1, h2⟩ | ⟨h1, v, h2, h3, h4⟩
  · exact .end
  · have hv : Val s = T ++ slice D k e := by unfold Val; rw [h3]; rfl
    refine ⟨fun _ => ?_, fun _ => ?_, fun h => (by cases h), fun _ => ?_, fun h => (by cases h)⟩
    · rw [hv]
      rcases hT with rfl | rfl
      · exact .inl h2
      · refine .inr ⟨rfl, List.mem_append_right _ ?_, List.mem_of_getElem? hk⟩
        refine List.mem_of_getElem? (i := 0) ?_
        simp only [slice]
        rw [List.getElem?_take_of_lt (by omega), List.getElem?_drop]; exact hk
    · rw [hv]
      intro e'
      exact slice_ne_nil h1 hlen (List.append_eq_nil_iff.1 e').2
    · unfold tEnd; rw [h4]; exact h5
  · exact .of_notName h1 fun _ => h2
  · have hv : Val s = v := by unfold Val; rw [h2]; rfl
    refine ⟨fun _ => .inl (by rw [hv]; exact h4), fun _ => by rw [hv]; exact h3, ?_, ?_, ?_⟩ <;>
      (intro e; rw [e] at h1; rcases h1 with h | h | h <;> cases h)

theorem TG.of_stv (h : StV t s) : TG D t s := by
  rcases h with h | ⟨rfl, h⟩ | ⟨rfl, h, e⟩
  · exact .of_part h
  · refine ⟨fun _ => .inl h, ?_, fun h => (by cases h), fun h => (by cases h), fun h => (by cases h)⟩
    rintro (h | h) <;> cases h
  · refine ⟨fun h => absurd h (by decide), ?_, fun h => (by cases h), fun h => (by cases h), fun _ => ?_⟩
    · rintro (h | h) <;> cases h
    · unfold tEnd; rw [e]; exact h

theorem At.tx (h : At s c) (h10 : c ≠ 10) (hc : c.toNat < 128) (hl : LvA s) : Tx s.buffer.d.bytes s.buffer.ptok s := by
  obtain ⟨h1, h2, h3⟩ := h.plain h10
  refine ⟨⟨rfl, h.ls, h.le, hl, fun i hi1 hi2 => ⟨c, ?_, hc⟩⟩, h1, rfl, h.tok⟩
  rw [show i = s.buffer.ptok by omega]; exact h3

/-- A name starts with the character that was just read. -/
def Nam (D : Bytes) (c : UInt8) (s : Lexer) : Prop := ∃ k T, NmC D k k T c s ∧ D[k]? = some c ∧ (T = [] ∨ c = 13)

theorem At.nam {s' : Lexer} (h : At s c) (h10 : c ≠ 10) (hl : LvA s) (hb : BSame s.buffer s'.buffer) (hp : s'.buffer.ptok = s.buffer.ptok)
    (h1 : s'.lvalStart = s.lvalStart) (h2 : s'.lvalEnd = s.lvalEnd) (h3 : s'.lval = s.lval) (ht : s'.tokenbuf = [] ∨ c = 13) :
    Nam s.buffer.d.bytes c s' := by
  obtain ⟨k1, k2, k3⟩ := h.plain h10
  have hd : s'.buffer.d = s.buffer.d := by simp only [Buffer.d, hb.same.input]
  refine ⟨s.buffer.ptok, s'.tokenbuf, ⟨⟨by rw [hd], h1.trans h.ls, h2.trans h.le, hl.congr h3, hp⟩, hb.mid k1, hb.eofp.trans h.noeof, ?_, ?_, ?_, ?_⟩, k3, ht⟩
  · rw [hb.pcur, ← k2]; exact k3
  · rw [hb.pcur, ← k2, Nat.add_sub_cancel, slice_nil, List.append_nil]
  · rw [hb.pcur, ← k2, Nat.add_sub_cancel, slice_nil]; exact Utf8.valid_nil
  · rw [hb.pcur]; exact h.tok

/-- After one pass. -/
def DN (D : Bytes) (c : UInt8) (r : Next) (s : Lexer) : Prop := match r with
  | .tok t => TG D t s
  | .retry _ => LvA s
  | .ident => Nam D c s

theorem DN.of_op {r : Next} (h : OpN r s) : DN D c r s := by
  cases r with
  | tok t => exact TG.of_wd h
  | retry b => exact h
  | ident => exact absurd h (by exact id)

theorem lexUnderscore_pc (h : At s 95) (hl : LvA s) : Pc lexUnderscore (DN s.buffer.d.bytes 95) s := by
  unfold lexUnderscore Lexer.done
  have body : ∀ stop : Bool, Pc (do
      if stop then
        Lexer.modB fun b => { b with eofp := true }
        return .tok .END_OF_INPUT
      else
        Lexer.newtok
        return .ident) (DN s.buffer.d.bytes 95) s := by
    intro stop
    refine Pc.ite (fun _ => Pc.bind (Pc.mutB (Pc.pure .end))) fun _ => Pc.bind (Pc.modS (Pc.pure ?_))
    exact h.nam (by decide) hl (bsame_newtok _ _ _) rfl rfl rfl rfl (.inl rfl)
  refine Pc.bind (Pc.getB (Pc.ite (fun _ => Pc.bind (Pc.liftB fun r _ => body r)) fun _ => body false))

theorem lexOther_pc {b} (h : At s c) (h10 : c ≠ 10) (hl : LvA s) : Pc (lexOther c b) (DN s.buffer.d.bytes c) s := by
  unfold lexOther
  obtain ⟨hm, -, -⟩ := h.plain h10
  refine Pc.bind (Pc.of_wp (Wp.isIdentchar hm.pos fun r _ => Pc.ite (fun _ => ?_) fun _ => ?_))
  · refine Pc.bind (Pc.nu Nu.currentLoc fun l s1 h1 => Pc.bind (Pc.nu Nu.compileError fun _ s2 h2 => Pc.bind (Pc.mutB (Pc.pure ?_))))
    exact hl.congr (h2.lv.trans h1.lv)
  · exact Pc.bind (Pc.modS (Pc.pure (h.nam h10 hl (bsame_newtok _ _ _) rfl rfl rfl rfl (.inl rfl))))

theorem lexCr_pc (h : At s 13) (hl : LvA s) : Pc lexCr (DN s.buffer.d.bytes 13) s := by
  unfold lexCr
  refine Pc.bind (Pc.getB (Pc.ite (fun _ => ?_) fun _ => Pc.pure (h.nam (by decide) hl (.refl _) rfl rfl rfl rfl (.inr rfl))))
  refine Pc.bind (Pc.mutB (Pc.bind (Pc.nu Nu.currentLoc fun l s1 h1 => Pc.bind (Pc.nu Nu.warn fun _ s2 h2 => Pc.pure ?_))))
  have h3 := h1.trans h2
  refine h.nam (by decide) hl ?_ (by rw [h3.buf]) h3.ls h3.le h3.lv (.inr rfl)
  rw [h3.buf]
  exact ⟨⟨rfl, rfl, rfl, rfl, rfl, rfl, rfl, rfl⟩, rfl, rfl⟩

theorem dispatch_pc {x : Ext} {sp cmd ts : Bool} {l : LexState} (h : At s c) (hl : LvA s) :
    Pc (dispatch x c sp l cmd ts) (DN s.buffer.d.bytes c) s := by
  unfold dispatch
  have tx : ∀ {d : UInt8}, c = d → d ≠ 10 → d.toNat < 128 → Tx s.buffer.d.bytes s.buffer.ptok s := fun e h1 h2 => h.tx (e ▸ h1) (e ▸ h2) hl
  have op : ∀ {y : LexM Next}, Pc y OpN s → Pc y (DN s.buffer.d.bytes c) s := fun hy => hy.mono fun _ _ => .of_op
  have wd : ∀ {y : LexM Tok}, Pc y Wd s → Pc (do Pure.pure (Next.tok (← y))) (DN s.buffer.d.bytes c) s :=
    fun hy => Pc.bind (hy.mono fun _ _ h => Pc.pure (TG.of_wd h))
  have vr : ∀ {y : LexM Tok}, Pc y (VrP s.buffer.d.bytes s.buffer.ptok) s → Pc (do Pure.pure (Next.tok (← y))) (DN s.buffer.d.bytes c) s :=
    fun hy => Pc.bind (hy.mono fun _ _ h => Pc.pure (TG.of_vr h))
  refine Pc.ite (fun _ => Pc.pure TG.end) (fun _ => ?_)
  refine Pc.ite (fun e => by subst e; exact lexCr_pc h hl) (fun _ => ?_)
  refine Pc.ite (fun _ => Pc.pure hl) (fun _ => ?_)
  refine Pc.ite (fun e => op (lexComment_pc hl)) (fun _ => ?_)
  refine Pc.ite (fun e => op (lexNewline_pc hl)) (fun h10 => ?_)
  have hpc : s.buffer.pcur = s.buffer.ptok + 1 := ((h.plain h10).2.1).symm
  refine Pc.ite (fun e => op (lexStar_pc (tx e (by decide) (by decide)))) (fun _ => ?_)
  refine Pc.ite (fun e => op (lexBang_pc (tx e (by decide) (by decide)))) (fun _ => ?_)
  refine Pc.ite (fun e => op (lexEq_pc (tx e (by decide) (by decide)))) (fun _ => ?_)
  refine Pc.ite (fun e => op (lexLt_pc (tx e (by decide) (by decide)) (h.cast e) ((h.cast e).plain (by decide)).2.2)) (fun _ => ?_)
  refine Pc.ite (fun e => op (lexGt_pc (tx e (by decide) (by decide)))) (fun _ => ?_)
  refine Pc.ite (fun e => op lexQuote_pc) (fun _ => ?_)
  refine Pc.ite (fun e => op (lexBacktick_pc (tx e (by decide) (by decide)))) (fun _ => ?_)
  refine Pc.ite (fun e => op lexQuote_pc) (fun _ => ?_)
  refine Pc.ite (fun e => wd (parseQmark_pc (tx e (by decide) (by decide)))) (fun _ => ?_)
  refine Pc.ite (fun e => op (lexAmp_pc (tx e (by decide) (by decide)))) (fun _ => ?_)
  refine Pc.ite (fun e => op (lexPipe_pc (tx e (by decide) (by decide)))) (fun _ => ?_)
  refine Pc.ite (fun e => op (lexPlus_pc (tx e (by decide) (by decide)))) (fun _ => ?_)
  refine Pc.ite (fun e => op (lexMinus_pc (tx e (by decide) (by decide)))) (fun _ => ?_)
  refine Pc.ite (fun e => op (lexDot_pc (tx e (by decide) (by decide)))) (fun _ => ?_)
  refine Pc.ite (fun e => wd ((parseNumeric_pc hl (.inr (.inr (.inl e)))).mono fun _ _ h => h.wd)) (fun _ => ?_)
  refine Pc.ite (fun e => op (lexClose_pc (tx e (by decide) (by decide)) rfl)) (fun _ => ?_)
  refine Pc.ite (fun e => op (lexClose_pc (tx e (by decide) (by decide)) rfl)) (fun _ => ?_)
  refine Pc.ite (fun e => op (lexRcurly_pc (tx e (by decide) (by decide)))) (fun _ => ?_)
  refine Pc.ite (fun e => op (lexColon_pc (tx e (by decide) (by decide)))) (fun _ => ?_)
  refine Pc.ite (fun e => op (lexSlash_pc (tx e (by decide) (by decide)))) (fun _ => ?_)
  refine Pc.ite (fun e => op (lexCaret_pc (tx e (by decide) (by decide)))) (fun _ => ?_)
  refine Pc.ite (fun e => op (lexSemi_pc (tx e (by decide) (by decide)))) (fun _ => ?_)
  refine Pc.ite (fun e => op (lexComma_pc (tx e (by decide) (by decide)))) (fun _ => ?_)
  refine Pc.ite (fun e => op (lexTilde_pc (tx e (by decide) (by decide)))) (fun _ => ?_)
  refine Pc.ite (fun e => op (lexLparen_pc (tx e (by decide) (by decide)))) (fun _ => ?_)
  refine Pc.ite (fun e => op (lexLbrack_pc (tx e (by decide) (by decide)))) (fun _ => ?_)
  refine Pc.ite (fun e => op (lexLcurly_pc (tx e (by decide) (by decide)))) (fun _ => ?_)
  refine Pc.ite (fun e => op (lexBackslash_pc (tx e (by decide) (by decide)))) (fun _ => ?_)
  refine Pc.ite (fun e => wd (parsePercent_pc (tx e (by decide) (by decide)))) (fun _ => ?_)
  refine Pc.ite (fun e => vr (parseGvar_pc (tx e (by decide) (by decide)) hpc)) (fun _ => ?_)
  refine Pc.ite (fun e => vr (parseAtmark_pc (tx e (by decide) (by decide)) hpc)) (fun _ => ?_)
  refine Pc.ite (fun e => by subst e; exact lexUnderscore_pc h hl) (fun _ => ?_)
  exact lexOther_pc h h10 hl

theorem yylexLoop_pc {x : Ext} {cmd ts : Bool} : ∀ n sp (s : Lexer), Plain0 s → LvA s → s.buffer.d.bytes = D → Pc (yylexLoop x cmd ts n sp) (TG D) s := by
  intro n
  induction n with
  | zero => intro sp s _ _ _; exact Pc.fail
  | succ n ih =>
    intro sp s h hl hD
    unfold yylexLoop
    refine Pc.bind (Pc.getS (Pc.bind ?_))
    have hl1 : LvA s := hl
    intro u s1 e1
    have hl1 : LvA s1 := hl.congr (Tn.tokenFlush s u s1 e1).1
    obtain ⟨h1, h2, h3⟩ := Pc.of_wp (Wp.tokenFlush (Q := fun _ s' => Loc s s' ∧ BSame s.buffer s'.buffer ∧ s'.buffer.ptok = s.buffer.pcur)
      fun s' a b c => ⟨a, b, c⟩) u s1 e1
    have hp1 : Plain0 s1 := ⟨h2.good h.good, h1.2.1.trans h.st, h1.2.2.1.trans h.ls, h1.2.2.2.1.trans h.le,
      by rw [h2.same.input]; exact h.dec, h.small.loc h1⟩
    refine Pc.bind ?_
    intro c s2 e2
    have hl2 : LvA s2 := by obtain ⟨b, -, rfl⟩ := nextc_eq e2; exact hl1
    obtain ⟨b0, hr⟩ := Pc.of_wp (Wp.nextcG (Q := fun c s' => ∃ b0, RdG s1 b0 c s') hp1.good fun b0 c s' h => ⟨b0, h⟩) c s2 e2
    cases c with
    | none => exact Pc.pure .end
    | some ch =>
      have hat := hp1.at (by rw [h3, h2.pcur]) hr
      have ha2 : Adv s.buffer s2.buffer := h1.adv.trans hr.fw.1.adv
      have hD2 : s2.buffer.d.bytes = D := by rw [← hD]; simp only [Buffer.d, ha2.input]
      refine Pc.bind (((Pc.of_wp (dispatch_wp hat)).and (dispatch_pc hat hl2)).mono ?_)
      rintro r s3 ⟨⟨hc3, hx⟩, hd⟩
      rw [hD2] at hd
      cases r with
      | tok t => exact Pc.pure hd
      | retry b =>
        have hx : RetryOk s2 s3 := hx
        have ha3 := ha2.trans hx.adv
        refine ih b s3 ⟨hx.good, hx.st, hx.ls, hx.le, ?_, ?_⟩ hd (by rw [← hD]; simp only [Buffer.d, ha3.input])
        · rw [ha3.input]; exact h.dec
        · have := h.small; unfold Small Buffer.d at *; rw [ha3.input]; exact this
      | ident =>
        obtain ⟨k, T, k1, k2, k3⟩ := hd
        exact (parseIdent_pc k1).mono fun t s' h => .of_idp h k2 k3

theorem parserYylex_pc {x : Ext} (h : Inv s) (hl : LitOk s) (hv : s.lval = none) : Pc (parserYylex x) (TG s.buffer.d.bytes) s := by
  unfold parserYylex
  refine Pc.bind (Pc.getS ?_)
  cases hs : s.strterm with
  | none =>
    refine Pc.bind (Pc.getS (Pc.bind (Pc.getS (Pc.bind (Pc.modS (Pc.bind (Pc.fuel fun n => ?_)))))))
    exact yylexLoop_pc _ _ _ ⟨h.good, hs, h.ls, h.le, h.dec, h.small⟩ (fun v e => by rw [show _ = s.lval from rfl, hv] at e; cases e) rfl
  | some st =>
    cases st with
    | string l =>
      refine Pc.bind (Pc.mutB ?_)
      have hg : Good s.buffer.tokenFlush := { h.good with }
      exact (parseString_pc (s := { s with buffer := s.buffer.tokenFlush }) hg (hl _ hs) hv h.le).mono fun _ _ h => TG.of_stv h
    | heredoc here => exact Pc.ofRet hereDocument_ret fun _ _ h => .of_part h

/-- In a heredoc there are only parts of literals. -/
theorem parserYylex_part {x : Ext} (hs : ∃ h, s.strterm = some (.heredoc h)) : Pc (parserYylex x) (fun t _ => Part t) s := by
  obtain ⟨h, hs⟩ := hs
  unfold parserYylex
  refine Pc.bind (Pc.getS ?_)
  rw [hs]
  exact Pc.ofRet hereDocument_ret fun _ _ h => h

theorem _root_.Verif.Grammar.WellRead.of_notName {t : Token} (h : notName t.tokenType = true) (hv : t.tokenType.isWord = true → Utf8.valid t.tokenValue = true) :
    Grammar.WellRead t := by
  refine ⟨hv, ?_, ?_, ?_, ?_, ?_⟩
  · rintro (e | e) <;> (rw [e] at h; exact absurd h (by decide))
  all_goals (intro e; rw [e] at h; exact absurd h (by decide))

/-- The token that `yylex` gives. -/
theorem yylex_pc {x : Ext} (h : Inv s) (hl : LitOk s) (hn : s.buffer.d.bytes.length + 1 < 2 ^ 31) :
    Pc (yylex x) (fun t _ => t.tokenType ≠ .END_OF_INPUT → Grammar.WellRead t ∨ (t.tokenType = .tLABEL ∧ 13 ∈ t.tokenValue ∧ 13 ∈ s.buffer.d.bytes)) s := by
  unfold yylex
  refine Pc.bind (Pc.modS (Pc.bind ?_))
  generalize hs1 : ({ s with lval := none } : Lexer) = s1
  have hsame : Same s s1 := by rw [← hs1]; exact ⟨rfl, rfl, rfl, rfl, rfl, rfl⟩
  have hp : Inv s1 := ⟨by rw [hsame.1]; exact h.good, by rw [hsame.1, hsame.2.1]; exact h.st, hsame.2.2.1.trans h.ls, hsame.2.2.2.1.trans h.le,
      by rw [hsame.1]; exact h.dec, by rw [hsame.1]; exact h.small⟩
  have hl1 : LitOk s1 := by rw [← hs1]; exact hl
  intro t s2 e
  obtain ⟨-, hst⟩ := Pc.of_wp (parserYylex_wp hp) t s2 e
  have htg := parserYylex_pc hp hl1 (by rw [← hs1]) t s2 e
  rw [hsame.1] at htg
  have hpt : (∃ h, s1.strterm = some (.heredoc h)) → Part t := fun hh => parserYylex_part hh t s2 e
  have fin : ∀ (v : Bytes) (s3 : Lexer), (¬ Part t → t ≠ .END_OF_INPUT → v = Val s2) → Pc (do
      Lexer.modS fun s => { s with lval := none }
      if t = .tNL then return ⟨t, [10], ⟨tBegin s2, tBegin s2 + 1⟩⟩
      else return ⟨t, v, ⟨tBegin s2, tEnd s2⟩⟩)
      (fun t _ => t.tokenType ≠ .END_OF_INPUT → Grammar.WellRead t ∨ (t.tokenType = .tLABEL ∧ 13 ∈ t.tokenValue ∧ 13 ∈ s.buffer.d.bytes)) s3 := by
    intro v s3 hv
    refine Pc.bind (Pc.modS (Pc.ite (fun ht => Pc.pure fun _ => .inl ?_) fun hnl => Pc.pure fun hne => ?_))
    · subst ht
      exact .of_notName (by rfl) fun _ => Utf8.valid_ascii1 (by decide)
    · have hne : t ≠ .END_OF_INPUT := hne
      by_cases hpart : Part t
      · refine .inl (.of_notName hpart.1 fun hw => ?_)
        have := hpart.2
        simp only [plainWord, Bool.and_eq_false_iff, bne_eq_false_iff_eq] at this
        rcases this with (h | h) | h
        · rw [show t.isWord = true from hw] at h; cases h
        · exact absurd h hne
        · exact absurd h hnl
      have hv := hv hpart hne
      subst hv
      have hst := hst.resolve_left hne
      have hloc : notName t = false → tBegin s2 ≤ tEnd s2 ∧ tEnd s2 ≤ s.buffer.d.bytes.length := by
        intro hnn
        have := hst.loc
        rw [LocOk, hsame.1] at this
        rcases this with h | ⟨hh, -⟩
        · exact h
        · rw [(hpt hh).1] at hnn; cases hnn
      by_cases hcr : t = .tLABEL ∧ 13 ∈ Val s2 ∧ 13 ∈ s.buffer.d.bytes
      · exact .inr hcr
      refine .inl ⟨fun hw => ?_, htg.name, htg.nth, fun e => ⟨Nat.lt_of_le_of_lt (Nat.zero_le _) (htg.label e), ?_⟩, fun e => Nat.le_trans (Nat.le_add_left _ _) (htg.labelEnd e), fun e => ?_⟩
      · refine (htg.word ?_).resolve_right hcr
        simp only [plainWord, Bool.and_eq_true, bne_iff_ne, ne_eq]
        exact ⟨⟨hw, hne⟩, hnl⟩
      · have := hloc (by rw [show t = .tLABEL from e]; rfl)
        show tEnd s2 < _
        omega
      · have := hloc (by rw [show t = .tREGEXP_END from e]; rfl)
        show tBegin s2 ≤ tEnd s2 ∧ tBegin s2 + 1 < _
        omega
  refine Pc.bind (Pc.getS (Pc.bind (Pc.getS (Pc.bind (Pc.modS (Pc.bind (Pc.getS ?_)))))))
  dsimp only
  cases hlv : s2.lval with
  | some v => exact fin v _ fun _ _ => by unfold Val; rw [hlv]; rfl
  | none =>
    obtain ⟨r, hr, hr2⟩ := substrAt_total s2.buffer (tBegin s2) (tEnd s2)
    refine Pc.bind (Pc.map (Pc.liftB fun a ha => ?_))
    have ha : s2.buffer.substrAt (tBegin s2) (tEnd s2) = .ok a := ha
    rw [hr] at ha; cases ha
    refine fin _ _ fun hpart hne => ?_
    unfold Val
    rw [hlv, Option.getD_none]
    have hst := hst.resolve_left hne
    have hd : s2.buffer.d = s1.buffer.d := by simp only [Buffer.d, hst.adv.input]
    rcases hst.loc with h | ⟨hh, -⟩
    · rw [if_pos ⟨h.1, by rw [hd]; exact h.2⟩] at hr2
      rw [hr2]; rfl
    · exact absurd (hpt hh) hpart

/-- Labels and the ends of quoted labels are not empty. -/
def LabelSized (t : Token) : Prop :=
  (t.tokenType = .tLABEL → t.loc.begin + 1 ≤ t.loc.stop) ∧ (t.tokenType = .tLABEL_END → t.loc.begin + 2 ≤ t.loc.stop)

theorem yylex_sized {x : Ext} (h : Inv s) (hl : LitOk s) : Pc (yylex x) (fun t _ => LabelSized t) s := by
  unfold yylex
  refine Pc.bind (Pc.modS (Pc.bind ?_))
  generalize hs1 : ({ s with lval := none } : Lexer) = s1
  have hsame : Same s s1 := by rw [← hs1]; exact ⟨rfl, rfl, rfl, rfl, rfl, rfl⟩
  have hp : Inv s1 := ⟨by rw [hsame.1]; exact h.good, by rw [hsame.1, hsame.2.1]; exact h.st, hsame.2.2.1.trans h.ls, hsame.2.2.2.1.trans h.le,
      by rw [hsame.1]; exact h.dec, by rw [hsame.1]; exact h.small⟩
  have hl1 : LitOk s1 := by rw [← hs1]; exact hl
  intro t s2 e
  have htg := parserYylex_pc hp hl1 (by rw [← hs1]) t s2 e
  have fin : ∀ (v : Bytes) (s3 : Lexer), Pc (do
      Lexer.modS fun s => { s with lval := none }
      if t = .tNL then return ⟨t, [10], ⟨tBegin s2, tBegin s2 + 1⟩⟩
      else return ⟨t, v, ⟨tBegin s2, tEnd s2⟩⟩) (fun t _ => LabelSized t) s3 := by
    intro v s3
    refine Pc.bind (Pc.modS (Pc.ite (fun ht => Pc.pure ?_) fun _ => Pc.pure ⟨htg.label, htg.labelEnd⟩))
    subst ht
    exact ⟨fun h => (by cases h), fun h => (by cases h)⟩
  refine Pc.bind (Pc.getS (Pc.bind (Pc.getS (Pc.bind (Pc.modS (Pc.bind (Pc.getS ?_)))))))
  dsimp only
  cases hlv : s2.lval with
  | some v => exact fin v _
  | none => exact Pc.bind (Pc.map (Pc.liftB fun a _ => fin _ _))
end
end Verif.Lexer
