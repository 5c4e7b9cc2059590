import Verif.Lemmas.LexDispatch
/-! One call of `yylex`. -/
namespace Verif.Lexer
variable {s : Lexer}

theorem TokOk.mono {p q k : Nat} {a b s' : Lexer} {t : Tok} (h : TokOk p k b t s') (ha : Adv a.buffer b.buffer)
    (hs : Straight a.buffer → Straight b.buffer) (hp : Straight a.buffer → q ≤ p) : TokOk q k a t s' := by
  have hd : b.buffer.d = a.buffer.d := by simp only [Buffer.d, ha.input]
  exact ⟨ha.trans h.adv, h.good, h.st, h.le, hd ▸ h.hi, hd ▸ h.nl, hd ▸ h.meas, fun h1 => (h.ord (hs h1)).mono (hp h1)⟩

/-- What holds of the lexer outside of string literals. -/
structure Plain0 (s : Lexer) : Prop where
  good : Good s.buffer
  st : s.strterm = none
  ls : s.lvalStart = none
  le : s.lvalEnd = none
  dec : s.buffer.input.DecOk
  small : Small s.buffer

theorem Plain0.at {s1 s2 : Lexer} {b0 : Buffer} {ch : UInt8} (h : Plain0 s1) (hp : s1.buffer.ptok = s1.buffer.pcur)
    (hr : RdG s1 b0 (some ch) s2) : At s2 ch := by
  obtain ⟨h3, h4⟩ := hr.isSome ch rfl
  have hin : s2.buffer.input = s1.buffer.input := hr.fw.1.input
  have h0 : b0.ptok = b0.pcur := by
    rcases hr.src with e | e | e
    · rw [e]; exact hp
    · rw [e]; exact hp
    · exact e.ptok
  have h1 : s2.buffer.ptok = b0.pcur := by rw [h4.eq]; exact h0
  have hd : s2.buffer.d = b0.d := by simp only [Buffer.d, h4.same.input]
  refine ⟨hr.good, hr.noeof, hr.nonl, hr.pos, ?_, by rw [h1]; exact h4.lt, ?_, ?_, ?_, ?_, ?_, ?_, ?_, ?_⟩
  · rw [h1, h4.same.pbeg]; exact hr.good0.lo
  · rw [h1, h4.same.pbeg, hd]
    intro h5 h6
    have h7 := h4.lt; have h8 := h4.good.hi; have h9 := h4.same.pend
    exact hr.good0.ns h5 (by omega) h6
  · intro hne
    obtain ⟨h5, h6⟩ := h4.byte hne
    exact ⟨hr.mid hne, by rw [h1, h5], by rw [h1, hd]; exact h6⟩
  · intro e; exact (h4.lf e).1
  · exact hr.same_fr.1.trans h.st
  · exact hr.same_fr.2.1.trans h.ls
  · exact hr.same_fr.2.2.1.trans h.le
  · have := h.small; unfold Small Buffer.d at *; rw [hin]; exact this
  · rw [hin]; exact h.dec

/-- After the retry loop. -/
def LoopPost (s : Lexer) (t : Tok) (s' : Lexer) : Prop :=
  Com s s' ∧ (t = .END_OF_INPUT ∨ ∃ k, k < s.buffer.R ∧ TokOk (front s.buffer) k s t s')

theorem LoopPost.mono {a b s' : Lexer} {t : Tok} (h : LoopPost b t s') (ha : Adv a.buffer b.buffer) (hc : Com a b)
    (hR : b.buffer.R ≤ a.buffer.R) (hs : Straight a.buffer → Straight b.buffer ∧ front a.buffer ≤ front b.buffer) : LoopPost a t s' := by
  refine ⟨hc.trans ha.input h.1, h.2.imp id ?_⟩
  rintro ⟨k, h1, h2⟩
  exact ⟨k, by omega, h2.mono ha (fun h => (hs h).1) fun h => (hs h).2⟩

theorem yylexLoop_wp {x : Ext} {cmd ts : Bool} : ∀ n sp (s : Lexer), Plain0 s → s.buffer.R + 2 ≤ n →
    Wp (yylexLoop x cmd ts n sp) (LoopPost s) s := by
  intro n
  induction n with
  | zero => intro sp s _ h; omega
  | succ n ih =>
    intro sp s h hf
    unfold yylexLoop
    refine Wp.bind (Wp.getS ?_)
    refine Wp.bind (Wp.tokenFlush ?_)
    intro s1 h1 h2 h3
    have hp1 : Plain0 s1 := ⟨h2.good h.good, h1.2.1.trans h.st, h1.2.2.1.trans h.ls, h1.2.2.2.1.trans h.le,
      by rw [h2.same.input]; exact h.dec, h.small.loc h1⟩
    refine Wp.bind (Wp.nextcG hp1.good ?_)
    intro b0 c s2 hr
    cases c with
    | none => exact Wp.pure ⟨(h1.2.trans hr.same_fr).com, .inl rfl⟩
    | some ch =>
      have hat := hp1.at (by rw [h3, h2.pcur]) hr
      have hR2 := hr.meas
      have hR1 := h2.R
      have ha2 : Adv s.buffer s2.buffer := h1.adv.trans hr.fw.1.adv
      have hc2 : Com s s2 := (h1.2.trans hr.same_fr).com
      have hst : Straight s.buffer → Straight s2.buffer := fun h4 => hr.fw.1.str (h4.same h2.same)
      have hfr : front s.buffer ≤ s2.buffer.ptok := by
        obtain ⟨h4, h5⟩ := hr.isSome ch rfl
        have e5 : s2.buffer.ptok = b0.ptok := by rw [h5.eq]
        unfold front
        rcases hr.src with e | e | e
        · rw [e] at h4 e5
          rw [if_pos (by rw [← h2.same.nextline]; exact h4)]
          omega
        · rw [e] at h4 e5
          rw [if_pos (by rw [← h2.same.nextline]; exact h4)]
          show _ ≤ s2.buffer.ptok
          rw [e5]; show _ ≤ s1.buffer.ptok; omega
        · rw [e5, e.ptok]
          have := e.after; have := h2.same.pend; have := h.good.hi
          split <;> omega
      refine Wp.bind ((dispatch_wp hat).mono ?_)
      intro r s3 hd
      obtain ⟨hc3, hx⟩ := hd
      have hc : Com s s3 := hc2.trans ha2.input hc3
      cases r with
      | tok t =>
        refine Wp.pure ⟨hc, hx.imp id fun h4 => ⟨_, ?_, h4.mono ha2 hst fun _ => hfr⟩⟩
        omega
      | retry b =>
        have hx : RetryOk s2 s3 := hx
        have ha3 := ha2.trans hx.adv
        refine (ih b s3 ⟨hx.good, hx.st, hx.ls, hx.le, ?_, ?_⟩ ?_).mono fun t s' h4 => h4.mono ha3 hc ?_ ?_
        · rw [ha3.input]; exact h.dec
        · have := h.small; unfold Small Buffer.d at *; rw [ha3.input]; exact this
        · have := hx.meas; omega
        · have := hx.meas; omega
        · intro h5; exact ⟨(hx.ord (hst h5)).1, Nat.le_trans hfr (hx.ord (hst h5)).2⟩
      | ident =>
        have hx : IdentOk s2 s3 := hx
        have ha3 := ha2.trans hx.adv
        refine (((parseIdent_wp hx.mid fun _ => hx.noeof).ret Ret.parseIdent).quiet Quiet.parseIdent).mono ?_
        rintro t s4 ⟨⟨h4, h5⟩, h6, h7⟩
        refine ⟨hc.trans ha3.input (.of_eq h6 h7), h4.imp id ?_⟩
        rintro ⟨h8, h9⟩
        have e1 : s4.strterm = none := h8.2.1.trans hx.st
        have e2 : s4.lvalStart = none := h8.2.2.1.trans hx.ls
        have e3 : s4.lvalEnd = none := h8.2.2.2.1.trans hx.le
        have hd4 : s4.buffer.d = s3.buffer.d := by simp only [Buffer.d, h8.1.same.input]
        refine ⟨s3.buffer.R, by have := hx.meas; omega, TokOk.mono (b := s3) (p := tBegin s4) ?_ ha3 (fun h => (hx.ord (hst h)).1) fun h => ?_⟩
        rotate_left
        · obtain ⟨_, h10, h11⟩ := hx.ord (hst h)
          unfold tBegin; rw [e2]
          exact Nat.le_trans hfr (h8.1.low _ h10 h11)
        refine ⟨h8.adv, h9, by rw [e1]; trivial, ?_, ?_, fun e => absurd e h5, ?_, fun h10 => ⟨h10.same h8.1.same, Nat.le_refl _, .inl ⟨h5, ?_, .inr ?_⟩, ?_, ?_⟩⟩
        · unfold tBegin tEnd; rw [e2, e3]; exact h8.1.ptok hx.ptok
        · unfold tEnd; rw [e3, ← hd4]; exact Good.pcur_le h9
        · rw [e1]; have := h8.1.meas; simp only [stW]; omega
        · rw [h8.1.same.nextline]; exact hx.mid.nonl
        · unfold tEnd; rw [e3]; exact Nat.le_refl _
        · intro l e; rw [e1] at e; cases e
        · intro l e; rw [e1] at e; cases e

/-- What holds of the lexer between calls of `yylex`. -/
structure Inv (s : Lexer) : Prop where
  good : Good s.buffer
  st : StOk s.buffer s.strterm
  ls : s.lvalStart = none
  le : s.lvalEnd = none
  dec : s.buffer.input.DecOk
  small : Small s.buffer

/-- What is left to do. -/
def Phi (s : Lexer) : Nat := s.buffer.R + stW s.buffer.d s.strterm

/-- Where a token may lie; the exceptions are heredocs. -/
def LocOk (s : Lexer) (t : Tok) (b e : Nat) (s' : Lexer) : Prop :=
  (b ≤ e ∧ e ≤ s.buffer.d.bytes.length) ∨
  ((∃ h, s.strterm = some (.heredoc h)) ∧ ((∃ id l, s'.diagnostics.getLast? = some ⟨.error, .UnterminatedHeredoc id, l⟩) ∨
    (b ≤ e ∧ t = .tSTRING_CONTENT ∧ e = s.buffer.d.bytes.length + 1)))

/-- The state is not in or after a here document. -/
structure Simple (s : Lexer) : Prop where
  str : Straight s.buffer
  here : ∀ h, s.strterm ≠ some (.heredoc h)
  lit : ∀ l, s.strterm = some (.string l) → l.heredocEnd = none ∧ s.buffer.nextline = 0

/-- After a token other than the end of input. -/
structure Step (s : Lexer) (t : Tok) (s' : Lexer) : Prop where
  adv : Adv s.buffer s'.buffer
  good : Good s'.buffer
  st : StOk s'.buffer s'.strterm
  meas : Phi s' < Phi s
  loc : LocOk s t (tBegin s') (tEnd s') s'
  nl : t = .tNL → tBegin s' < s.buffer.d.bytes.length
  ord : Simple s → Ord (front s.buffer) t s'

theorem StOk.adv {b b' : Buffer} {t : Option StrTerm} (h : StOk b t) (ha : Adv b b') : StOk b' t := by
  have hd : b'.d = b.d := by simp only [Buffer.d, ha.input]
  cases t with
  | none => trivial
  | some t =>
    cases t with
    | string l => intro e he; rw [hd]; exact h e he
    | heredoc x => exact ⟨hd ▸ h.1, h.2.adv ha⟩

theorem parserYylex_wp {x : Ext} (h : Inv s) :
    Wp (parserYylex x) (fun t s' => Com s s' ∧ (t = .END_OF_INPUT ∨ Step s t s')) s := by
  unfold parserYylex
  refine Wp.bind (Wp.getS ?_)
  have hst := h.st
  cases hs : s.strterm with
  | none =>
    dsimp only
    refine Wp.bind (Wp.getS ?_)
    refine Wp.bind (Wp.getS ?_)
    refine Wp.bind (Wp.modS ?_)
    refine Wp.bind (Wp.fuel ?_)
    generalize hs1 : ({ s with commandStart := false, tokenSeen := true } : Lexer) = s1
    have hsame : Same s s1 := by rw [← hs1]; exact ⟨rfl, rfl, rfl, rfl, rfl, rfl⟩
    have hp : Plain0 s1 := ⟨by rw [hsame.1]; exact h.good, hsame.2.1.trans hs, hsame.2.2.1.trans h.ls, hsame.2.2.2.1.trans h.le,
      by rw [hsame.1]; exact h.dec, by rw [hsame.1]; exact h.small⟩
    refine (yylexLoop_wp _ false s1 hp ?_).mono ?_
    · have := fuel_ok (b := s1.buffer) hp.good rfl; omega
    rintro t s' ⟨h1, h2⟩
    refine ⟨hsame.fw.2.com.trans (by rw [hsame.1]) h1, h2.imp id ?_⟩
    rintro ⟨k, h3, h4⟩
    have h4 := h4.mono (a := s) (q := front s.buffer) hsame.fw.1.adv (by rw [hsame.1]; exact id) (by rw [hsame.1]; exact fun _ => Nat.le_refl _)
    have hd' : s'.buffer.d = s.buffer.d := by simp only [Buffer.d, h4.adv.input]
    refine ⟨h4.adv, h4.good, h4.st, ?_, .inl ⟨h4.le, h4.hi⟩, h4.nl, fun h5 => h4.ord h5.str⟩
    have := h4.meas
    unfold Phi; rw [hs, hd']; rw [hsame.1] at h3; simp only [stW] at *; omega
  | some st =>
    rw [hs] at hst
    cases st with
    | string l =>
      dsimp only
      refine Wp.bind (Wp.tokenFlush ?_)
      intro s1 h1 h2 h3
      refine ((parseString_wp (h2.good h.good)).ret Ret.parseString).mono ?_
      rintro t s' ⟨h4, h5⟩
      have ha : Adv s.buffer s'.buffer := h1.adv.trans h4.fw.adv
      have hd : s'.buffer.d = s.buffer.d := by simp only [Buffer.d, ha.input]
      refine ⟨.of_eq (h4.com.trans h1.2.2.2.2.1) (h4.mag.trans h1.2.2.2.2.2), .inr ⟨ha, h4.good, ?_, ?_, .inl ?_, fun e => absurd e h5, fun hsim => ?_⟩⟩
      · rcases h4.next with ⟨h6, _⟩ | ⟨l', h6, h7, _⟩
        · rw [h6]; trivial
        · rw [h6]; intro e he; rw [h7] at he; rw [hd]; exact hst e he
      · have hR := h2.R
        unfold Phi
        rw [hs, hd]
        rcases h4.next with ⟨h6, h8⟩ | ⟨l', h6, h7, h8⟩
        · rw [h6]; simp only [stW]; omega
        · rw [h6]; simp only [stW]; omega
      · unfold tBegin tEnd
        rcases h4.loc with ⟨h6, h7⟩ | ⟨e, h6, h7, h8⟩
        · rw [h6, h7, h1.2.2.2.1, h.le]
          refine ⟨h4.fw.pcur, ?_⟩
          rw [← hd]; exact Good.pcur_le h4.good
        · rw [h7, h8]; exact hst e h6
      · obtain ⟨h6, h7⟩ := hsim.lit l hs
        have hn : s'.buffer.nextline = 0 := by
          rcases h4.fw.nl with e | e
          · exact e
          · rw [e, h2.same.nextline]; exact h7
        have hloc : s'.lvalStart = some s1.buffer.pcur ∧ s'.lvalEnd = s1.lvalEnd := by
          rcases h4.loc with h8 | ⟨e, h8, _⟩
          · exact h8
          · rw [h6] at h8; cases h8
        have hlit : ∀ l', s'.strterm = some (.string l') → l'.heredocEnd = none := by
          intro l' e
          rcases h4.next with ⟨h8, _⟩ | ⟨l2, h8, h9, _⟩
          · rw [h8] at e; cases e
          · rw [h8] at e; cases e; rw [h9]; exact h6
        have hnh : ∀ h, s'.strterm ≠ some (.heredoc h) := by
          intro h e
          rcases h4.next with ⟨h8, _⟩ | ⟨l2, h8, h9, _⟩
          · rw [h8] at e; cases e
          · rw [h8] at e; cases e
        refine ⟨h4.fw.str (hsim.str.same h2.same), ?_, .inl ⟨h5, hn, .inr ?_⟩, hlit, fun h e => absurd e (hnh h)⟩
        · unfold tBegin front; rw [hloc.1, if_pos h7]; show _ ≤ s1.buffer.pcur; rw [h2.pcur]; exact Nat.le_refl _
        · unfold tEnd; rw [hloc.2, h1.2.2.2.1, h.le]; exact Nat.le_refl _
    | heredoc here =>
      dsimp only
      refine ((hereDocument_wp h.good hst.1 hst.2 h.le).ret Ret.hereDocument).mono ?_
      rintro t s' ⟨h4, h5⟩
      have ha := h4.adv
      have hd : s'.buffer.d = s.buffer.d := by simp only [Buffer.d, ha.input]
      refine ⟨.of_eq h4.com h4.mag, .inr ⟨ha, h4.good, ?_, ?_, ?_, fun e => absurd e h5, fun hsim => absurd hs (hsim.here _)⟩⟩
      · rcases h4.next with ⟨h6, _⟩ | ⟨h6, _⟩ | ⟨l, e, h6, h7, h8, _⟩
        · rw [h6]; exact h.st.adv ha
        · rw [h6]; trivial
        · rw [h6]; intro e' he'; rw [h7] at he'; cases he'; rw [hd]; exact h8
      · unfold Phi
        rw [hs, hd]
        rcases h4.next with ⟨h6, h7⟩ | ⟨h6, h7⟩ | ⟨l, e, h6, _, _, h7⟩
        · rw [h6, hs]; omega
        · rw [h6]; simp only [stW]; omega
        · rw [h6]; simp only [stW]; omega
      · rcases h4.loc with h6 | ⟨h6, h7 | ⟨h7, h8⟩⟩
        · exact .inr ⟨⟨here, hs⟩, .inl h6⟩
        · exact .inl ⟨h6, h7⟩
        · exact .inr ⟨⟨here, hs⟩, .inr ⟨h6, h7, h8⟩⟩

/-- What holds of a token and of the state after it, if it was read at `p`; see `Ord`. -/
structure OrdY (p : Nat) (t : Token) (s' : Lexer) : Prop where
  str : Straight s'.buffer
  low : p ≤ t.loc.begin
  up : (t.tokenType ≠ .tNL ∧ s'.buffer.nextline = 0 ∧ ((∃ h, s'.strterm = some (.heredoc h)) ∨ t.loc.stop ≤ s'.buffer.pcur)) ∨
    (t.tokenType = .tNL ∧ s'.strterm = none ∧ (t.loc.stop ≤ front s'.buffer ∨ (t.loc.begin ≤ front s'.buffer ∧ LastEnd s'.buffer.d.bytes t.loc.begin)))
  lit : ∀ l, s'.strterm = some (.string l) → l.heredocEnd = none
  here : ∀ h, s'.strterm = some (.heredoc h) → (t.tokenType = .tSTRING_BEG ∨ t.tokenType = .tXSTRING_BEG) ∧ t.tokenValue.take 2 = [60, 60]

/-- One call of `yylex`. -/
structure YPost (s : Lexer) (t : Token) (s' : Lexer) : Prop where
  com : Com s s'
  next : t.tokenType = .END_OF_INPUT ∨
    (Inv s' ∧ Adv s.buffer s'.buffer ∧ Phi s' < Phi s ∧ LocOk s t.tokenType t.loc.begin t.loc.stop s' ∧
      (Simple s → OrdY (front s.buffer) t s'))

theorem yylex_wp {x : Ext} (h : Inv s) : Wp (yylex x) (YPost s) s := by
  unfold yylex
  refine Wp.bind (Wp.modS ?_)
  generalize hs1 : ({ s with lval := none } : Lexer) = s1
  have hsame : Same s s1 := by rw [← hs1]; exact ⟨rfl, rfl, rfl, rfl, rfl, rfl⟩
  have hp : Inv s1 := ⟨by rw [hsame.1]; exact h.good, by rw [hsame.1, hsame.2.1]; exact h.st, hsame.2.2.1.trans h.ls, hsame.2.2.2.1.trans h.le,
      by rw [hsame.1]; exact h.dec, by rw [hsame.1]; exact h.small⟩
  refine Wp.bind ((parserYylex_wp hp).mono ?_)
  rintro t s2 ⟨hc, hn⟩
  refine Wp.bind (Wp.getS ?_)
  refine Wp.bind (Wp.getS ?_)
  refine Wp.bind (Wp.modS ?_)
  have hc : Com s s2 := hsame.fw.2.com.trans (by rw [hsame.1]) hc
  have fin : ∀ (v : Bytes) (s3 : Lexer), (∀ v', s2.lval = some v' → v = v') → s3.buffer = s2.buffer → s3.strterm = s2.strterm → s3.lvalStart = none → s3.lvalEnd = none →
      s3.comments = s2.comments → s3.magicComments = s2.magicComments → s3.diagnostics = s2.diagnostics → Wp (do
      Lexer.modS fun s => { s with lval := none }
      if t = .tNL then return ⟨t, [10], ⟨tBegin s2, tBegin s2 + 1⟩⟩
      else return ⟨t, v, ⟨tBegin s2, tEnd s2⟩⟩) (YPost s) s3 := by
    intro v s3 e0 e1 e2 e3 e4 e5 e6 e7
    refine Wp.bind (Wp.modS ?_)
    generalize hs4 : ({ s3 with lval := none } : Lexer) = s4
    have hc4 : Com s s4 := by
      obtain ⟨⟨cs, h1, h2⟩, ms, h3, h4⟩ := hc
      exact ⟨⟨cs, by rw [← hs4, ← h1]; exact e5, h2⟩, ms, by rw [← hs4, ← h3]; exact e6, h4⟩
    have hstep : t = .END_OF_INPUT ∨ (Inv s4 ∧ Adv s.buffer s4.buffer ∧ Phi s4 < Phi s ∧
        LocOk s t (tBegin s2) (tEnd s2) s4 ∧ (t = .tNL → tBegin s2 < s.buffer.d.bytes.length) ∧
        (Simple s → Ord (front s.buffer) t s2) ∧ s4.buffer = s2.buffer ∧ s4.strterm = s2.strterm) := by
      refine hn.imp id fun h1 => ?_
      have ha := h1.adv
      rw [hsame.1] at ha
      have b4 : s4.buffer = s2.buffer := by rw [← hs4]; exact e1
      have t4 : s4.strterm = s2.strterm := by rw [← hs4]; exact e2
      have d4 : s4.diagnostics = s2.diagnostics := by rw [← hs4]; exact e7
      refine ⟨⟨by rw [b4]; exact h1.good, by rw [b4, t4]; exact h1.st, by rw [← hs4]; exact e3, by rw [← hs4]; exact e4, ?_, ?_⟩, by rw [b4]; exact ha, ?_, ?_, ?_, ?_, b4, t4⟩
      · rw [b4, ha.input]; exact h.dec
      · have := h.small; unfold Small Buffer.d at *; rw [b4, ha.input]; exact this
      · have := h1.meas; unfold Phi at *; rw [b4, t4]; rw [hsame.1, hsame.2.1] at this; exact this
      · have := h1.loc; unfold LocOk at *; rw [d4]; rw [hsame.1, hsame.2.1] at this; exact this
      · have := h1.nl; rw [hsame.1] at this; exact this
      · intro hs
        have := h1.ord ⟨by rw [hsame.1]; exact hs.str, by rw [hsame.2.1]; exact hs.here, by rw [hsame.1, hsame.2.1]; exact hs.lit⟩
        rw [hsame.1] at this; exact this
    refine Wp.ite (fun e => Wp.pure ⟨hc4, hstep.imp id ?_⟩) (fun _ => Wp.pure ⟨hc4, hstep.imp id ?_⟩)
    · rintro ⟨h1, h2, h3, h4, h5, h6, h7, h8⟩
      refine ⟨h1, h2, h3, .inl ⟨Nat.le_succ _, h5 e⟩, fun hs => ?_⟩
      obtain ⟨k1, k2, k3, k4, k5⟩ := h6 hs
      refine ⟨by rw [h7]; exact k1, k2, ?_, by rw [h8]; exact k4, ?_⟩
      · rw [h7, h8]
        rcases k3 with k3 | k3
        · exact absurd e k3.1
        · exact .inr k3
      · rw [h8]; intro h hh
        have := (k5 h hh).1
        rw [e] at this; simp at this
    · rename_i hne
      rintro ⟨h1, h2, h3, h4, h5, h6, h7, h8⟩
      refine ⟨h1, h2, h3, h4, fun hs => ?_⟩
      obtain ⟨k1, k2, k3, k4, k5⟩ := h6 hs
      refine ⟨by rw [h7]; exact k1, k2, ?_, by rw [h8]; exact k4, ?_⟩
      · rw [h7, h8]
        rcases k3 with k3 | k3
        · exact .inl k3
        · exact absurd k3.1 hne
      · rw [h8]; intro h hh
        obtain ⟨k6, v', k7, k8⟩ := k5 h hh
        exact ⟨k6, by rw [e0 v' k7]; exact k8⟩
  refine Wp.bind (Wp.getS ?_)
  dsimp only
  cases hl : s2.lval with
  | some v =>
    exact fin v _ (fun v' e => by rw [hl] at e; exact Option.some.inj e) rfl rfl rfl rfl rfl rfl rfl
  | none =>
    obtain ⟨r, hr, _⟩ := substrAt_total s2.buffer (tBegin s2) (tEnd s2)
    refine Wp.bind (Wp.map (Wp.liftB r hr ?_))
    exact fin _ _ (fun v' e => by rw [hl] at e; cases e) rfl rfl rfl rfl rfl rfl rfl

end Verif.Lexer
