import Verif.Lemmas.LexNumText
import Verif.Lemmas.LexGrows
import Verif.Lemmas.LexRetNum
/-! Numeric tokens that `yylex` returns without a diagnostic have their text as value. -/
namespace Verif.Lexer
open Spec
variable {s : Lexer}

/-- The value `v` of a numeric token from `b` to `e`: the text; or the text without an `e` that ends the input;
or the text with the sign and the zero exchanged. -/
def NumVal (D : Bytes) (b e : Nat) (v : Bytes) : Prop :=
  v = slice D b e ∨ (e = D.length ∧ b < e ∧ LastE D ∧ v = slice D b (e - 1)) ∨
  (D[b]? = some (asc '+') ∧ D[b + 1]? = some (asc '0') ∧ (∃ c, D[b + 2]? = some c ∧ baseChar c) ∧ v = ascs "0+" ++ slice D (b + 2) e)

structure NumOk (D : Bytes) (s' : Lexer) : Prop where
  ls : s'.lvalStart = none
  le : s'.lvalEnd = none
  val : ∃ v, s'.lval = some v ∧ NumVal D s'.buffer.ptok s'.buffer.pcur v

/-- What is claimed of a token. -/
def NumTok (D : Bytes) (d0 : List LexDiag) (t : Tok) (s' : Lexer) : Prop :=
  ¬ NoNum t → s'.diagnostics = d0 → NumOk D s'

def NumRes (D : Bytes) (d0 : List LexDiag) (r : Next) (s' : Lexer) : Prop := ∀ t, r = .tok t → NumTok D d0 t s'

theorem NumTok.earlier {D : Bytes} {d0 d1 : List LexDiag} {t : Tok} {s' : Lexer} (h : NumTok D d1 t s') (h0 : d0 <+: d1)
    (h1 : d1 <+: s'.diagnostics) : NumTok D d0 t s' := by
  intro ht hd
  refine h ht ?_
  rw [hd] at h1 ⊢
  exact h0.eq_of_length_le h1.length_le

theorem Pc.ret {α : Type} {P : α → Prop} {x : LexM α} {Q : α → Lexer → Prop} (h : Ret P x) (hq : ∀ a s', P a → Q a s') : Pc x Q s :=
  fun a s' e => hq a s' (h s a s' e)

theorem Pc.nn {D : Bytes} {d0 : List LexDiag} {x : LexM Next} (h : Ret NextNN x) : Pc x (NumRes D d0) s := by
  refine Pc.ret h fun r s' hr t e ht => ?_
  subst e
  exact absurd hr ht

theorem eoi_noNum : NoNum .END_OF_INPUT := by decide

/-- From the number to the token. -/
theorem pc_number {D : Bytes} {c : UInt8} {p : Nat} (hm : Mid s.buffer) (hp : s.buffer.ptok = p)
    (hpre : MB.u8Digit c = true ∨ c = asc '-' ∨ c = asc '+') (hb : s.buffer.d.bytes = D) (hls : s.lvalStart = none) (hle : s.lvalEnd = none)
    (h : Pc (parseNumeric c) (fun t s' => s'.buffer.pcur ≤ D.length → s'.diagnostics = s.diagnostics → t ≠ .END_OF_INPUT →
      ∃ v, s'.lval = some v ∧ NumVal D p s'.buffer.pcur v) s) :
    Pc (parseNumeric c) (NumTok D s.diagnostics) s := by
  intro t s' e ht hd
  obtain ⟨hl, hg⟩ := Pc.of_wp (parseNumeric_wp (s := s) hm hpre) t s' e
  have hk := Keeps.parseNumeric s t s' hm.nonl e
  have hpt := hk.ptok hd hl.1.same.lineCount
  have hle' : s'.buffer.pcur ≤ D.length := by
    have := Good.pcur_le hg
    have e1 : s'.buffer.d.bytes = D := by rw [← hb]; simp only [Buffer.d, hl.1.same.input]
    rw [e1] at this; exact this
  refine ⟨hl.2.2.1.trans hls, hl.2.2.2.1.trans hle, ?_⟩
  rw [hpt, hp]
  exact h t s' e hle' hd (by rintro rfl; exact ht eoi_noNum)

theorem Txt.val {D : Bytes} {p : Nat} {d0 : List LexDiag} {t : Tok} {s' : Lexer} (h : Txt D [] p (LastE D) d0 t s')
    (hle : s'.buffer.pcur ≤ D.length) (hd : s'.diagnostics = d0) (ht : t ≠ .END_OF_INPUT) :
    ∃ v, s'.lval = some v ∧ NumVal D p s'.buffer.pcur v := by
  rcases h hd ht with h | ⟨h1, h2, h3, h4⟩
  · exact ⟨_, h, .inl rfl⟩
  · have : s'.buffer.pcur = D.length := by omega
    exact ⟨_, h4, .inr (.inl ⟨this, by omega, h3, by rw [this]; rfl⟩)⟩

theorem digit_num {D : Bytes} {c : UInt8} (h : At s c) (hD : s.buffer.d.bytes = D) (hc : NumberSpec.Dec c) (h10 : c ≠ 10)
    (hu : MB.u8Digit c = true) : Pc (parseNumeric c) (NumTok D s.diagnostics) s := by
  obtain ⟨hm, h1, h2⟩ := h.plain h10
  refine pc_number hm rfl (.inl hu) hD h.ls h.le ?_
  refine (parseNumeric_txt (p := s.buffer.ptok) hm hD h1.symm (by rw [← hD]; exact h2) hc).mono ?_
  intro t s' h3 h4 h5 h6
  exact h3.val h4 h5 h6

theorem lexPlus_num {D : Bytes} {sp l} (h : At s (asc '+')) (hD : s.buffer.d.bytes = D) : Pc (lexPlus sp l) (NumRes D s.diagnostics) s := by
  obtain ⟨hm, h1, h2⟩ := h.plain (by decide)
  unfold lexPlus
  refine Pc.bind fun c s0 e0 => ?_
  have hr := Pc.of_wp (Wp.nextc (Q := fun c s' => Rd s c s') hm fun c s' h => h) c s0 e0
  have hd0 := (Grows.nextc s c s0 e0).diagnostics
  refine Pc.bind (Pc.mono (P := fun _ s' => Same s0 s' ∧ s'.diagnostics = s0.diagnostics) ?_ ?_)
  · intro a s' e; cases e; exact ⟨.refl _, rfl⟩
  rintro st s1 ⟨hs1, hd1⟩
  refine Pc.ite (fun _ => Pc.nn ?_) fun _ => Pc.ite (fun _ => Pc.nn ?_) fun _ => ?_
  · repeat' nextn1
  · repeat' nextn1
  have hr1 := hr.same hs1
  refine Pc.bind fun u s2 e2 => ?_
  have hz1 : Small s1.buffer := h.small.of_input hr1.loc.1.same.input
  have hs2 : Same s1 s2 := Pc.of_wp (Wp.unaryHere (s := s1) (Q := fun _ s' => Same s1 s') hr1.good hz1 hr1.pos fun _ _ h => h) u s2 e2
  have hg2 := (Grows.unaryHere s1 u s2 e2).diagnostics
  refine Pc.ite (fun _ => ?_) fun _ => Pc.nn ?_
  · refine Pc.bind (Pc.mono (P := fun _ s' => Same s2 s' ∧ s'.diagnostics = s2.diagnostics) ?_ ?_)
    · intro a s' e; cases e; exact ⟨⟨rfl, rfl, rfl, rfl, rfl, rfl⟩, rfl⟩
    rintro _ s3 ⟨hs3, hd3⟩
    refine Pc.bind fun a4 s4 e4 => ?_
    obtain ⟨k1, k2, k3, k4⟩ := Pc.of_wp (Wp.pushback_same (s2 := s3) (Q := fun _ s' => Loc s s' ∧ Mid s'.buffer ∧ s'.buffer.pcur = s.buffer.pcur ∧ s'.buffer.ptok = s.buffer.ptok)
      hr1 (hs2.trans hs3) fun s' q1 q2 q3 q4 _ _ => ⟨q1, q2, q3, q4⟩) a4 s4 e4
    have hg4 := (Grows.pushback _ s3 a4 s4 e4).diagnostics
    have hgall : s.diagnostics <+: s4.diagnostics := by
      refine List.IsPrefix.trans ?_ hg4
      rw [hd3]
      refine List.IsPrefix.trans ?_ hg2
      rw [hd1]; exact hd0
    have hb4 : s4.buffer.d.bytes = D := by rw [← hD]; simp only [Buffer.d, k1.1.same.input]
    refine Pc.ite (fun _ => ?_) fun _ => Pc.nn ?_
    · refine Pc.bind fun t s5 e5 => ?_
      refine Pc.pure fun t' et => ?_
      cases et
      have h5 : NumTok D s4.diagnostics t s5 := by
        refine pc_number (p := s.buffer.ptok) k2 k4 (.inr (.inr rfl)) hb4 (k1.2.2.1.trans h.ls) (k1.2.2.2.1.trans h.le) ?_ t s5 e5
        refine (parseNumeric_plus_txt (p := s.buffer.ptok) k2 hb4 (by omega) (by rw [← hD]; exact h2)).mono ?_
        intro t s' h3 h4 h5 h6
        rcases h3 with h3 | ⟨h7, h8, h9⟩
        · exact h3.val h4 h5 h6
        · rcases h9 h5 h6 with h9 | ⟨_, _, h9, _⟩
          · exact ⟨_, h9, .inr (.inr ⟨by rw [← hD]; exact h2, h7, h8, rfl⟩)⟩
          · exact h9.elim
      exact h5.earlier hgall (Grows.parseNumeric s4 t s5 e5).diagnostics
    · repeat' nextn1
  · repeat' nextn1

theorem dispatch_num {D : Bytes} {x c sp l cmd ts} (h : At s c) (hD : s.buffer.d.bytes = D) :
    Pc (dispatch x c sp l cmd ts) (NumRes D s.diagnostics) s := by
  unfold dispatch
  iterate 16 (refine Pc.ite (fun _ => Pc.nn ?_) fun _ => ?_; (· first | exact RetNum.tok RetNum.parseQmark | repeat' nextn1))
  refine Pc.ite (fun e => ?_) fun _ => ?_
  · subst e; exact lexPlus_num h hD
  iterate 2 (refine Pc.ite (fun _ => Pc.nn ?_) fun _ => ?_; (· repeat' nextn1))
  refine Pc.ite (fun e => ?_) fun _ => ?_
  · obtain ⟨h1, h2⟩ := byte_forall (p := fun c => MB.u8Digit c = true → NumberSpec.Dec c ∧ c ≠ 10) (by decide +kernel) c e
    refine Pc.bind ((digit_num h hD h1 h2 e).mono fun t s' ht => Pc.pure fun t' et => ?_)
    cases et; exact ht
  repeat (refine Pc.ite (fun _ => Pc.nn ?_) fun _ => ?_; (· first
    | exact RetNum.tok RetNum.parsePercent | exact RetNum.tok RetNum.parseGvar | exact RetNum.tok RetNum.parseAtmark | repeat' nextn1))
  exact Pc.nn (by repeat' nextn1)

theorem yylexLoop_num {x : Ext} {cmd ts : Bool} {D : Bytes} : ∀ n sp (s : Lexer), Plain0 s → s.buffer.d.bytes = D →
    Pc (yylexLoop x cmd ts n sp) (NumTok D s.diagnostics) s := by
  intro n
  induction n with
  | zero => intro sp s _ _; exact Pc.fail
  | succ n ih =>
    intro sp s h hD t s' e
    have hgall := (Grows.yylexLoop s t s' e).diagnostics
    revert t s' e
    show Pc _ _ _
    suffices hs : Pc (yylexLoop x cmd ts (n + 1) sp) (fun t s' => ∃ d1, s.diagnostics <+: d1 ∧ d1 <+: s'.diagnostics ∧ NumTok D d1 t s') s by
      intro t s' e hg
      obtain ⟨d1, h1, h2, h3⟩ := hs t s' e
      exact h3.earlier h1 h2
    unfold yylexLoop
    refine Pc.bind (Pc.getS (Pc.bind fun u1 s1 e1 => ?_))
    obtain ⟨h1, h2, h3⟩ := Pc.of_wp (Wp.tokenFlush (s := s) (Q := fun _ s1 => Loc s s1 ∧ BSame s.buffer s1.buffer ∧ s1.buffer.ptok = s.buffer.pcur) fun _ h1 h2 h3 => ⟨h1, h2, h3⟩) u1 s1 e1
    have hp1 : Plain0 s1 := ⟨h2.good h.good, h1.2.1.trans h.st, h1.2.2.1.trans h.ls, h1.2.2.2.1.trans h.le,
      by rw [h2.same.input]; exact h.dec, h.small.loc h1⟩
    have g1 := (Grows.tokenFlush s u1 s1 e1).diagnostics
    refine Pc.bind fun c s2 e2 => ?_
    obtain ⟨b0, hr⟩ := Pc.of_wp (Wp.nextcG hp1.good (Q := fun c s2 => ∃ b0, RdG s1 b0 c s2) fun b0 _ _ h => ⟨b0, h⟩) c s2 e2
    have g2 := g1.trans (Grows.nextc s1 c s2 e2).diagnostics
    cases c with
    | none => exact Pc.pure ⟨_, g2, List.prefix_refl _, fun ht => absurd eoi_noNum ht⟩
    | some ch =>
      have hat := hp1.at (by rw [h3, h2.pcur]) hr
      have ha2 : Adv s.buffer s2.buffer := h1.adv.trans hr.fw.1.adv
      have hD2 : s2.buffer.d.bytes = D := by rw [← hD]; simp only [Buffer.d, ha2.input]
      refine Pc.bind fun r s3 e3 => ?_
      have hd := Pc.of_wp (dispatch_wp hat) r s3 e3
      have hn := dispatch_num hat hD2 r s3 e3
      have g3 := (Grows.dispatch s2 r s3 e3).diagnostics
      obtain ⟨hc3, hx⟩ := hd
      cases r with
      | tok t => exact Pc.pure ⟨_, g2, g3, hn t rfl⟩
      | retry b =>
        have hx : RetryOk s2 s3 := hx
        have ha3 := ha2.trans hx.adv
        intro t s' e
        refine ⟨s3.diagnostics, g2.trans g3, (Grows.yylexLoop s3 t s' e).diagnostics, ih b s3 ⟨hx.good, hx.st, hx.ls, hx.le, ?_, ?_⟩ ?_ t s' e⟩
        · rw [ha3.input]; exact h.dec
        · have := h.small; unfold Small Buffer.d at *; rw [ha3.input]; exact this
        · rw [← hD]; simp only [Buffer.d, ha3.input]
      | ident =>
        intro t s' e
        exact ⟨s'.diagnostics, (g2.trans g3).trans (Grows.parseIdent s3 t s' e).diagnostics, List.prefix_refl _,
          fun ht => absurd (RetNum.parseIdent s3 t s' e) ht⟩

theorem parserYylex_num {x : Ext} {D : Bytes} (h : Inv s) (hD : s.buffer.d.bytes = D) : Pc (parserYylex x) (NumTok D s.diagnostics) s := by
  unfold parserYylex
  refine Pc.bind (Pc.getS ?_)
  cases hs : s.strterm with
  | none =>
    dsimp only
    refine Pc.bind (Pc.getS (Pc.bind (Pc.getS (Pc.bind (Pc.modS (Pc.bind (Pc.fuel fun n => ?_)))))))
    exact yylexLoop_num n false _ ⟨h.good, hs, h.ls, h.le, h.dec, h.small⟩ hD
  | some st =>
    cases st with
    | string l =>
      dsimp only
      refine Pc.bind fun _ _ _ => Pc.ret RetNum.parseString fun t s' ht hn => absurd ht hn
    | heredoc here => exact Pc.ret RetNum.hereDocument fun t s' ht hn => absurd ht hn

theorem yylex_num {x : Ext} {D : Bytes} (h : Inv s) (hD : s.buffer.d.bytes = D) : Pc (yylex x) (fun t s' => ¬ NoNum t.tokenType →
    s'.diagnostics = s.diagnostics → NumVal D t.loc.begin t.loc.stop t.tokenValue) s := by
  unfold yylex
  refine Pc.bind (Pc.modS ?_)
  refine Pc.bind ((parserYylex_num (s := { s with lval := none }) ⟨h.good, h.st, h.ls, h.le, h.dec, h.small⟩ hD).mono fun t s2 h2 => ?_)
  refine Pc.bind (Pc.getS (Pc.bind (Pc.getS (Pc.bind (Pc.modS ?_)))))
  have fin : ∀ (v : Bytes) (s3 : Lexer), s3.diagnostics = s2.diagnostics →
      (¬ NoNum t → s2.diagnostics = s.diagnostics → NumVal D (tBegin s2) (tEnd s2) v) → Pc (α := Token) (do
      Lexer.modS fun s => { s with lval := none }
      if t = .tNL then return ⟨t, [10], ⟨tBegin s2, tBegin s2 + 1⟩⟩
      else return ⟨t, v, ⟨tBegin s2, tEnd s2⟩⟩) (fun t s' => ¬ NoNum t.tokenType →
        s'.diagnostics = s.diagnostics → NumVal D t.loc.begin t.loc.stop t.tokenValue) s3 := by
    intro v s3 e1 e2
    refine Pc.bind (Pc.modS (Pc.ite (fun e => Pc.pure fun h => ?_) fun _ => Pc.pure fun h hd => ?_))
    · exact absurd (show NoNum t by rw [e]; decide) h
    · exact e2 h (e1.symm.trans hd)
  refine Pc.bind (Pc.getS ?_)
  dsimp only
  cases hl : s2.lval with
  | some v =>
    refine fin v _ rfl fun ht hd => ?_
    obtain ⟨h3, h4, v', h5, h6⟩ := h2 ht hd
    rw [hl] at h5; cases h5
    unfold tBegin tEnd
    rw [h3, h4]; exact h6
  | none =>
    obtain ⟨r, hr, _⟩ := substrAt_total s2.buffer (tBegin s2) (tEnd s2)
    refine Pc.bind (Pc.of_wp (Wp.map (Wp.liftB r hr ?_)))
    refine fin _ _ rfl fun ht hd => ?_
    obtain ⟨h3, h4, v', h5, h6⟩ := h2 ht hd
    rw [hl] at h5; cases h5
end Verif.Lexer
