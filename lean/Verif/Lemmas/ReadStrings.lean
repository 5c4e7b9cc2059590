import Verif.Lemmas.ReadRest
import Verif.Lemmas.ReadLits
/-! The tokens of literals. -/
namespace Verif.Lexer
open Spec

/-- A part of a literal, if a token. -/
def OptPart (r : Option Tok) : Prop := ∀ t, r = some t → Part t
/-- The same for the loops of heredocs. -/
def SumPart {β : Type} (r : Tok ⊕ β) : Prop := ∀ t, r = .inl t → Part t

theorem SumPart.inl {β : Type} {t : Tok} (h : Part t) : SumPart (.inl t : Tok ⊕ β) := by rintro _ ⟨⟩; exact h
theorem SumPart.inr {β : Type} {b : β} : SumPart (.inr b : Tok ⊕ β) := by rintro _ ⟨⟩

theorem peekVariableName_ret : Ret OptPart Lexer.peekVariableName := by
  unfold Lexer.peekVariableName
  have f1 : OptPart none := by rintro _ ⟨⟩
  have f2 : OptPart (some .tSTRING_DVAR) := by rintro _ ⟨⟩; exact ⟨rfl, rfl⟩
  have f3 : OptPart (some .tSTRING_DBEG) := by rintro _ ⟨⟩; exact ⟨rfl, rfl⟩
  repeat' first
    | exact Ret.pure f1
    | exact Ret.pure f2
    | exact Ret.pure f3
    | (with_reducible refine Ret.bind fun _ => ?_)
    | (with_reducible refine Ret.ite (fun _ => ?_) fun _ => ?_)
    | (refine Ret.pure ?_; dsimp only; split <;> assumption)

theorem hereDocumentError_ret {h e l} : Ret Part (Lexer.hereDocumentError h e l) := by
  unfold Lexer.hereDocumentError
  refine Ret.bind fun _ => Ret.bind fun r => ?_
  cases r with
  | none => exact Ret.fail _
  | some id => exact Ret.bind fun _ => Ret.bind fun _ => Ret.bind fun _ => Ret.bind fun _ => Ret.bind fun _ => Ret.pure ⟨rfl, rfl⟩
theorem hereDocumentRestore_ret {h} : Ret Part (Lexer.hereDocumentRestore h) := by
  unfold Lexer.hereDocumentRestore
  exact Ret.bind fun _ => Ret.bind fun _ => Ret.bind fun _ => Ret.bind fun _ => Ret.bind fun _ => Ret.bind fun _ => Ret.pure ⟨rfl, rfl⟩
theorem heredocFlushStr_ret {b} : Ret Part (Lexer.heredocFlushStr b) := Ret.bind fun _ => Ret.pure ⟨rfl, rfl⟩
theorem heredocFlush_ret : Ret Part Lexer.heredocFlush := Ret.bind fun _ => heredocFlushStr_ret

theorem hereRawLoop_ret {h e l i} : ∀ {n str}, Ret SumPart (Lexer.hereRawLoop h e l i n str) := by
  intro n
  induction n with
  | zero => intro str; exact Ret.fail _
  | succ n ih =>
    intro str
    unfold Lexer.hereRawLoop
    refine Ret.bind fun _ => Ret.bind fun _ => Ret.bind fun _ => Ret.bind fun r => ?_
    cases r with
    | none => exact Ret.fail _
    | some s =>
      refine Ret.bind fun _ => Ret.bind fun _ => Ret.bind fun _ => Ret.ite (fun _ => Ret.bindP heredocFlushStr_ret fun t ht => Ret.pure (.inl ht)) fun _ => ?_
      refine Ret.bind fun _ => Ret.ite (fun _ => Ret.bindP hereDocumentError_ret fun t ht => Ret.pure (.inl ht)) fun _ => ?_
      refine Ret.bind fun _ => Ret.ite (fun _ => ?_) fun _ => ih
      exact Ret.bind fun _ => Ret.bind fun _ => Ret.bind fun _ => Ret.pure .inr

theorem hereExpandLoop_ret {h e l i} : ∀ {n c}, Ret SumPart (Lexer.hereExpandLoop h e l i n c) := by
  intro n
  induction n with
  | zero => intro c; exact Ret.fail _
  | succ n ih =>
    intro c
    unfold Lexer.hereExpandLoop
    refine Ret.bind fun _ => Ret.bind fun r => ?_
    split
    · refine Ret.bind fun _ => Ret.ite (fun _ => Ret.bindP hereDocumentError_ret fun t ht => Ret.pure (.inl ht)) fun _ =>
        Ret.bindP hereDocumentRestore_ret fun t ht => Ret.pure (.inl ht)
    · refine Ret.bind fun _ => Ret.ite (fun _ => ?_) fun _ => ?_
      · refine Ret.ite (fun _ => Ret.bind fun _ => ?_) fun _ => ?_ <;> exact Ret.bindP heredocFlush_ret fun t ht => Ret.pure (.inl ht)
      · refine Ret.bind fun _ => Ret.bind fun _ => Ret.bind fun _ => Ret.ite (fun _ => Ret.bind fun _ => ?_) fun _ => ?_
        · exact Ret.bindP heredocFlush_ret fun t ht => Ret.pure (.inl ht)
        · refine Ret.bind fun _ => Ret.ite (fun _ => Ret.bindP hereDocumentError_ret fun t ht => Ret.pure (.inl ht)) fun _ => ?_
          exact Ret.bind fun _ => Ret.ite (fun _ => Ret.bind fun _ => Ret.pure .inr) fun _ => ih

theorem hereFinish_ret {h s e} : Ret Part (Lexer.hereFinish h s e) := by
  unfold Lexer.hereFinish
  exact Ret.bind fun _ => Ret.bind fun _ => Ret.bind fun _ => Ret.bind fun _ => Ret.pure ⟨rfl, rfl⟩

theorem hereBody_ret {h e l i c} : Ret Part (Lexer.hereBody h e l i c) := by
  unfold Lexer.hereBody
  have fromC : ∀ c : MB, Ret Part (do
      match ← hereExpandLoop h e l i (← Lexer.fuel) c with
      | .inl t => Pure.pure t
      | .inr r => hereFinish h (← Lexer.getS (·.tokenbuf)) r) := by
    intro c
    refine Ret.bind fun _ => Ret.bindP hereExpandLoop_ret fun r hr => ?_
    cases r with
    | inl t => exact Ret.pure (hr t rfl)
    | inr r => exact Ret.bind fun _ => hereFinish_ret
  refine Ret.ite (fun _ => Ret.bind fun _ => Ret.bindP hereRawLoop_ret fun r hr => ?_) fun _ => ?_
  · cases r with
    | inl t => exact Ret.pure (hr t rfl)
    | inr r => exact hereFinish_ret
  · refine Ret.bind fun _ => Ret.ite (fun _ => Ret.bindP peekVariableName_ret fun t ht => Ret.bind fun _ => ?_) fun _ => fromC c
    cases t with
    | some t => exact Ret.pure (ht t rfl)
    | none => exact Ret.bind fun _ => Ret.bind fun c => fromC c

theorem hereDocument_ret {h} : Ret Part (Lexer.hereDocument h) := by
  unfold Lexer.hereDocument
  refine Ret.bind fun _ => Ret.bind fun _ => Ret.bind fun _ => Ret.ite (fun _ => hereDocumentError_ret) fun _ => Ret.bind fun _ => ?_
  refine Ret.ite (fun _ => hereBody_ret) fun _ => Ret.bind fun _ => Ret.ite (fun _ => Ret.bind fun _ => hereBody_ret) fun _ => ?_
  exact Ret.bind fun _ => Ret.ite (fun _ => hereDocumentRestore_ret) fun _ => hereBody_ret

section
variable {s : Lexer}

/-- The tokens of a quoted literal. -/
def StV (t : Tok) (s : Lexer) : Prop :=
  Part t ∨ (t = .tREGEXP_END ∧ Utf8.valid (Val s) = true) ∨ (t = .tLABEL_END ∧ tBegin s + 2 ≤ s.buffer.pcur ∧ s.lvalEnd = none)

theorem StV.part {x : LexM Tok} (h : Ret Part x) : Pc x StV s := Pc.ofRet h fun _ _ h => .inl h

theorem regx_asc : ∀ ch ∈ ascs "onesuixm", ch.toNat < 128 := by decide
theorem regxLoop_ret : ∀ {n b}, AsciiB b → Ret (fun r => AsciiB r.2) (Lexer.regxLoop n b) := by
  intro n
  induction n with
  | zero => intro b _; exact Ret.fail _
  | succ n ih =>
    intro b hb
    unfold Lexer.regxLoop
    refine Ret.bind fun c => ?_
    cases c with
    | none => exact Ret.pure hb
    | some ch =>
      refine Ret.ite (fun _ => Ret.pure hb) fun _ => Ret.ite (fun hc => ih (hb.append (.single (regx_asc ch (by simpa using hc))))) fun _ => ?_
      exact Ret.bind fun _ => ih hb
theorem regxOptions_ret : Ret AsciiB Lexer.regxOptions := by
  unfold Lexer.regxOptions
  refine Ret.bind fun _ => Ret.bind fun _ => Ret.bindP (regxLoop_ret .nil) fun r hr => Ret.bind fun _ => Ret.bind fun _ => Ret.ite (fun _ => ?_) fun _ => Ret.pure hr
  exact Ret.bind fun _ => Ret.ite (fun _ => Ret.bind fun _ => Ret.bind fun _ => Ret.pure hr) fun _ => Ret.fail _

theorem encode_valid (u : UInt8) : Utf8.valid (Utf8.encode u.toNat) = true := by
  have := Utf8.valid_encodeAll (cs := [u.toNat]) (by
    intro c hc
    rw [List.mem_singleton] at hc; subst hc
    have := u.toNat_lt
    simp only [Utf8.isScalar, Bool.or_eq_true, decide_eq_true_eq]
    omega)
  simpa [Utf8.encodeAll] using this

theorem stringTerm_pc {t : UInt8} {f : Nat} (hg : Good s.buffer) (he : s.buffer.eofp = false) (hn : s.buffer.nextline = 0) {k : Nat} (hp : k < s.buffer.pcur)
    (hls : s.lvalStart = some k) (hle : s.lvalEnd = none) :
    Pc (Lexer.stringTerm t f) StV s := by
  unfold Lexer.stringTerm
  refine Pc.bind (Pc.modS (Pc.ite (fun _ => ?_) fun _ => ?_))
  · refine Pc.bind ?_
    intro fl s1 e
    have hf := regxOptions_ret _ _ _ e
    refine Pc.bind (Pc.modS (Pc.bind (Pc.modS (Pc.pure (.inr (.inl ⟨rfl, ?_⟩))))))
    exact Utf8.valid_append (encode_valid t) hf.valid
  · have rest : ∀ {s : Lexer}, Pc (do { setState EXPR_END; return Tok.tSTRING_END }) StV s := StV.part (Ret.bind fun _ => Ret.pure ⟨rfl, rfl⟩)
    refine Pc.bind (Pc.of_wp (Wp.isLabelSuffix (by exact hg) fun r hr => Pc.ite (fun hc => ?_) fun _ => rest))
    simp only [Bool.and_eq_true] at hc
    obtain ⟨h1, h2⟩ := hr hc.2
    dsimp only [Nat.add_zero] at h1
    refine Pc.bind (Pc.of_wp (Wp.nextcG (by exact hg) fun b0 c s1 h3 => Pc.bind (Pc.modS (Pc.pure (.inr (.inr ⟨rfl, ?_, h3.same_fr.2.2.1.trans hle⟩))))))
    show s1.lvalStart.getD s1.buffer.ptok + 2 ≤ s1.buffer.pcur
    rw [show s1.lvalStart = some k from h3.same_fr.2.1.trans hls, Option.getD_some]
    have h4 : NextC s.buffer c s1.buffer := h3.nextc
    generalize s1.buffer = b' at h4
    cases h4 with
    | here ch b' k1 k2 => have := k2.lt; omega
    | load ch b1 b' k1 k2 => have := k2.lt; have := k1.after; omega
    | eof k1 => rw [he] at k1; cases k1
    | eofNow k1 k2 k3 k4 => omega
    | eofLoad b1 k1 => have := k1.after; omega

theorem stringContent_ret {q f t p} : Ret Part (Lexer.stringContent q f t p) := by
  unfold Lexer.stringContent
  refine Ret.bind fun r => Ret.bind fun _ => Ret.ite (fun _ => Ret.bind fun _ => Ret.bind fun _ => Ret.ite (fun _ => ?_) fun _ => ?_) fun _ => ?_
  · exact Ret.bind fun _ => Ret.bind fun _ => Ret.pure ⟨rfl, rfl⟩
  · refine Ret.ite (fun _ => ?_) fun _ => ?_ <;> exact Ret.bind fun _ => Ret.bind fun _ => Ret.bind fun _ => Ret.pure ⟨rfl, rfl⟩
  · exact Ret.bind fun _ => Ret.bind fun _ => Ret.pure ⟨rfl, rfl⟩

theorem parseString_pc {q : StringLiteral} (hg : Good s.buffer) (hq : FOk q.func) (hv : s.lval = none) (hle : s.lvalEnd = none) :
    Pc (Lexer.parseString q) StV s := by
  unfold Lexer.parseString
  refine Pc.bind (Pc.modS (Pc.bind (Pc.modS (Pc.ite (fun _ => ?_) fun _ => ?_))))
  · by_cases hr : hasF q.func STR_FUNC_REGEXP = true
    · have hw : hasF q.func STR_FUNC_QWORDS = false := by
        rcases hq with h | h
        · rw [hr] at h; cases h
        · exact h
      rw [if_neg (by rw [hw]; decide)]
      refine Pc.bind (Pc.modS (Pc.bind (Pc.modS ?_)))
      rw [if_pos hr]
      refine Pc.pure (.inr (.inl ⟨rfl, ?_⟩))
      simp only [Val, hv, tBegin, tEnd, hle, Option.getD_none, Option.getD_some, slice_nil]
      exact Utf8.valid_nil
    · refine StV.part ?_
      have rest : Ret Part (do
          setState EXPR_END
          Lexer.modS fun s => { s with strterm := none }
          if hasF q.func STR_FUNC_REGEXP then Pure.pure Tok.tREGEXP_END
          else match q.heredocEnd with
            | some h =>
              Lexer.modS fun s => { s with lvalStart := some h.start, lvalEnd := some h.stop, lval := some h.value }
              Pure.pure Tok.tSTRING_END
            | none => Pure.pure Tok.tSTRING_END) := by
        refine Ret.bind fun _ => Ret.bind fun _ => Ret.ite (fun h => absurd h hr) fun _ => ?_
        split
        · exact Ret.bind fun _ => Ret.pure ⟨rfl, rfl⟩
        · exact Ret.pure ⟨rfl, rfl⟩
      exact Ret.ite (fun _ => Ret.bind fun _ => rest) fun _ => rest
  · have main : ∀ (c : MB) (sp : Bool) (q' : StringLiteral) (s1 : Lexer), (hasF q.func STR_FUNC_QWORDS = false → ∀ ch, c = some ch →
          Good s1.buffer ∧ s1.buffer.eofp = false ∧ s1.buffer.nextline = 0 ∧ s.buffer.pcur < s1.buffer.pcur ∧ s1.lvalStart = some s.buffer.pcur ∧ s1.lvalEnd = none) → Pc (do
        if c = some q.term ∧ q'.nest = 0 then
          if hasF q.func STR_FUNC_QWORDS then
            Lexer.pushback c
            restoreStrterm { q' with func := q'.func ||| STR_FUNC_TERM }
            Pure.pure Tok.tSPACE
          else
            restoreStrterm q'
            stringTerm q.term q.func
        else if sp then
          Lexer.pushback c
          restoreStrterm q'
          Pure.pure .tSPACE
        else
          Lexer.newtok
          if hasF q.func STR_FUNC_EXPAND && isC c '#' then
            match ← peekVariableName with
            | some t =>
              restoreStrterm q'
              Pure.pure t
            | none =>
              tokadd (asc '#')
              Lexer.pushback (← Lexer.nextc)
              stringContent q' q.func q.term q.paren
          else
            Lexer.pushback c
            stringContent q' q.func q.term q.paren) StV s1 := by
      intro c sp q' s1 h
      refine Pc.ite (fun hc => Pc.ite (fun _ => ?_) fun hw => ?_) fun _ => Pc.ite (fun _ => ?_) fun _ => ?_
      · exact StV.part (Ret.bind fun _ => Ret.bind fun _ => Ret.pure ⟨rfl, rfl⟩)
      · obtain ⟨h1, h2, h3, h4, h5, h6⟩ := h (by simpa using hw) _ hc.1
        exact Pc.bind (Pc.modS (stringTerm_pc (by exact h1) h2 h3 h4 h5 h6))
      · exact StV.part (Ret.bind fun _ => Ret.bind fun _ => Ret.pure ⟨rfl, rfl⟩)
      · refine StV.part (Ret.bind fun _ => Ret.ite (fun _ => Ret.bindP peekVariableName_ret fun t ht => ?_) fun _ => Ret.bind fun _ => stringContent_ret)
        cases t with
        | some t => exact Ret.bind fun _ => Ret.pure (ht t rfl)
        | none => exact Ret.bind fun _ => Ret.bind fun _ => Ret.bind fun _ => stringContent_ret
    refine Pc.bind (Pc.of_wp (Wp.nextcG (by exact hg) fun b0 c s1 h3 => ?_))
    refine Pc.ite (fun hs => ?_) fun _ => Pc.bind (Pc.pure (main c _ _ s1 fun _ ch e => ?_))
    · refine Pc.bind (Pc.fuel fun n => Pc.bind ?_)
      intro c s2 _
      refine main c _ _ s2 fun hw => ?_
      rw [hw] at hs; cases hs
    · obtain ⟨k1, k2⟩ := h3.isSome ch e
      refine ⟨k2.good, by rw [k2.eq]; exact k2.noeof, by rw [k2.same.nextline]; exact k1, ?_, h3.same_fr.2.1, h3.same_fr.2.2.1.trans hle⟩
      have := k2.lt; exact Nat.lt_of_le_of_lt h3.fw0.pcur (by omega)
end
end Verif.Lexer
