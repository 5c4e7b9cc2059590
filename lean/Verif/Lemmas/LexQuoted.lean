import Verif.Lemmas.LexContent
import Verif.Lemmas.LexToken
import Verif.Props.Reader
import Verif.Spec.Quoted
/-! The content of literals without interpolation is what the specification says. -/
namespace Verif.Lexer
open Verif.Props (collapse Seq nextc_text loaded_text readIn_text)

theorem seq_bsame {b b' : Buffer} (h : Seq b) (hb : BSame b b') : Seq b' := by
  have hd : b'.d = b.d := by simp only [Buffer.d, hb.same.input]
  exact ⟨hb.good h.good, by rw [hb.same.nextline]; exact h.nl, by rw [hb.same.lineCount, hb.same.lastline]; exact h.lc,
    by rw [hb.eofp, hb.pcur, hd]; exact h.fin⟩

theorem collapse_length : ∀ (n : Nat) {bs : Bytes}, bs.length ≤ n → (collapse bs).length ≤ bs.length
  | 0, bs, h => by cases bs with
    | nil => simp [collapse]
    | cons => simp at h
  | n + 1, bs, h => by
    cases bs with
    | nil => simp [collapse]
    | cons c t =>
      simp only [List.length_cons] at h
      by_cases hc : c = 13 ∧ ∃ r, t = 10 :: r
      · obtain ⟨rfl, r, rfl⟩ := hc
        simp only [List.length_cons] at h
        have := collapse_length n (bs := r) (by omega)
        simp only [collapse, List.length_cons]; omega
      · have := collapse_length n (bs := t) (by omega)
        rw [Verif.Props.collapse_ne hc]
        simp only [List.length_cons]; omega

/-- The characters from the cursor on are `text`. -/
structure Upcoming (bs text : Bytes) (b : Buffer) : Prop where
  seq : Seq b
  d : b.d.bytes = bs
  txt : collapse (bs.drop b.pcur) = text

theorem Upcoming.bsame {bs text : Bytes} {b b' : Buffer} (h : Upcoming bs text b) (hb : BSame b b') : Upcoming bs text b' :=
  ⟨seq_bsame h.seq hb, by simp only [Buffer.d, hb.same.input]; exact h.d, by rw [hb.pcur]; exact h.txt⟩

theorem Upcoming.noeof {bs text : Bytes} {c : UInt8} {b : Buffer} (h : Upcoming bs (c :: text) b) : b.eofp = false := by
  by_contra he
  have := h.seq.fin (by simpa using he)
  have h2 := h.txt
  rw [this, h.d] at h2
  simp [collapse] at h2

/-- `c` was just read; `text` follows. -/
structure Took (bs : Bytes) (c : UInt8) (text : Bytes) (b : Buffer) : Prop where
  at' : Upcoming bs text b
  pos : 0 < b.pcur
  noeof : b.eofp = false
  last : bs[b.pcur - 1]? = some c
  back : Upcoming bs (c :: text) { b with pcur := b.pbPos }

theorem Took.bsame {bs text : Bytes} {c : UInt8} {b b' : Buffer} (h : Took bs c text b) (hb : BSame b b') : Took bs c text b' := by
  have h1 : b'.d = b.d := by simp only [Buffer.d, hb.same.input]
  have h2 : b'.pbPos = b.pbPos := by unfold Buffer.pbPos; rw [hb.pcur, hb.same.pbeg, h1]
  refine ⟨h.at'.bsame hb, by rw [hb.pcur]; exact h.pos, by rw [hb.eofp]; exact h.noeof, by rw [hb.pcur]; exact h.last, ?_⟩
  exact Upcoming.bsame (b := { b with pcur := b.pbPos }) h.back
    ⟨⟨hb.same.input, hb.same.lineCount, hb.same.prevline, hb.same.lastline, hb.same.nextline, hb.same.pbeg, hb.same.pend, hb.same.sl⟩, h2, hb.eofp⟩

/-- From `b0` to `b` by reading `c`. -/
structure Moved (c : UInt8) (b0 b : Buffer) : Prop where
  lt : b0.pcur < b.pcur
  back : b.pbPos = b0.pcur
  one : c ≠ 10 → b.pcur = b0.pcur + 1
  tok : b0.ptok = b0.pcur → b.ptok = b0.pcur

theorem Upcoming.nextc {bs text : Bytes} {c : UInt8} {s : Lexer} (h : Upcoming bs (c :: text) s.buffer) {Q : MB → Lexer → Prop}
    (hq : ∀ b, Took bs c text b → Moved c s.buffer b → Q (some c) { s with buffer := b }) : Wp Lexer.nextc Q s := by
  obtain ⟨c', b', e, hn⟩ := nextc_good h.seq.good
  obtain ⟨h1, h2, h3⟩ := nextc_text h.seq e
  have hd : b'.d = s.buffer.d := by simp only [Buffer.d, h2]
  rw [h.d, h.txt] at h3
  rcases h3 with ⟨-, h3, -⟩ | ⟨ch, rfl, h3⟩
  · cases h3
  simp only [List.cons.injEq] at h3
  obtain ⟨rfl, h3⟩ := h3
  refine ⟨some c, { s with buffer := b' }, by simp [Lexer.nextc, e, Bind.bind, Except.bind, Pure.pure, Except.pure], ?_⟩
  have key : ∀ b0 : Buffer, Seq b0 → b0.d = s.buffer.d → b0.pcur = s.buffer.pcur → ReadIn b0 c b' → Took bs c text b' := by
    intro b0 hs0 hd0 hp0 hr
    refine ⟨⟨h1, by rw [hd]; exact h.d, h3.symm⟩, by have := hr.lt; omega, by rw [hr.eq]; exact hr.noeof, ?_, ?_⟩
    · rw [← h.d, ← hd0]
      by_cases hc : c = 10
      · rw [hc]; exact (hr.lf hc).2
      · obtain ⟨h4, h5⟩ := hr.byte hc
        rw [h4, Nat.add_sub_cancel]; exact h5
    · rw [hr.back]
      have e1 : ({ b' with pcur := b0.pcur } : Buffer) = b0 := by rw [hr.eq]
      rw [e1]
      exact ⟨hs0, by rw [hd0]; exact h.d, by rw [hp0]; exact h.txt⟩
  cases hn with
  | here ch b' h4 hr => exact hq _ (key _ h.seq rfl rfl hr) ⟨hr.lt, hr.back, fun hc => (hr.byte hc).1, fun h => by rw [hr.eq]; exact h⟩
  | load ch b1 b' hl hr =>
    obtain ⟨h4, h5⟩ := loaded_text h.seq hl
    refine hq _ (key b1 ⟨hl.good, hl.nextline, h5, by rw [hl.eofp]; simp⟩ (by simp only [Buffer.d, hl.input]) h4 hr)
      ⟨by rw [← h4]; exact hr.lt, by rw [← h4]; exact hr.back, fun hc => by rw [← h4]; exact (hr.byte hc).1, fun _ => by rw [hr.eq, ← h4]; exact hl.ptok⟩

theorem Took.pushback {bs text : Bytes} {c : UInt8} {s : Lexer} (h : Took bs c text s.buffer) {c' : UInt8} {Q : Unit → Lexer → Prop}
    (hq : Upcoming bs (c :: text) { s.buffer with pcur := s.buffer.pbPos } → Q () { s with buffer := { s.buffer with pcur := s.buffer.pbPos } }) :
    Wp (Lexer.pushback (some c')) Q s := by
  refine ⟨(), _, ?_, hq h.back⟩
  simp [Lexer.pushback, Buffer.pushback, pushbackByte_eq _ h.pos, Bind.bind, Except.bind, Pure.pure, Except.pure]

open QuoteSpec (content content_cons add Space AsciiEscapes)

/-- The rest is a suffix of the text. -/
theorem content_suffix {close : UInt8} {opener : Option UInt8} {words : Bool} : ∀ (k : Nat) {depth : Nat} {text v rest : Bytes} {n : Nat}, text.length ≤ k →
    content close opener words depth text = some (v, n, rest) → ∃ used, text = used ++ rest := by
  intro k
  induction k with
  | zero =>
    intro depth text v rest n hk h
    cases text with
    | nil => simp [content] at h
    | cons c t => simp at hk
  | succ k ih =>
    intro depth text v rest n hk h
    have step : ∀ {d : Nat} {w pre t : Bytes}, t.length ≤ k → text = pre ++ t → add w (content close opener words d t) = some (v, n, rest) →
        ∃ used, text = used ++ rest := by
      intro d w pre t h1 h2 h3
      cases e : content close opener words d t with
      | none => rw [e] at h3; cases h3
      | some r =>
        obtain ⟨v', n', rest'⟩ := r
        rw [e] at h3
        simp only [add, Option.map_some, Option.some.injEq, Prod.mk.injEq] at h3
        obtain ⟨-, rfl, rfl⟩ := h3
        obtain ⟨u, hu⟩ := ih h1 e
        exact ⟨pre ++ u, by rw [h2, hu, List.append_assoc]⟩
    cases text with
    | nil => simp [content] at h
    | cons c t =>
      simp only [List.length_cons] at hk
      rw [content_cons] at h
      split at h
      · exact step (pre := [c]) (by omega) rfl h
      split at h
      · split at h
        · simp only [Option.some.injEq, Prod.mk.injEq] at h; exact ⟨[], by rw [← h.2.2]; rfl⟩
        · exact step (pre := [c]) (by omega) rfl h
      split at h
      · cases t with
        | nil => cases h
        | cons d t =>
          simp only [List.length_cons] at hk
          dsimp only at h
          split at h
          · exact step (pre := [c, d]) (by omega) rfl h
          · exact step (pre := [c, d]) (by omega) rfl h
      split at h
      · simp only [Option.some.injEq, Prod.mk.injEq] at h; exact ⟨[], by rw [← h.2.2]; rfl⟩
      · exact step (pre := [c]) (by omega) rfl h

theorem add_some {w v rest : Bytes} {n : Nat} {r : Option (Bytes × Nat × Bytes)} (h : add w r = some (v, n, rest)) :
    ∃ v', r = some (v', n, rest) ∧ v = w ++ v' := by
  cases r with
  | none => cases h
  | some r =>
    obtain ⟨v', n', rest'⟩ := r
    simp only [add, Option.map_some, Option.some.injEq, Prod.mk.injEq] at h
    obtain ⟨h1, rfl, rfl⟩ := h
    exact ⟨v', rfl, h1.symm⟩

/-- Delimiters of literals. -/
structure Delim (f : Nat) (t : UInt8) (pa : Option UInt8) : Prop where
  e : hasF f STR_FUNC_EXPAND = false
  r : hasF f STR_FUNC_REGEXP = false
  esc : hasF f STR_FUNC_ESCAPE = false
  nl : t ≠ 10
  u : t ≠ asc 'u'
  bs : t ≠ asc '\\'
  pnl : pa ≠ some 10
  pu : pa ≠ some (asc 'u')
  pbs : pa ≠ some (asc '\\')
  ascii : t < 128

/-- The content ends between two characters. -/
theorem content_aligned {close : UInt8} {opener : Option UInt8} {words : Bool} (h1 : close ≠ asc '\\') (h2 : opener ≠ some (asc '\\')) :
    ∀ (k : Nat) {depth : Nat} {used v rest : Bytes} {n : Nat} (_ : used.length ≤ k)
    (_ : content close opener words depth (used ++ rest) = some (v, n, rest)) {w : Bytes}, AsciiEscapes (used ++ w) → AsciiEscapes used ∧ AsciiEscapes w := by
  intro k
  induction k with
  | zero =>
    intro depth used v rest n hk h w hw
    cases used with
    | nil => exact ⟨trivial, hw⟩
    | cons c t => simp at hk
  | succ k ih =>
    intro depth used v rest n hk h w hw
    cases used with
    | nil => exact ⟨trivial, hw⟩
    | cons c t =>
      simp only [List.length_cons] at hk
      have hrest : ∀ {v' : Bytes} {m : Nat}, some (v', m, c :: t ++ rest) ≠ some (v, n, rest) := by
        intro v' m e
        simp only [Option.some.injEq, Prod.mk.injEq] at e
        have := congrArg List.length e.2.2
        simp at this
        omega
      have step : c ≠ asc '\\' → ∀ {d : Nat} {u : Bytes}, add u (content close opener words d (t ++ rest)) = some (v, n, rest) →
          AsciiEscapes (c :: t) ∧ AsciiEscapes w := by
        intro hc d u e
        obtain ⟨v', e', -⟩ := add_some e
        have := ih (by omega) e' (AsciiEscapes.tail (c := c) (by simpa using hw) hc)
        exact ⟨this.1.cons hc, this.2⟩
      rw [List.cons_append, content_cons] at h
      split at h
      · rename_i e
        exact step (fun h => h2 (by rw [← e, h])) h
      split at h
      · rename_i e
        split at h
        · exact absurd h hrest
        · exact step (by rw [e]; exact h1) h
      split at h
      · rename_i e
        subst e
        cases t with
        | nil =>
          -- the backslash would be the last byte that is used
          exfalso
          cases rest with
          | nil => cases h
          | cons d r =>
            simp only [List.nil_append] at h
            have : ∀ {u : Bytes}, add u (content close opener words depth r) ≠ some (v, n, d :: r) := by
              intro u e
              obtain ⟨v', e', -⟩ := add_some e
              obtain ⟨x, hx⟩ := content_suffix _ (Nat.le_refl _) e'
              have := congrArg List.length hx
              simp at this
              omega
            split at h <;> exact this h
        | cons d t =>
          simp only [List.cons_append] at h hw
          have k1 := AsciiEscapes.escape hw
          have : ∀ {u : Bytes}, add u (content close opener words depth (t ++ rest)) = some (v, n, rest) → AsciiEscapes (asc '\\' :: d :: t) ∧ AsciiEscapes w := by
            intro u e
            obtain ⟨v', e', -⟩ := add_some e
            simp only [List.length_cons] at hk
            have := ih (by omega) e' k1.2
            exact ⟨this.1.escaped k1.1, this.2⟩
          split at h <;> exact this h
      split at h
      · exact absurd h hrest
      · rename_i e _
        exact step e h

/-- The text of the content was read up to `rest`. -/
structure QRead (bs v rest : Bytes) (n : Nat) (s : Lexer) (r : Option MB × Nat) (s' : Lexer) : Prop where
  res : r.1.isSome = true
  depth : r.2 = n
  at' : Upcoming bs rest s'.buffer
  noeof : s'.buffer.eofp = false
  buf : s'.tokenbuf = s.tokenbuf ++ v
  eq : s' = { s with buffer := s'.buffer, tokenbuf := s'.tokenbuf }

theorem QRead.trans {bs v w rest : Bytes} {n : Nat} {s s1 s2 : Lexer} {r : Option MB × Nat} (h : QRead bs v rest n s1 r s2)
    (e : s1 = { s with buffer := s1.buffer, tokenbuf := s.tokenbuf ++ w }) : QRead bs (w ++ v) rest n s r s2 := by
  refine ⟨h.res, h.depth, h.at', h.noeof, ?_, ?_⟩
  · rw [h.buf, e, List.append_assoc]
  · rw [h.eq, e]

theorem space_iff : ∀ c, MB.u8Space c = true ↔ Space c := fun c => by
  have := byte_forall (p := fun c => MB.u8Space c = decide (Space c)) (by decide +kernel) c
  rw [this]; simp

theorem tsLoop_content {bs : Bytes} {f : Nat} {t : UInt8} {pa : Option UInt8} (hf : Delim f t pa) : ∀ (k : Nat) {depth : Nat} {text v rest : Bytes} {n : Nat} {s : Lexer},
    text.length < k → Upcoming bs text s.buffer → content t pa (hasF f STR_FUNC_QWORDS) depth text = some (v, n, rest) →
    (∀ used, text = used ++ rest → AsciiEscapes used) → Wp (tsLoop f t pa k depth) (QRead bs v rest n s) s := by
  intro k
  induction k with
  | zero => intro _ _ _ _ _ _ h; omega
  | succ k ih =>
    intro depth text v rest n s hk ha hc hp
    cases text with
    | nil => simp [content] at hc
    | cons c text =>
      simp only [List.length_cons] at hk
      unfold tsLoop
      refine Wp.bind ?_
      unfold tsStep
      refine Wp.bind (ha.nextc fun b1 h1 hlt => ?_)
      dsimp only
      refine Wp.bind (Wp.modB ?_)
      have hb : BSame b1 (if b1.heredocIndent > 0 then updateIndent (some c) b1 else b1) := by
        split
        · exact (updateIndent_bsame _ _).1
        · exact .refl _
      dsimp only
      have h2 := h1.bsame hb
      generalize (if b1.heredocIndent > 0 then updateIndent (some c) b1 else b1) = b2 at h2 ⊢
      rw [content_cons] at hc
      -- going on with a character added
      have go : c ≠ asc '\\' → ∀ {d : Nat}, add [c] (content t pa (hasF f STR_FUNC_QWORDS) d text) = some (v, n, rest) →
          Wp (do Lexer.tokadd c; Pure.pure (TsStep.go d)) (fun r s1 => Wp (match r with
            | .done r nest => Pure.pure (r, nest)
            | .go nest => tsLoop f t pa k nest) (QRead bs v rest n s) s1) { s with buffer := b2 } := by
        intro hcb d hd
        obtain ⟨v', hd', rfl⟩ := add_some hd
        refine Wp.bind ⟨_, _, rfl, Wp.pure ?_⟩
        refine (ih (s := { s with buffer := b2, tokenbuf := s.tokenbuf ++ [c] }) (by omega) h2.at' hd' fun used hu => (hp (c :: used) (by rw [hu]; rfl)).tail hcb).mono fun r s2 h3 => ?_
        exact h3.trans rfl
      have stop : ∀ {m : Nat}, some (([] : Bytes), m, c :: text) = some (v, n, rest) →
          Wp (do Lexer.pushback (some c); Pure.pure (TsStep.done (some (some c)) m)) (fun r s1 => Wp (match r with
            | .done r nest => Pure.pure (r, nest)
            | .go nest => tsLoop f t pa k nest) (QRead bs v rest n s) s1) { s with buffer := b2 } := by
        intro m hm
        simp only [Option.some.injEq, Prod.mk.injEq] at hm
        obtain ⟨rfl, rfl, rfl⟩ := hm
        refine Wp.bind (Took.pushback (s := { s with buffer := b2 }) h2 fun h3 => Wp.pure (Wp.pure ⟨rfl, rfl, h3, h3.noeof, by simp, rfl⟩))
      refine Wp.ite (fun e => ?_) fun e => ?_
      · rw [if_pos e] at hc; exact go (fun h => hf.pbs (by rw [← e, h])) hc
      rw [if_neg e] at hc
      refine Wp.ite (fun e => ?_) fun e => ?_
      · rw [if_pos e] at hc
        have hcb : c ≠ asc '\\' := by rw [e]; exact hf.bs
        refine Wp.ite (fun e => ?_) fun e => ?_
        · rw [if_pos e] at hc; subst e; exact stop hc
        · rw [if_neg e] at hc; exact go hcb hc
      rw [if_neg e] at hc
      refine Wp.bind (Wp.getB ?_)
      refine Wp.ite (fun e => ?_) fun _ => ?_
      · rw [hf.e] at e; simp at e
      refine Wp.ite (fun e => ?_) fun e => ?_
      · rw [if_pos e] at hc
        subst e
        cases text with
        | nil => cases hc
        | cons d text =>
          simp only [List.length_cons] at hk
          dsimp only at hc
          unfold tsBackslash
          refine Wp.bind (Wp.pcurSub (by have := h2.pos; dsimp only; omega) (Wp.bind ⟨_, _, rfl, ?_⟩))
          have h3 : Upcoming bs (d :: text) { b2 with ptok := b2.pcur - 1 } := h2.at'.bsame ⟨⟨rfl, rfl, rfl, rfl, rfl, rfl, rfl, rfl⟩, rfl, rfl⟩
          refine Wp.bind (Upcoming.nextc (s := { s with buffer := { b2 with ptok := b2.pcur - 1 } }) h3 fun b3 h4 _ => ?_)
          dsimp only
          have add1 : add [d] (content t pa (hasF f STR_FUNC_QWORDS) depth text) = some (v, n, rest) →
              Wp (do Lexer.tokadd d; Pure.pure (TsStep.go depth)) (fun r s1 => Wp (match r with
                | .done r nest => Pure.pure (r, nest)
                | .go nest => tsLoop f t pa k nest) (QRead bs v rest n s) s1) { s with buffer := b3 } := by
            intro hd
            obtain ⟨v', hd', rfl⟩ := add_some hd
            refine Wp.bind ⟨_, _, rfl, Wp.pure ?_⟩
            refine (ih (s := { s with buffer := b3, tokenbuf := s.tokenbuf ++ [d] }) (by omega) h4.at' hd' fun used hu => (hp (asc '\\' :: d :: used) (by rw [hu]; rfl)).escape.2).mono fun r s2 h3 => ?_
            exact h3.trans rfl
          have add2 : add [asc '\\', d] (content t pa (hasF f STR_FUNC_QWORDS) depth text) = some (v, n, rest) →
              Wp (do Lexer.tokadd (asc '\\'); Lexer.tokadd d; Pure.pure (TsStep.go depth)) (fun r s1 => Wp (match r with
                | .done r nest => Pure.pure (r, nest)
                | .go nest => tsLoop f t pa k nest) (QRead bs v rest n s) s1) { s with buffer := b3 } := by
            intro hd
            obtain ⟨v', hd', rfl⟩ := add_some hd
            refine Wp.bind ⟨_, _, rfl, Wp.bind ⟨_, _, rfl, Wp.pure ?_⟩⟩
            refine (ih (s := { s with buffer := b3, tokenbuf := s.tokenbuf ++ [asc '\\'] ++ [d] }) (by omega) h4.at' hd' fun used hu => (hp (asc '\\' :: d :: used) (by rw [hu]; rfl)).escape.2).mono fun r s2 h3 => ?_
            exact h3.trans (by simp)
          have hda : d < 128 := by
            have : ∃ used, text = used ++ rest := by
              split at hc
              · obtain ⟨_, hd, _⟩ := add_some hc; exact content_suffix _ (Nat.le_refl _) hd
              · obtain ⟨_, hd, _⟩ := add_some hc; exact content_suffix _ (Nat.le_refl _) hd
            obtain ⟨used, hu⟩ := this
            exact (hp (asc '\\' :: d :: used) (by rw [hu]; rfl)).escape.1
          refine Wp.ite (fun e => ?_) fun e10 => ?_
          · subst e
            refine Wp.ite (fun e => ?_) fun e => ?_
            · rw [if_pos (.inr (.inr (.inr ⟨e, by decide⟩)))] at hc
              exact add1 hc
            · refine Wp.ite (fun e => ?_) fun _ => ?_
              · rw [hf.e] at e; simp at e
              · rw [if_neg] at hc
                · exact add2 hc
                · rintro (h | h | h | h)
                  · exact absurd h (by decide)
                  · exact hf.nl h.symm
                  · exact hf.pnl h.symm
                  · exact e h.1
          refine Wp.ite (fun e => ?_) fun ebs => ?_
          · subst e
            rw [if_pos (.inl rfl)] at hc
            refine Wp.ite (fun e => ?_) fun _ => ?_
            · rw [hf.esc] at e; simp at e
            · exact Wp.bind (Wp.pure (add1 hc))
          refine Wp.ite (fun e => ?_) fun eu => ?_
          · subst e
            refine Wp.ite (fun _ => ?_) fun e => ?_
            · rw [if_neg] at hc
              · exact add2 hc
              · rintro (h | h | h | h)
                · exact absurd h (by decide)
                · exact hf.u h.symm
                · exact hf.pu h.symm
                · exact absurd h.2 (by decide)
            · rw [hf.e] at e; simp at e
          unfold tsEscapeOther
          have hasc : MB.u8Ascii d = true := by simpa [MB.u8Ascii] using hda
          simp only [hf.e, hf.r, hasc, Bool.not_true, Bool.false_and, Bool.false_eq_true, if_false]
          refine Wp.bind (Wp.pure ?_)
          refine Wp.ite (fun e => ?_) fun ew => ?_
          · simp only [Bool.and_eq_true] at e
            rw [if_pos (.inr (.inr (.inr ⟨e.1, (space_iff d).1 e.2⟩)))] at hc
            exact add1 hc
          refine Wp.ite (fun e => ?_) fun e => ?_
          · have hcond : ¬ (d = asc '\\' ∨ d = t ∨ some d = pa ∨ (hasF f STR_FUNC_QWORDS = true ∧ Space d)) := by
              rintro (h | h | h | h)
              · exact ebs h
              · exact e.1 h
              · exact e.2 h
              · exact ew (by rw [h.1, (space_iff d).2 h.2]; rfl)
            rw [if_neg hcond] at hc
            simp only [not_or] at hcond
            obtain ⟨v', hd, rfl⟩ := add_some hc
            refine Wp.bind ⟨_, _, rfl, Wp.bind ?_⟩
            refine Took.pushback (s := { s with buffer := b3, tokenbuf := s.tokenbuf ++ [asc '\\'] }) h4 fun h5 => Wp.pure ?_
            have hcd : content t pa (hasF f STR_FUNC_QWORDS) depth (d :: text) = some ([d] ++ v', n, rest) := by
              rw [content_cons, if_neg hcond.2.2.1, if_neg hcond.2.1, if_neg hcond.1, if_neg hcond.2.2.2, hd]; rfl
            refine (ih (s := { s with buffer := { b3 with pcur := b3.pbPos }, tokenbuf := s.tokenbuf ++ [asc '\\'] }) (by simp only [List.length_cons]; omega) h5 hcd
              fun used hu => by
                have h := hp (asc '\\' :: used) (by rw [hu]; rfl)
                cases used with
                | nil => trivial
                | cons d' u =>
                  simp only [List.cons_append, List.cons.injEq] at hu
                  exact h.escape.2.cons (by rw [← hu.1]; exact hcond.1)).mono fun r s2 h3 => ?_
            exact h3.trans (w := [asc '\\']) rfl
          · rw [if_pos] at hc
            · exact add1 hc
            · by_cases hdt : d = t
              · exact .inr (.inl hdt)
              · exact .inr (.inr (.inl (by
                  by_contra hne; exact e ⟨hdt, hne⟩)))
      rw [if_neg e] at hc
      have hpos := h2.pos
      refine Wp.bind (Wp.isAsciiPrev hpos ?_)
      have hla : Buffer.byteAt b2 (b2.pcur - 1) = some c := by
        have := h2.last
        rw [← h2.at'.d] at this; exact this
      dsimp only
      rw [hla]
      refine Wp.ite (fun ea => ?_) fun _ => ?_
      · have : ¬ (hasF f STR_FUNC_QWORDS = true ∧ Space c) := by
          rintro ⟨-, h⟩
          have := byte_forall (p := fun c => Space c → MB.isAscii (some c) = true) (by decide +kernel) c h
          rw [this] at ea; simp at ea
        rw [if_neg this] at hc; exact go e hc
      refine Wp.ite (fun ew => ?_) fun ew => ?_
      · simp only [Bool.and_eq_true] at ew
        rw [if_pos ⟨ew.1, (space_iff c).1 ew.2⟩] at hc; exact stop hc
      · rw [if_neg] at hc
        · exact go e hc
        · rintro ⟨h1, h2⟩; exact ew (by rw [h1, (space_iff c).2 h2]; rfl)

/-! ### Tokens of literals -/

/-- The lexer is inside the literal `q`, in front of `text`. -/
structure Lit (bs : Bytes) (q : StringLiteral) (text : Bytes) (s : Lexer) : Prop where
  at' : Upcoming bs text s.buffer
  st : s.strterm = some (.string q)
  ls : s.lvalStart = none
  le : s.lvalEnd = none

/-- What `yylex` makes of the token that was read. -/
def Finish (Q : Token → Lexer → Prop) (t : Tok) (s2 : Lexer) : Prop :=
  t ≠ .tNL ∧ ∃ v, (s2.lval = some v ∨
      (s2.lval = none ∧ tBegin s2 ≤ tEnd s2 ∧ tEnd s2 ≤ s2.buffer.d.bytes.length ∧ v = Spec.slice s2.buffer.d.bytes (tBegin s2) (tEnd s2))) ∧
    Q ⟨t, v, ⟨tBegin s2, tEnd s2⟩⟩ { s2 with lvalStart := none, lvalEnd := none, lval := none }

theorem yylex_finish {x : Ext} {s : Lexer} {Q : Token → Lexer → Prop} (h : Wp (parserYylex x) (Finish Q) { s with lval := none }) : Wp (yylex x) Q s := by
  unfold yylex
  refine Wp.bind (Wp.modS (Wp.bind (h.mono fun t s2 h2 => ?_)))
  obtain ⟨hnl, v, hv, hq⟩ := h2
  refine Wp.bind (Wp.getS (Wp.bind (Wp.getS (Wp.bind (Wp.modS (Wp.bind (Wp.getS ?_)))))))
  dsimp only
  have fin : ∀ (l : Option Bytes) (s3 : Lexer), s3 = { s2 with lvalStart := none, lvalEnd := none, lval := l } → Wp (α := Token) (do
      Lexer.modS fun s => { s with lval := none }
      if t = .tNL then return ⟨t, [10], ⟨tBegin s2, tBegin s2 + 1⟩⟩
      else return ⟨t, v, ⟨tBegin s2, tEnd s2⟩⟩) Q s3 := by
    rintro l s3 rfl
    exact Wp.bind (Wp.modS (Wp.ite (fun e => absurd e hnl) fun _ => Wp.pure hq))
  rcases hv with hv | ⟨hv, h1, h2, rfl⟩
  · rw [hv]; exact fin _ _ rfl
  · rw [hv]
    dsimp only
    refine Wp.bind ?_
    refine ⟨Spec.slice s2.buffer.d.bytes (tBegin s2) (tEnd s2), { s2 with lvalStart := none, lvalEnd := none, lval := none }, ?_, fin _ _ rfl⟩
    have hb := substrAt_ok (b := s2.buffer) h1 h2
    have hl : (Lexer.liftB fun b => b.substrAt (tBegin s2) (tEnd s2)) { s2 with lvalStart := none, lvalEnd := none, lval := none } =
        .ok (some (Spec.slice s2.buffer.d.bytes (tBegin s2) (tEnd s2)), { s2 with lvalStart := none, lvalEnd := none, lval := none }) := by
      simp [Lexer.liftB, hb, Bind.bind, Except.bind, Pure.pure, Except.pure]
    show (Functor.map (fun o : Option Bytes => o.getD []) (Lexer.liftB fun b => b.substrAt (tBegin s2) (tEnd s2))) _ = _
    simp only [Functor.map, StateT.map, Bind.bind, Except.bind, hl, Pure.pure, Except.pure, Option.getD_some]

theorem yylex_string {x : Ext} {s : Lexer} {q : StringLiteral} {Q : Token → Lexer → Prop} (hs : s.strterm = some (.string q))
    (h : Wp (parseString q) (Finish Q) { s with lval := none, buffer := { s.buffer with ptok := s.buffer.pcur } }) : Wp (yylex x) Q s := by
  refine yylex_finish ?_
  unfold parserYylex
  refine Wp.bind (Wp.getS ?_)
  simp only [hs]
  exact Wp.bind ⟨_, _, rfl, h⟩

theorem yylex_code {x : Ext} {s : Lexer} {Q : Token → Lexer → Prop} (hs : s.strterm = none)
    (h : Wp (yylexLoop x s.commandStart s.tokenSeen (64 * (s.buffer.d.bytes.length + 1)) false) (Finish Q)
      { s with lval := none, commandStart := false, tokenSeen := true }) : Wp (yylex x) Q s := by
  refine yylex_finish ?_
  unfold parserYylex
  refine Wp.bind (Wp.getS ?_)
  split
  · rename_i e; simp only [hs] at e; cases e
  · rename_i e; simp only [hs] at e; cases e
  · exact Wp.bind (Wp.getS (Wp.bind (Wp.getS (Wp.bind (Wp.modS (Wp.bind (Wp.fuel h)))))))

/-- The next token is the content of the literal. -/
theorem yylex_quoted {x : Ext} {bs text v rest : Bytes} {q : StringLiteral} {n : Nat} {s : Lexer} {c : UInt8} (hl : Lit bs q (c :: text) s)
    (hf : Delim q.func q.term q.paren) (ht : hasF q.func STR_FUNC_TERM = false) (hli : hasF q.func STR_FUNC_LIST = false)
    (hne : ¬ (c = q.term ∧ q.nest = 0)) (hsp : ¬ (hasF q.func STR_FUNC_QWORDS = true ∧ Space c))
    (hc : content q.term q.paren (hasF q.func STR_FUNC_QWORDS) q.nest (c :: text) = some (v, n, rest))
    (hp : ∀ used, c :: text = used ++ rest → AsciiEscapes used) :
    Wp (yylex x) (fun t s' => t = ⟨.tSTRING_CONTENT, v, ⟨s.buffer.pcur, s'.buffer.pcur⟩⟩ ∧ Lit bs { q with nest := n } rest s' ∧
      s'.diagnostics = s.diagnostics ∧ s'.lexState = s.lexState) s := by
  refine yylex_string hl.st ?_
  unfold parseString
  dsimp only
  refine Wp.bind (Wp.modS (Wp.bind (Wp.modS ?_)))
  rw [ht]
  simp only [Bool.false_eq_true, if_false]
  have ha : Upcoming bs (c :: text) ({ s.buffer with ptok := s.buffer.pcur } : Buffer) :=
    hl.at'.bsame ⟨⟨rfl, rfl, rfl, rfl, rfl, rfl, rfl, rfl⟩, rfl, rfl⟩
  refine Wp.bind (Upcoming.nextc (s := { s with lval := none, buffer := { s.buffer with ptok := s.buffer.pcur }, strterm := none, lvalStart := some s.buffer.pcur }) ha fun b1 h1 hlt => ?_)
  have e1 : (hasF q.func STR_FUNC_QWORDS && MB.isSpace (some c)) = false := by
    by_contra h
    simp only [Bool.not_eq_false, Bool.and_eq_true] at h
    exact hsp ⟨h.1, (space_iff c).1 h.2⟩
  rw [e1, hli]
  simp only [Bool.false_eq_true, if_false]
  refine Wp.bind (Wp.pure ?_)
  refine Wp.ite (fun e => absurd ⟨by simpa using e.1, e.2⟩ hne) fun _ => ?_
  refine Wp.ite (fun e => by simp at e) fun _ => ?_
  refine Wp.bind (Wp.modS ?_)
  dsimp only
  refine Wp.ite (fun e => ?_) fun _ => ?_
  · rw [hf.e] at e; simp at e
  refine Wp.bind (Took.pushback (c := c) (text := text) (bs := bs) (h1.bsame ⟨⟨rfl, rfl, rfl, rfl, rfl, rfl, rfl, rfl⟩, rfl, rfl⟩) fun h2 => ?_)
  unfold stringContent tokaddString
  refine Wp.bind (Wp.bind (Wp.fuel ?_))
  have hd : (b1.d.bytes.length : Nat) = bs.length := by rw [h1.at'.d]
  have hlen : (c :: text).length ≤ bs.length := by
    rw [← hl.at'.txt]
    exact Nat.le_trans (collapse_length _ (Nat.le_refl _)) (by simp)
  refine (tsLoop_content hf _ (depth := q.nest) (by show _ < 64 * (b1.d.bytes.length + 1); rw [hd]; omega) h2 hc hp).mono fun r s2 h3 => ?_
  obtain ⟨r1, r2⟩ := r
  obtain ⟨h4, h5, h6, h7, h8, h9⟩ := h3
  dsimp only at h4 h5 h6 h7 h8 h9 ⊢
  subst h5
  refine Wp.bind (Wp.getB ?_)
  rw [h7, Bool.and_false]
  simp only [Bool.false_eq_true, if_false]
  refine Wp.bind (Wp.modS (Wp.bind (Wp.modS (Wp.pure ⟨by decide, v, .inl ?_, ?_⟩))))
  · dsimp only; rw [h8]; simp
  · refine ⟨?_, ⟨h6, rfl, rfl, rfl⟩, ?_, ?_⟩
    · simp only [tBegin, tEnd]
      rw [h9]; simp [hl.le]
    · dsimp only; rw [h9]
    · dsimp only; rw [h9]

/-- A colon that is not followed by another one. -/
def colonNext (rest : Bytes) : Bool := decide (rest.head? = some (asc ':') ∧ rest.tail.head? ≠ some (asc ':'))

theorem collapse_head {bs : Bytes} {c : UInt8} (hc : c ≠ 10 ∧ c ≠ 13) : (collapse bs).head? = some c ↔ bs.head? = some c := by
  cases bs with
  | nil => simp [collapse]
  | cons d t =>
    by_cases h : d = 13 ∧ ∃ r, t = 10 :: r
    · obtain ⟨rfl, r, rfl⟩ := h
      simp only [collapse, List.head?_cons, Option.some.injEq]
      exact ⟨fun h => absurd h.symm hc.1, fun h => absurd h.symm hc.2⟩
    · rw [Verif.Props.collapse_ne h]; simp

theorem line_end {bs rest : Bytes} {b : Buffer} (h : Upcoming bs rest b) {i : Nat} (h1 : b.pcur ≤ i) (h0 : 0 < i) {c : UInt8} (h2 : bs[i - 1]? = some c)
    (hc : c ≠ 10) (h3 : b.pend ≤ i) (h4 : i ≤ b.pend) : bs[i]? = none := by
  have hi : i = b.pend := by omega
  subst hi
  by_cases hl : b.lastline + 1 < b.d.lines.length
  · have := h.seq.good.tab.last_lf hl
    rw [← h.seq.good.stop, h.d, h2] at this
    simp only [Option.some.injEq] at this
    exact absurd this hc
  · have e : b.lastline + 1 = b.d.lines.length := by have := h.seq.good.llen; omega
    have := h.seq.good.tab.last_stop
    rw [← e, Nat.add_sub_cancel, ← h.seq.good.stop, h.d] at this
    rw [this]; simp

theorem Wp.labelSuffix {bs rest : Bytes} {s : Lexer} {c : UInt8} (h : Upcoming bs rest s.buffer) (hp : 0 < s.buffer.pcur) (hb : bs[s.buffer.pcur - 1]? = some c)
    (hc : c ≠ 10) {Q : Bool → Lexer → Prop} (hq : Q (colonNext rest) s) : Wp (Lexer.isLabelSuffix 0) Q s := by
  unfold Lexer.isLabelSuffix
  have key : (s.buffer.peekN (asc ':') 0 >>= fun r => if r then (s.buffer.peekN (asc ':') (0 + 1) >>= fun r => Pure.pure !r) else Pure.pure false) = .ok (colonNext rest) := by
    rw [peekN_ok h.seq.good, peekN_ok h.seq.good, h.d]
    have hcol : ∀ w : Bytes, (collapse w).head? = some (asc ':') ↔ w.head? = some (asc ':') := fun w => collapse_head (by decide)
    have hhi := h.seq.good.hi
    have e0 : rest.head? = some (asc ':') ↔ s.buffer.pcur + 0 < s.buffer.pend ∧ bs[s.buffer.pcur + 0]? = some (asc ':') := by
      rw [← h.txt, hcol, List.head?_drop, Nat.add_zero]
      refine ⟨fun e => ⟨?_, e⟩, fun e => e.2⟩
      by_contra hn
      have := line_end h (Nat.le_refl _) hp hb hc (by omega) hhi
      rw [this] at e; cases e
    by_cases h1 : s.buffer.pcur + 0 < s.buffer.pend ∧ bs[s.buffer.pcur + 0]? = some (asc ':')
    · have e1 : rest.tail.head? = some (asc ':') ↔ s.buffer.pcur + (0 + 1) < s.buffer.pend ∧ bs[s.buffer.pcur + (0 + 1)]? = some (asc ':') := by
        obtain ⟨h2, h3⟩ := h1
        rw [Nat.add_zero] at h2 h3
        have hlt := (List.getElem?_eq_some_iff.1 h3).1
        have : rest = asc ':' :: collapse (bs.drop (s.buffer.pcur + 1)) := by
          rw [← h.txt, List.drop_eq_getElem_cons hlt, (List.getElem?_eq_some_iff.1 h3).2, Verif.Props.collapse_ne (fun h => absurd h.1 (by decide))]
        rw [this, List.tail_cons, hcol, List.head?_drop, Nat.zero_add]
        refine ⟨fun e => ⟨?_, e⟩, fun e => e.2⟩
        by_contra hn
        have := line_end h (i := s.buffer.pcur + 1) (by omega) (by omega) (c := asc ':') (by rw [Nat.add_sub_cancel]; exact h3) (by decide) (by omega) (by omega)
        rw [this] at e; cases e
      simp only [Bind.bind, Except.bind, Pure.pure, Except.pure, colonNext]
      rw [decide_eq_true h1]
      simp only [if_true]
      congr 1
      have : (rest.head? = some (asc ':') ∧ rest.tail.head? ≠ some (asc ':')) ↔
          ¬ (s.buffer.pcur + (0 + 1) < s.buffer.pend ∧ bs[s.buffer.pcur + (0 + 1)]? = some (asc ':')) :=
        ⟨fun h => fun h' => h.2 (e1.2 h'), fun h' => ⟨e0.2 h1, fun h'' => h' (e1.1 h'')⟩⟩
      rw [decide_eq_decide.2 this, decide_not]
    · simp only [Bind.bind, Except.bind, Pure.pure, Except.pure, colonNext]
      rw [decide_eq_false h1]
      simp only [Bool.false_eq_true, if_false]
      congr 1
      symm
      rw [decide_eq_false]
      exact fun h => h1 (e0.1 h.1)
  exact Wp.liftB _ key hq

/-- The token at the end of a literal. -/
def closeTok (f : Nat) (rest : Bytes) : Tok := if hasF f STR_FUNC_LABEL && colonNext rest then .tLABEL_END else .tSTRING_END

theorem Upcoming.le {bs rest : Bytes} {b : Buffer} (h : Upcoming bs rest b) : b.pcur ≤ bs.length := by
  have h1 := h.seq.good.hi; have h2 := h.seq.good.pend_le
  rw [h.d] at h2; omega

/-- After a literal. -/
structure Closed (bs rest : Bytes) (s s' : Lexer) : Prop where
  at' : Upcoming bs rest s'.buffer
  st : s'.strterm = none
  ls : s'.lvalStart = none
  le : s'.lvalEnd = none
  diag : s'.diagnostics = s.diagnostics

/-- A token covers the text from the cursor before to the cursor after it. -/
def Covers (bs : Bytes) (t : Tok) (s : Lexer) (tok : Token) (s' : Lexer) : Prop :=
  tok = ⟨t, Spec.slice bs s.buffer.pcur s'.buffer.pcur, ⟨s.buffer.pcur, s'.buffer.pcur⟩⟩

/-- The end of a literal. -/
theorem yylex_close {x : Ext} {bs rest : Bytes} {q : StringLiteral} {s : Lexer} (hl : Lit bs q (q.term :: rest) s)
    (hr : hasF q.func STR_FUNC_REGEXP = false) (hnl : q.term ≠ 10) (ht : hasF q.func STR_FUNC_TERM = false) (hli : hasF q.func STR_FUNC_LIST = false)
    (hw : hasF q.func STR_FUNC_QWORDS = false) (hn : q.nest = 0) (hlab : (hasF q.func STR_FUNC_LABEL && colonNext rest) = false) :
    Wp (yylex x) (fun t s' => Covers bs .tSTRING_END s t s' ∧ Closed bs rest s s' ∧ s'.lexState = EXPR_END) s := by
  refine yylex_string hl.st ?_
  unfold parseString
  dsimp only
  refine Wp.bind (Wp.modS (Wp.bind (Wp.modS ?_)))
  rw [ht]
  simp only [Bool.false_eq_true, if_false]
  have ha : Upcoming bs (q.term :: rest) ({ s.buffer with ptok := s.buffer.pcur } : Buffer) :=
    hl.at'.bsame ⟨⟨rfl, rfl, rfl, rfl, rfl, rfl, rfl, rfl⟩, rfl, rfl⟩
  refine Wp.bind (Upcoming.nextc (s := { s with lval := none, buffer := { s.buffer with ptok := s.buffer.pcur }, strterm := none, lvalStart := some s.buffer.pcur }) ha fun b1 h1 hlt => ?_)
  rw [hw, hli]
  simp only [Bool.false_and, Bool.false_eq_true, if_false]
  refine Wp.bind (Wp.pure ?_)
  refine Wp.ite (fun _ => ?_) fun e => absurd ⟨rfl, hn⟩ e
  refine Wp.bind (Wp.modS ?_)
  unfold stringTerm
  refine Wp.bind (Wp.modS ?_)
  refine Wp.ite (fun e => ?_) fun _ => ?_
  · rw [hr] at e; simp at e
  refine Wp.bind (Wp.labelSuffix (c := q.term) h1.at' h1.pos h1.last hnl ?_)
  rw [hlab]
  simp only [Bool.false_eq_true, if_false]
  have hle : s.buffer.pcur ≤ b1.pcur := Nat.le_of_lt hlt.lt
  refine Wp.bind (Wp.modS (Wp.pure ⟨by decide, _, .inr ⟨rfl, ?_, ?_, rfl⟩, ?_, ⟨h1.at', rfl, rfl, rfl, rfl⟩, rfl⟩))
  · simp only [tBegin, tEnd, hl.le]; exact hle
  · simp only [tEnd, hl.le]; rw [h1.at'.d]; exact h1.at'.le
  · simp only [Covers, tBegin, tEnd, hl.le, h1.at'.d, Option.getD]

/-- The end of a literal that is a label. -/
theorem yylex_close_label {x : Ext} {bs rest : Bytes} {q : StringLiteral} {s : Lexer} (hl : Lit bs q (q.term :: rest) s)
    (hr : hasF q.func STR_FUNC_REGEXP = false) (hnl : q.term ≠ 10) (ht : hasF q.func STR_FUNC_TERM = false) (hli : hasF q.func STR_FUNC_LIST = false)
    (hw : hasF q.func STR_FUNC_QWORDS = false) (hn : q.nest = 0) (hlab : (hasF q.func STR_FUNC_LABEL && colonNext rest) = true) :
    Wp (yylex x) (fun t s' => Covers bs .tLABEL_END s t s' ∧ Closed bs rest.tail s s' ∧ s'.lexState = EXPR_BEG ||| EXPR_LABEL) s := by
  refine yylex_string hl.st ?_
  unfold parseString
  dsimp only
  refine Wp.bind (Wp.modS (Wp.bind (Wp.modS ?_)))
  rw [ht]
  simp only [Bool.false_eq_true, if_false]
  have ha : Upcoming bs (q.term :: rest) ({ s.buffer with ptok := s.buffer.pcur } : Buffer) :=
    hl.at'.bsame ⟨⟨rfl, rfl, rfl, rfl, rfl, rfl, rfl, rfl⟩, rfl, rfl⟩
  refine Wp.bind (Upcoming.nextc (s := { s with lval := none, buffer := { s.buffer with ptok := s.buffer.pcur }, strterm := none, lvalStart := some s.buffer.pcur }) ha fun b1 h1 hlt => ?_)
  rw [hw, hli]
  simp only [Bool.false_and, Bool.false_eq_true, if_false]
  refine Wp.bind (Wp.pure ?_)
  refine Wp.ite (fun _ => ?_) fun e => absurd ⟨rfl, hn⟩ e
  refine Wp.bind (Wp.modS ?_)
  unfold stringTerm
  refine Wp.bind (Wp.modS ?_)
  refine Wp.ite (fun e => ?_) fun _ => ?_
  · rw [hr] at e; simp at e
  refine Wp.bind (Wp.labelSuffix (c := q.term) h1.at' h1.pos h1.last hnl ?_)
  rw [hlab]
  simp only [if_true]
  have h1' := h1.at'
  cases rest with
  | nil => simp [colonNext] at hlab
  | cons c rest =>
    refine Wp.bind (Upcoming.nextc (s := { s with lval := none, buffer := b1, strterm := none, lvalStart := some s.buffer.pcur }) h1' fun b2 h2 hlt2 => ?_)
    have hle : s.buffer.pcur ≤ b2.pcur := Nat.le_of_lt (Nat.lt_trans hlt.lt hlt2.lt)
    refine Wp.bind (Wp.modS (Wp.pure ⟨by decide, _, .inr ⟨rfl, ?_, ?_, rfl⟩, ?_, ⟨h2.at', rfl, rfl, rfl, rfl⟩, rfl⟩))
    · simp only [tBegin, tEnd, hl.le]; exact hle
    · simp only [tEnd, hl.le]; rw [h2.at'.d]; exact h2.at'.le
    · simp only [Covers, tBegin, tEnd, hl.le, h2.at'.d, Option.getD]

theorem skipSpaces_run {bs rest : Bytes} {d : UInt8} (hd : ¬ Space d) : ∀ (sp : Bytes) {k : Nat} {s : Lexer}, (∀ c ∈ sp, Space c) → sp.length < k →
    Upcoming bs (sp ++ d :: rest) s.buffer → Wp (skipSpaces k) (fun c s' => c = some d ∧ Took bs d rest s'.buffer ∧ s.buffer.pcur ≤ s'.buffer.pbPos ∧
      s' = { s with buffer := s'.buffer }) s := by
  intro sp
  induction sp with
  | nil =>
    intro k s _ hk ha
    obtain ⟨k, rfl⟩ : ∃ k', k = k' + 1 := ⟨k - 1, by simp at hk; omega⟩
    unfold skipSpaces
    refine Wp.bind (Upcoming.nextc ha fun b1 h1 hlt => ?_)
    refine Wp.ite (fun _ => Wp.pure ⟨rfl, h1, Nat.le_of_eq hlt.back.symm, rfl⟩) fun e => absurd ((space_iff d).1 ?_) hd
    simpa [MB.isSpace] using e
  | cons c sp ih =>
    intro k s hs hk ha
    simp only [List.length_cons] at hk
    obtain ⟨k, rfl⟩ : ∃ k', k = k' + 1 := ⟨k - 1, by omega⟩
    unfold skipSpaces
    refine Wp.bind (Upcoming.nextc ha fun b1 h1 hlt => ?_)
    have hc := (space_iff c).2 (hs c (by simp))
    refine Wp.ite (fun e => ?_) fun _ => ?_
    · rw [show MB.isSpace (some c) = MB.u8Space c from rfl, hc] at e; simp at e
    · refine (ih (s := { s with buffer := b1 }) (fun c hc => hs c (by simp [hc])) (by omega) h1.at').mono fun r s2 h2 => ?_
      obtain ⟨h3, h4, h5, h6⟩ := h2
      exact ⟨h3, h4, Nat.le_trans (Nat.le_of_lt hlt.lt) h5, h6⟩

/-- The state of a word list after its start was seen. -/
def asWords (q : StringLiteral) : StringLiteral := { q with func := STR_FUNC_QWORDS }
/-- The state of a word list in front of its end. -/
def atEnd (q : StringLiteral) : StringLiteral := { q with func := STR_FUNC_QWORDS ||| STR_FUNC_TERM }

/-- White space between words, also in front of the first and after the last one. -/
theorem yylex_space {x : Ext} {bs rest sp : Bytes} {q : StringLiteral} {s : Lexer} {d : UInt8} (hl : Lit bs q (sp ++ d :: rest) s)
    (hq : q.func = str_sword ∨ (q.func = STR_FUNC_QWORDS ∧ (sp ≠ [] ∨ (d = q.term ∧ q.nest = 0)))) (hs : ∀ c ∈ sp, Space c) (hd : ¬ Space d) :
    Wp (yylex x) (fun t s' => Covers bs .tSPACE s t s' ∧ Lit bs (if d = q.term ∧ q.nest = 0 then atEnd q else asWords q) (d :: rest) s' ∧
      s'.diagnostics = s.diagnostics) s := by
  refine yylex_string hl.st ?_
  unfold parseString
  dsimp only
  refine Wp.bind (Wp.modS (Wp.bind (Wp.modS ?_)))
  have f1 : hasF q.func STR_FUNC_TERM = false := by rcases hq with h | ⟨h, _⟩ <;> rw [h] <;> decide
  have f2 : hasF q.func STR_FUNC_QWORDS = true := by rcases hq with h | ⟨h, _⟩ <;> rw [h] <;> decide
  rw [f1, f2]
  simp only [Bool.false_eq_true, if_false, Bool.true_and]
  have hn' : (if hasF q.func STR_FUNC_LIST then { q with func := q.func ^^^ STR_FUNC_LIST } else q) = asWords q := by
    rcases hq with h | ⟨h, _⟩
    · rw [if_pos (by rw [h]; decide)]; simp only [asWords, h]; congr 1
    · rw [if_neg (by rw [h]; decide)]; simp only [asWords, ← h]
  have ha : Upcoming bs (sp ++ d :: rest) ({ s.buffer with ptok := s.buffer.pcur } : Buffer) :=
    hl.at'.bsame ⟨⟨rfl, rfl, rfl, rfl, rfl, rfl, rfl, rfl⟩, rfl, rfl⟩
  -- what follows once the first other character was read
  have main : ∀ (space : Bool) (s2 : Lexer), (space = true ∨ (d = q.term ∧ q.nest = 0)) → Took bs d rest s2.buffer → s.buffer.pcur ≤ s2.buffer.pbPos →
      s2 = { s with lval := none, strterm := none, lvalStart := some s.buffer.pcur, buffer := s2.buffer } →
      Wp (do
        if some d = some q.term ∧ (asWords q).nest = 0 then
          if true = true then
            Lexer.pushback (some d)
            restoreStrterm { asWords q with func := (asWords q).func ||| STR_FUNC_TERM }
            return Tok.tSPACE
          else
            restoreStrterm (asWords q)
            stringTerm q.term q.func
        else if space = true then
          Lexer.pushback (some d)
          restoreStrterm (asWords q)
          return .tSPACE
        else
          newtok
          if (hasF q.func STR_FUNC_EXPAND && isC (some d) '#') = true then
            match ← peekVariableName with
            | some t =>
              restoreStrterm (asWords q)
              return t
            | none =>
              Lexer.tokadd (asc '#')
              Lexer.pushback (← Lexer.nextc)
              stringContent (asWords q) q.func q.term q.paren
          else
            Lexer.pushback (some d)
            stringContent (asWords q) q.func q.term q.paren) (Finish (fun t s' => Covers bs .tSPACE s t s' ∧
        Lit bs (if d = q.term ∧ q.nest = 0 then atEnd q else asWords q) (d :: rest) s' ∧ s'.diagnostics = s.diagnostics)) s2 := by
    intro space s2 hsp h1 hle e2
    have fin : ∀ (q' : StringLiteral), q' = (if d = q.term ∧ q.nest = 0 then atEnd q else asWords q) → Wp (do
          Lexer.pushback (some d)
          restoreStrterm q'
          return Tok.tSPACE) (Finish (fun t s' => Covers bs .tSPACE s t s' ∧
        Lit bs (if d = q.term ∧ q.nest = 0 then atEnd q else asWords q) (d :: rest) s' ∧ s'.diagnostics = s.diagnostics)) s2 := by
      intro q' hq'
      refine Wp.bind (Took.pushback h1 fun h2 => Wp.bind (Wp.modS (Wp.pure ?_)))
      rw [e2]
      rw [e2] at h2
      refine ⟨by decide, _, .inr ⟨rfl, ?_, ?_, rfl⟩, ?_, ⟨h2, by rw [hq'], rfl, rfl⟩, rfl⟩
      · simp only [tBegin, tEnd, hl.le]; exact hle
      · simp only [tEnd, hl.le]; have := h2.le; rw [← h2.d] at this; exact this
      · have := h2.d
        simp only [Covers, tBegin, tEnd, hl.le, Option.getD, Buffer.d] at this ⊢
        rw [this]
    refine Wp.ite (fun e => ?_) fun e => ?_
    · refine Wp.ite (fun _ => fin _ ?_) fun e => absurd rfl e
      rw [if_pos ⟨by simpa using e.1, e.2⟩]; rfl
    · have e' : ¬ (d = q.term ∧ q.nest = 0) := fun h => e ⟨by rw [h.1], h.2⟩
      refine Wp.ite (fun _ => fin _ (by rw [if_neg e'])) fun h => ?_
      rcases hsp with h' | h'
      · exact absurd h' h
      · exact absurd h' e'
  rw [hn']
  cases sp with
  | nil =>
    refine Wp.bind (Upcoming.nextc (s := { s with lval := none, buffer := { s.buffer with ptok := s.buffer.pcur }, strterm := none, lvalStart := some s.buffer.pcur }) ha fun b1 h1 hm => ?_)
    have hsp : MB.isSpace (some d) = false := by
      by_contra h; exact hd ((space_iff d).1 (by simpa [MB.isSpace] using h))
    rw [hsp]
    simp only [Bool.false_eq_true, if_false, Bool.false_or]
    refine Wp.bind (Wp.pure ?_)
    refine main (hasF q.func STR_FUNC_LIST) _ ?_ h1 (by rw [hm.back]; exact Nat.le_refl _) rfl
    rcases hq with h | ⟨_, h | h⟩
    · left; rw [h]; decide
    · exact absurd rfl h
    · exact .inr h
  | cons c sp =>
    refine Wp.bind (Upcoming.nextc (s := { s with lval := none, buffer := { s.buffer with ptok := s.buffer.pcur }, strterm := none, lvalStart := some s.buffer.pcur }) ha fun b1 h1 hm => ?_)
    have hsp : MB.isSpace (some c) = true := (space_iff c).2 (hs c (by simp))
    rw [hsp]
    simp only [if_true, Bool.true_or]
    have hlen : (sp ++ d :: rest).length ≤ bs.length := by
      have := h1.at'.txt
      show (List.append sp (d :: rest)).length ≤ _
      rw [← this]
      exact Nat.le_trans (collapse_length _ (Nat.le_refl _)) (by simp)
    refine Wp.bind (Wp.fuel (Wp.bind ((skipSpaces_run hd sp (fun c hc => hs c (by simp [hc])) ?_ h1.at').mono fun r s2 h2 => ?_)))
    · show _ < 64 * (b1.d.bytes.length + 1)
      rw [h1.at'.d]; simp only [List.length_append, List.length_cons] at hlen; omega
    obtain ⟨rfl, h3, h4, h5⟩ := h2
    exact main true s2 (.inl rfl) h3 (Nat.le_trans (Nat.le_of_lt hm.lt) h4) (by rw [h5])

/-- The end of a word list. -/
theorem yylex_words_end {x : Ext} {bs rest : Bytes} {q : StringLiteral} {s : Lexer} {d : UInt8} (hl : Lit bs (atEnd q) (d :: rest) s)
    (hh : q.heredocEnd = none) :
    Wp (yylex x) (fun t s' => Covers bs .tSTRING_END s t s' ∧ Closed bs rest s s' ∧ s'.lexState = EXPR_END) s := by
  refine yylex_string hl.st ?_
  unfold parseString
  dsimp only
  refine Wp.bind (Wp.modS (Wp.bind (Wp.modS ?_)))
  have f1 : hasF (atEnd q).func STR_FUNC_TERM = true := by simp only [atEnd]; decide
  have f2 : hasF (atEnd q).func STR_FUNC_QWORDS = true := by simp only [atEnd]; decide
  have f3 : hasF (atEnd q).func STR_FUNC_REGEXP = false := by simp only [atEnd]; decide
  have hh' : (atEnd q).heredocEnd = none := hh
  rw [f1, f2, f3, hh']
  simp only [Bool.false_eq_true, if_false, if_true]
  have ha : Upcoming bs (d :: rest) ({ s.buffer with ptok := s.buffer.pcur } : Buffer) :=
    hl.at'.bsame ⟨⟨rfl, rfl, rfl, rfl, rfl, rfl, rfl, rfl⟩, rfl, rfl⟩
  refine Wp.bind (Upcoming.nextc (s := { s with lval := none, buffer := { s.buffer with ptok := s.buffer.pcur }, strterm := none, lvalStart := some s.buffer.pcur }) ha fun b1 h1 hm => ?_)
  refine Wp.bind (Wp.modS (Wp.bind (Wp.modS (Wp.pure ⟨by decide, _, .inr ⟨rfl, ?_, ?_, rfl⟩, ?_, ⟨h1.at', rfl, rfl, rfl, rfl⟩, rfl⟩))))
  · simp only [tBegin, tEnd, hl.le]; exact Nat.le_of_lt hm.lt
  · simp only [tEnd, hl.le]; rw [h1.at'.d]; exact h1.at'.le
  · simp only [Covers, tBegin, tEnd, hl.le, h1.at'.d, Option.getD]

/-! ### The start of literals -/

/-- One character in the main loop. -/
theorem yylexLoop_char {x : Ext} {cmd ts sp : Bool} {n : Nat} {s : Lexer} {bs text : Bytes} {c : UInt8} (h : Upcoming bs (c :: text) s.buffer)
    {Q : Tok → Lexer → Prop}
    (hq : ∀ b, Took bs c text b → Moved c s.buffer b → b.ptok = s.buffer.pcur → Wp (do match ← dispatch x c sp s.lexState cmd ts with
      | .tok t => return t
      | .retry spaceSeen => yylexLoop x cmd ts n spaceSeen
      | .ident => parseIdent x (some c) cmd) Q { s with buffer := b }) : Wp (yylexLoop x cmd ts (n + 1) sp) Q s := by
  unfold yylexLoop
  refine Wp.bind (Wp.getS (Wp.bind ⟨_, _, rfl, Wp.bind (Upcoming.nextc (s := { s with buffer := { s.buffer with ptok := s.buffer.pcur } })
    (h.bsame ⟨⟨rfl, rfl, rfl, rfl, rfl, rfl, rfl, rfl⟩, rfl, rfl⟩) fun b h1 h2 => ?_)⟩))
  exact hq b h1 ⟨h2.lt, h2.back, h2.one, fun _ => h2.tok rfl⟩ (h2.tok rfl)

/-- Blanks in the main loop. -/
theorem yylexLoop_blanks {x : Ext} {cmd ts : Bool} {bs text : Bytes} {Q : Tok → Lexer → Prop} : ∀ (blanks : Bytes) {sp : Bool} {n : Nat} {s : Lexer},
    (∀ c ∈ blanks, Blank c) → blanks.length < n → Upcoming bs (blanks ++ text) s.buffer →
    (∀ n b sp, 0 < n → Upcoming bs text b → b.pcur = s.buffer.pcur + blanks.length → Wp (yylexLoop x cmd ts n sp) Q { s with buffer := b }) →
    Wp (yylexLoop x cmd ts n sp) Q s := by
  intro blanks
  induction blanks with
  | nil => intro sp n s _ hn h hq; exact hq n s.buffer sp (by simpa using hn) h rfl
  | cons c blanks ih =>
    intro sp n s hb hn h hq
    simp only [List.length_cons] at hn
    obtain ⟨n, rfl⟩ : ∃ k', n = k' + 1 := ⟨n - 1, by omega⟩
    have hc := hb c (by simp)
    refine yylexLoop_char h fun b h1 h2 _ => ?_
    refine Wp.bind ?_
    unfold dispatch
    refine Wp.ite (fun e => absurd e (by rcases hc with rfl | rfl | rfl | rfl <;> decide)) fun _ => ?_
    refine Wp.ite (fun e => absurd e (by rcases hc with rfl | rfl | rfl | rfl <;> decide)) fun _ => ?_
    refine Wp.ite (fun _ => Wp.pure ?_) fun e => absurd hc e
    refine ih (s := { s with buffer := b }) (fun c hc => hb c (by simp [hc])) (by omega) h1.at' fun n b' sp hn h3 h4 => hq n b' sp hn h3 ?_
    rw [h4]
    have := h2.one (by rcases hc with rfl | rfl | rfl | rfl <;> decide)
    simp only [List.length_cons, this]; omega

/-- The literal that a single quote starts. -/
def singleQuoted (label : Bool) : StringLiteral := ⟨0, str_squote ||| (if label then str_label else 0), none, asc '\'', none⟩

/-- The literal that a double quote starts. -/
def doubleQuoted (label : Bool) : StringLiteral := ⟨0, str_dquote ||| (if label then str_label else 0), none, asc '"', none⟩

theorem yylex_open_quote {x : Ext} {bs blanks text : Bytes} {s : Lexer} (h : Upcoming bs (blanks ++ asc '\'' :: text) s.buffer) (hb : ∀ c ∈ blanks, Blank c)
    (hst : s.strterm = none) (hls : s.lvalStart = none) (hle : s.lvalEnd = none) :
    Wp (yylex x) (fun t s' => t = ⟨.tSTRING_BEG, ascs "'", ⟨s.buffer.pcur + blanks.length, s.buffer.pcur + blanks.length + 1⟩⟩ ∧
      Lit bs (singleQuoted (s.lexState.isLabelPossible s.commandStart)) text s' ∧ s'.buffer.pcur = s.buffer.pcur + blanks.length + 1 ∧
      s'.diagnostics = s.diagnostics) s := by
  refine yylex_code hst ?_
  have hlen : (blanks ++ asc '\'' :: text).length ≤ bs.length := by
    rw [← h.txt]
    exact Nat.le_trans (collapse_length _ (Nat.le_refl _)) (by simp)
  refine yylexLoop_blanks blanks (text := asc '\'' :: text) (bs := bs) hb ?_ h fun n b sp hn h1 hp => ?_
  · rw [h.d]; simp only [List.length_append, List.length_cons] at hlen; omega
  obtain ⟨n, rfl⟩ : ∃ k', n = k' + 1 := ⟨n - 1, by omega⟩
  refine yylexLoop_char (s := { s with lval := none, commandStart := false, tokenSeen := true, buffer := b }) h1 fun b1 h2 hm ht => Wp.bind ?_
  unfold dispatch
  iterate 12 refine Wp.ite (fun e => absurd e (by decide)) fun _ => ?_
  refine Wp.ite (fun _ => ?_) fun e => absurd rfl e
  unfold lexQuote
  refine Wp.bind (Wp.getS (Wp.bind (Wp.modS (Wp.bind (Wp.pcurSub h2.pos (Wp.bind ⟨_, _, rfl, Wp.pure (Wp.pure ?_)⟩))))))
  have hone := hm.one (by decide)
  dsimp only at hone hp
  have hlast := h2.last
  have hle2 := h2.at'.le
  have hsl : Spec.slice bs (b1.pcur - 1) b1.pcur = ascs "'" := by
    rw [Verif.slice_head (c := asc '\'') (by omega) hlast, show b1.pcur - 1 + 1 = b1.pcur by omega, Verif.slice_empty]; rfl
  refine ⟨by decide, ascs "'", .inr ⟨rfl, ?_, ?_, ?_⟩, ?_, ⟨h2.at'.bsame ⟨⟨rfl, rfl, rfl, rfl, rfl, rfl, rfl, rfl⟩, rfl, rfl⟩, rfl, rfl, rfl⟩, ?_, rfl⟩
  · simp only [tBegin, tEnd, hls, hle, Option.getD]
    show b1.pcur - 1 ≤ b1.pcur
    omega
  · simp only [tEnd, hle, Option.getD]
    show b1.pcur ≤ b1.d.bytes.length
    rw [h2.at'.d]; exact hle2
  · simp only [tBegin, tEnd, hls, hle, Option.getD]
    show _ = Spec.slice b1.d.bytes (b1.pcur - 1) b1.pcur
    rw [h2.at'.d, hsl]
  · simp only [tBegin, tEnd, hls, hle, Option.getD]
    show Token.mk _ _ ⟨b1.pcur - 1, b1.pcur⟩ = _
    rw [show b1.pcur - 1 = s.buffer.pcur + blanks.length by omega, show b1.pcur = s.buffer.pcur + blanks.length + 1 by omega]
  · show b1.pcur = _
    omega

theorem yylex_open_double {x : Ext} {bs blanks text : Bytes} {s : Lexer} (h : Upcoming bs (blanks ++ asc '"' :: text) s.buffer) (hb : ∀ c ∈ blanks, Blank c)
    (hst : s.strterm = none) (hls : s.lvalStart = none) (hle : s.lvalEnd = none) :
    Wp (yylex x) (fun t s' => t = ⟨.tSTRING_BEG, [asc '"'], ⟨s.buffer.pcur + blanks.length, s.buffer.pcur + blanks.length + 1⟩⟩ ∧
      Lit bs (doubleQuoted (s.lexState.isLabelPossible s.commandStart)) text s' ∧ s'.buffer.pcur = s.buffer.pcur + blanks.length + 1 ∧
      s'.diagnostics = s.diagnostics) s := by
  refine yylex_code hst ?_
  have hlen : (blanks ++ asc '"' :: text).length ≤ bs.length := by
    rw [← h.txt]
    exact Nat.le_trans (collapse_length _ (Nat.le_refl _)) (by simp)
  refine yylexLoop_blanks blanks (text := asc '"' :: text) (bs := bs) hb ?_ h fun n b sp hn h1 hp => ?_
  · rw [h.d]; simp only [List.length_append, List.length_cons] at hlen; omega
  obtain ⟨n, rfl⟩ : ∃ k', n = k' + 1 := ⟨n - 1, by omega⟩
  refine yylexLoop_char (s := { s with lval := none, commandStart := false, tokenSeen := true, buffer := b }) h1 fun b1 h2 hm ht => Wp.bind ?_
  unfold dispatch
  repeat refine Wp.ite (fun e => absurd e (by decide)) fun _ => ?_
  refine Wp.ite (fun _ => ?_) fun e => absurd rfl e
  unfold lexQuote
  refine Wp.bind (Wp.getS (Wp.bind (Wp.modS (Wp.bind (Wp.pcurSub h2.pos (Wp.bind ⟨_, _, rfl, Wp.pure (Wp.pure ?_)⟩))))))
  have hone := hm.one (by decide)
  dsimp only at hone hp
  have hlast := h2.last
  have hle2 := h2.at'.le
  have hsl : Spec.slice bs (b1.pcur - 1) b1.pcur = [asc '"'] := by
    rw [Verif.slice_head (c := asc '"') (by omega) hlast, show b1.pcur - 1 + 1 = b1.pcur by omega, Verif.slice_empty]
  refine ⟨by decide, [asc '"'], .inr ⟨rfl, ?_, ?_, ?_⟩, ?_, ⟨h2.at'.bsame ⟨⟨rfl, rfl, rfl, rfl, rfl, rfl, rfl, rfl⟩, rfl, rfl⟩, rfl, rfl, rfl⟩, ?_, rfl⟩
  · simp only [tBegin, tEnd, hls, hle, Option.getD]
    show b1.pcur - 1 ≤ b1.pcur
    omega
  · simp only [tEnd, hle, Option.getD]
    show b1.pcur ≤ b1.d.bytes.length
    rw [h2.at'.d]; exact hle2
  · simp only [tBegin, tEnd, hls, hle, Option.getD]
    show _ = Spec.slice b1.d.bytes (b1.pcur - 1) b1.pcur
    rw [h2.at'.d, hsl]
  · simp only [tBegin, tEnd, hls, hle, Option.getD]
    show Token.mk _ _ ⟨b1.pcur - 1, b1.pcur⟩ = _
    rw [show b1.pcur - 1 = s.buffer.pcur + blanks.length by omega, show b1.pcur = s.buffer.pcur + blanks.length + 1 by omega]
  · show b1.pcur = _
    omega

open QuoteSpec (closeOf openerOf Delimiter)

/-- Literals that start with `%`: the letter, the flags and the token. -/
inductive PercentKind : UInt8 → Nat → Tok → Prop
  | q : PercentKind (asc 'q') str_squote .tSTRING_BEG
  | w : PercentKind (asc 'w') str_sword .tQWORDS_BEG
  | i : PercentKind (asc 'i') str_sword .tQSYMBOLS_BEG
  | s : PercentKind (asc 's') str_ssym .tSYMBEG
  | Q : PercentKind (asc 'Q') str_dquote .tSTRING_BEG
  | x : PercentKind (asc 'x') str_xquote .tXSTRING_BEG

theorem percentOpen_run {k d : UInt8} {f : Nat} {t : Tok} (hk : PercentKind k f t) {p : Nat} (hp : 0 < p) {s : Lexer} {Q : Tok → Lexer → Prop}
    (hq : ∀ st, Q t { s with buffer := { s.buffer with ptok := p - 1 }, strterm := some (.string ⟨0, f, openerOf d, closeOf d, none⟩), lexState := st }) :
    Wp (percentOpen k d p) Q s := by
  unfold percentOpen
  have hpair : (if d = asc '(' then (asc ')', some d) else if d = asc '[' then (asc ']', some d) else if d = asc '{' then (asc '}', some d)
      else if d = asc '<' then (asc '>', some d) else (d, none)) = (closeOf d, openerOf d) := by
    exact byte_forall (p := fun d => (if d = asc '(' then (asc ')', some d) else if d = asc '[' then (asc ']', some d)
      else if d = asc '{' then (asc '}', some d) else if d = asc '<' then (asc '>', some d) else (d, none)) = (closeOf d, openerOf d)) (by decide +kernel) d
  rw [hpair]
  dsimp only
  refine Wp.bind (Wp.liftB _ (csub_of_le hp) (Wp.bind ⟨_, _, rfl, ?_⟩))
  cases hk
  all_goals
    repeat refine Wp.ite (fun e => absurd e (by decide)) fun _ => ?_
    refine Wp.ite (fun _ => ?_) fun e => absurd rfl e
  · exact Wp.bind (Wp.modS (Wp.pure (hq s.lexState)))
  · exact Wp.bind (Wp.modS (Wp.pure (hq s.lexState)))
  · exact Wp.bind (Wp.modS (Wp.pure (hq s.lexState)))
  · exact Wp.bind (Wp.modS (Wp.bind (Wp.modS (Wp.pure (hq _)))))
  · exact Wp.bind (Wp.modS (Wp.pure (hq s.lexState)))
  · exact Wp.bind (Wp.modS (Wp.pure (hq s.lexState)))

theorem yylex_open_percent {x : Ext} {bs blanks text : Bytes} {s : Lexer} {k d : UInt8} {f : Nat} {t : Tok} (hk : PercentKind k f t) (hd : Delimiter d)
    (h : Upcoming bs (blanks ++ asc '%' :: k :: d :: text) s.buffer) (hb : ∀ c ∈ blanks, Blank c) (hbeg : s.lexState.isBeg = true)
    (hst : s.strterm = none) (hls : s.lvalStart = none) (hle : s.lvalEnd = none) :
    Wp (yylex x) (fun tok s' => tok = ⟨t, [asc '%', k, d], ⟨s.buffer.pcur + blanks.length, s.buffer.pcur + blanks.length + 3⟩⟩ ∧
      Lit bs ⟨0, f, openerOf d, closeOf d, none⟩ text s' ∧ s'.buffer.pcur = s.buffer.pcur + blanks.length + 3 ∧ s'.diagnostics = s.diagnostics) s := by
  refine yylex_code hst ?_
  have hlen : (blanks ++ asc '%' :: k :: d :: text).length ≤ bs.length := by
    rw [← h.txt]
    exact Nat.le_trans (collapse_length _ (Nat.le_refl _)) (by simp)
  refine yylexLoop_blanks blanks (text := asc '%' :: k :: d :: text) (bs := bs) hb ?_ h fun n b sp hn h1 hp => ?_
  · rw [h.d]; simp only [List.length_append, List.length_cons] at hlen; omega
  obtain ⟨n, rfl⟩ : ∃ k', n = k' + 1 := ⟨n - 1, by omega⟩
  refine yylexLoop_char (s := { s with lval := none, commandStart := false, tokenSeen := true, buffer := b }) h1 fun b1 h2 hm ht => Wp.bind ?_
  unfold dispatch
  repeat refine Wp.ite (fun e => absurd e (by decide)) fun _ => ?_
  refine Wp.ite (fun _ => ?_) fun e => absurd rfl e
  unfold parsePercent
  have hone := hm.one (by decide)
  dsimp only at hone hp
  have hk' : k ≠ 10 ∧ MB.u8Alnum k = true := by cases hk <;> decide
  have hd' : d ≠ 10 ∧ MB.u8Alnum d = false := byte_forall (p := fun d => Delimiter d → d ≠ 10 ∧ MB.u8Alnum d = false) (by decide +kernel) d hd
  refine Wp.bind (Wp.bind (Wp.getB (Wp.bind (Wp.getS ?_))))
  refine Wp.ite (fun _ => ?_) fun e => absurd hbeg e
  refine Wp.bind (Upcoming.nextc (s := { s with lval := none, commandStart := false, tokenSeen := true, buffer := b1 }) h2.at' fun b2 h3 hm2 => ?_)
  have hone2 := hm2.one hk'.1
  dsimp only at hone2
  unfold percentQuotation
  dsimp only
  rw [hk'.2]
  simp only [Bool.not_true, Bool.false_eq_true, if_false]
  refine Wp.bind (Upcoming.nextc (s := { s with lval := none, commandStart := false, tokenSeen := true, buffer := b2 }) h3.at' fun b3 h4 hm3 => ?_)
  have hone3 := hm3.one hd'.1
  dsimp only at hone3
  rw [show MB.isAlnum (some d) = MB.u8Alnum d from rfl, hd'.2]
  simp only [Bool.false_eq_true, if_false]
  refine percentOpen_run hk h2.pos fun st => Wp.pure (Wp.pure ?_)
  have hl1 := h2.last
  have hl2 := h3.last
  have hl3 := h4.last
  have hle2 := h4.at'.le
  have hsl : Spec.slice bs (b1.pcur - 1) b3.pcur = [asc '%', k, d] := by
    rw [Verif.slice_head (c := asc '%') (by omega) hl1, Verif.slice_head (c := k) (by omega) (by rw [← hl2]; congr 1; omega),
      Verif.slice_head (c := d) (by omega) (by rw [← hl3]; congr 1; omega), show b1.pcur - 1 + 1 + 1 + 1 = b3.pcur by omega, Verif.slice_empty]
  refine ⟨by cases hk <;> decide, [asc '%', k, d], .inr ⟨rfl, ?_, ?_, ?_⟩, ?_, ⟨h4.at'.bsame ⟨⟨rfl, rfl, rfl, rfl, rfl, rfl, rfl, rfl⟩, rfl, rfl⟩, rfl, rfl, rfl⟩, ?_, rfl⟩
  · simp only [tBegin, tEnd, hls, hle, Option.getD]
    omega
  · simp only [tEnd, hle, Option.getD]
    show b3.pcur ≤ b3.d.bytes.length
    rw [h4.at'.d]; exact hle2
  · simp only [tBegin, tEnd, hls, hle, Option.getD]
    show _ = Spec.slice b3.d.bytes (b1.pcur - 1) b3.pcur
    rw [h4.at'.d, hsl]
  · simp only [tBegin, tEnd, hls, hle, Option.getD]
    rw [show b1.pcur - 1 = s.buffer.pcur + blanks.length by omega, show b3.pcur = s.buffer.pcur + blanks.length + 3 by omega]
  · show b3.pcur = _
    omega

end Verif.Lexer
