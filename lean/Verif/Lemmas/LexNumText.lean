import Verif.Lemmas.LexKeeps
import Verif.Lemmas.LexNumeric
import Verif.Lemmas.LexComment
import Verif.Lemmas.LexToken
/-! A numeric token that is read without diagnostics has its text as value. Partial correctness: panics are dealt with elsewhere. -/
namespace Verif.Lexer
open Spec

section
variable {α β : Type}

/-- If `x` returns, then `Q` holds. -/
def Pc (x : LexM α) (Q : α → Lexer → Prop) (s : Lexer) : Prop := ∀ a s', x s = .ok (a, s') → Q a s'

theorem Pc.pure {a : α} {Q : α → Lexer → Prop} {s : Lexer} (h : Q a s) : Pc (Pure.pure a : LexM α) Q s := by
  intro b s' e; cases e; exact h
theorem Pc.bind {x : LexM β} {f : β → LexM α} {Q : α → Lexer → Prop} {s : Lexer} (h : Pc x (fun b s' => Pc (f b) Q s') s) :
    Pc (x >>= f) Q s := by
  intro a s' e
  change StateT.bind x f s = _ at e
  simp only [StateT.bind, Bind.bind, Except.bind] at e
  cases hx : x s with
  | error p => rw [hx] at e; simp at e
  | ok r => rw [hx] at e; exact h r.1 r.2 hx a s' e
theorem Pc.ite {c : Prop} [Decidable c] {x y : LexM α} {Q : α → Lexer → Prop} {s : Lexer} (h1 : c → Pc x Q s) (h2 : ¬ c → Pc y Q s) :
    Pc (if c then x else y) Q s := by
  by_cases h : c
  · rw [if_pos h]; exact h1 h
  · rw [if_neg h]; exact h2 h
theorem Pc.fail {p : Panic} {Q : α → Lexer → Prop} {s : Lexer} : Pc (fail p) Q s := by intro a s' e; simp [Lexer.fail] at e
theorem Pc.getS {f : Lexer → α} {Q : α → Lexer → Prop} {s : Lexer} (h : Q (f s) s) : Pc (getS f) Q s := by intro a s' e; cases e; exact h
theorem Pc.getB {f : Buffer → α} {Q : α → Lexer → Prop} {s : Lexer} (h : Q (f s.buffer) s) : Pc (getB f) Q s := by
  intro a s' e; cases e; exact h
theorem Pc.modS {f : Lexer → Lexer} {Q : Unit → Lexer → Prop} {s : Lexer} (h : Q () (f s)) : Pc (modS f) Q s := by intro a s' e; cases e; exact h
theorem Pc.mono {x : LexM α} {P Q : α → Lexer → Prop} {s : Lexer} (h : Pc x P s) (hq : ∀ a s', P a s' → Q a s') : Pc x Q s :=
  fun a s' e => hq a s' (h a s' e)
theorem Pc.of_wp {x : LexM α} {Q : α → Lexer → Prop} {s : Lexer} (h : Wp x Q s) : Pc x Q s := by
  obtain ⟨a, s', e, hq⟩ := h
  intro a' s'' e'
  rw [e] at e'; cases e'; exact hq

/-- Once a diagnostic was added, the diagnostics do not get back to what they were. -/
theorem Pc.grown {x : LexM α} {P : α → Lexer → Prop} {s : Lexer} {d0 : List LexDiag} (hk : Keeps x) (hn : s.buffer.nextline = 0)
    (hd : d0.length < s.diagnostics.length) : Pc x (fun a s' => s'.diagnostics = d0 → P a s') s := by
  intro a s' e hd'
  have := (hk s a s' hn e).diag.length_le
  rw [hd'] at this
  omega
end

/-- `c` was read at position `q` of the bytes `D`, and nothing happened to the buffer since. -/
structure Rc (D : Bytes) (q : Nat) (c : MB) (s : Lexer) : Prop where
  rd : ∃ p, Rd p c s ∧ p.buffer.pcur = q
  bytes : s.buffer.d.bytes = D

theorem Rc.congr {D : Bytes} {q : Nat} {c : MB} {s s' : Lexer} (h : Rc D q c s) (hb : s'.buffer = s.buffer) (hf : Fr s s') : Rc D q c s' := by
  obtain ⟨⟨p, hr, hp⟩, hd⟩ := h
  refine ⟨⟨p, ⟨hr.mid0, ?_, ?_, ⟨?_, hr.loc.2.trans hf⟩, ?_, hr.atEnd, ?_⟩, hp⟩, ?_⟩
  · rw [hb]; exact hr.eqB
  · rw [hb]; exact hr.good
  · rw [hb]; exact hr.loc.1
  · rw [hb]; exact hr.isNone
  · rw [hb]; exact hr.isSome
  · rw [hb]; exact hd

theorem Rc.pos {D : Bytes} {q : Nat} {c : UInt8} {s : Lexer} (h : Rc D q (some c) s) (hc : c ≠ 10) : s.buffer.pcur = q + 1 ∧ D[q]? = some c := by
  obtain ⟨⟨p, hr, rfl⟩, hd⟩ := h
  obtain ⟨h1, h2⟩ := (hr.isSome c rfl).byte hc
  refine ⟨h1, ?_⟩
  rw [← hd]
  simp only [Buffer.d, hr.loc.1.same.input] at h2 ⊢
  exact h2

theorem Rc.mid {D : Bytes} {q : Nat} {c : MB} {s : Lexer} (h : Rc D q c s) (hc : c ≠ some 10) : Mid s.buffer := by
  obtain ⟨⟨p, hr, rfl⟩, hd⟩ := h
  exact hr.mid hc

theorem Rc.nonl {D : Bytes} {q : Nat} {c : MB} {s : Lexer} (h : Rc D q c s) : s.buffer.nextline = 0 := by
  obtain ⟨⟨p, hr, rfl⟩, hd⟩ := h
  rw [hr.loc.1.same.nextline]; exact hr.mid0.nonl

theorem Pc.nextc {D : Bytes} {s : Lexer} {Q : MB → Lexer → Prop} (hm : Mid s.buffer) (hD : s.buffer.d.bytes = D)
    (hq : ∀ c b, Rc D s.buffer.pcur c { s with buffer := b } → Q c { s with buffer := b }) : Pc nextc Q s := by
  intro c s' e
  have h1 := Pc.of_wp (Wp.nextc (Q := fun c s' => Rd s c s') hm fun c s' h => h) c s' e
  have h2 : s' = { s with buffer := s'.buffer } := by
    simp only [Lexer.nextc, Bind.bind, Except.bind, Pure.pure, Except.pure] at e
    cases hf : s.buffer.nextc with
    | error p => rw [hf] at e; simp at e
    | ok r => rw [hf] at e; cases e; rfl
  rw [h2]
  refine hq _ _ ?_
  rw [← h2]
  refine ⟨⟨s, h1, rfl⟩, ?_⟩
  rw [← hD]; simp only [Buffer.d, h1.loc.1.same.input]

/-- Giving back `c` leads to position `q` of the bytes `D`. -/
structure Back (D : Bytes) (q : Nat) (c : MB) (s : Lexer) : Prop where
  rd : ∃ p s1, Rd p c s1 ∧ p.buffer.pcur = q ∧ SameLine s1.buffer s.buffer ∧ s.buffer.pcur = s1.buffer.pcur ∧ s.buffer.ptok = s1.buffer.ptok ∧
    (s1.buffer.eofp = true → s.buffer.eofp = true) ∧ Fr s1 s
  bytes : s.buffer.d.bytes = D

theorem Rc.back {D : Bytes} {q : Nat} {c : MB} {s : Lexer} (h : Rc D q c s) : Back D q c s := by
  obtain ⟨⟨p, hr, hp⟩, hd⟩ := h
  exact ⟨⟨p, s, hr, hp, .refl _, rfl, rfl, id, .refl _⟩, hd⟩

/-- Only whether there was a character matters. -/
theorem Pc.pushback_some {c d : UInt8} {Q : Unit → Lexer → Prop} {s : Lexer} (h : Pc (Lexer.pushback (some c)) Q s) : Pc (Lexer.pushback (some d)) Q s := h

theorem Back.nonl {D : Bytes} {q : Nat} {c : MB} {s : Lexer} (h : Back D q c s) : s.buffer.nextline = 0 := by
  obtain ⟨⟨p, s1, hr, rfl, hs, -⟩, hd⟩ := h
  rw [hs.nextline, hr.loc.1.same.nextline]; exact hr.mid0.nonl

theorem Pc.pushback {D : Bytes} {q : Nat} {c : MB} {s : Lexer} {Q : Unit → Lexer → Prop} (h : Back D q c s)
    (hq : ∀ b, Mid b → b.pcur = q → b.d.bytes = D → Q () { s with buffer := b }) : Pc (pushback c) Q s := by
  obtain ⟨⟨p, s1, hr, rfl, hs, h2, h3, h4, h5⟩, hd⟩ := h
  refine Pc.of_wp (Wp.pushback hr hs h2 h3 h4 h5 ?_)
  intro s3 h1 h2 h3 _ h5 h6
  rw [h5]
  refine hq _ h2 h3 ?_
  rw [← hd]; simp only [Buffer.d, h1.1.same.input, hr.loc.1.same.input, hs.input]

/-- Reading one more character and giving it back changes nothing. -/
theorem Pc.pushback2 {D : Bytes} {q : Nat} {c c' : MB} {s s1 : Lexer} {Q : Unit → Lexer → Prop} (h : Rc D q c s) (h1 : Rd s c' s1)
    (hq : ∀ b, Back D q c { s1 with buffer := b } → Mid b → b.pcur = s.buffer.pcur → Q () { s1 with buffer := b }) : Pc (Lexer.pushback c') Q s1 := by
  obtain ⟨⟨p, hr, rfl⟩, hd⟩ := h
  refine Pc.of_wp (Wp.pushback h1 (.refl _) rfl rfl id (.refl _) ?_)
  intro s3 k1 k2 k3 k4 k5 k6
  rw [k5]
  refine hq _ ⟨⟨p, s, hr, rfl, k1.1.same, k3, k4, ?_, ?_⟩, ?_⟩ k2 k3
  · intro h; exact k1.1.eof h
  · rw [← k5]; exact k1.2
  · rw [← hd]; simp only [Buffer.d, k1.1.same.input]

/-- The source ends in an `e`. -/
def LastE (D : Bytes) : Prop := D[D.length - 1]? = some (asc 'e') ∨ D[D.length - 1]? = some (asc 'E')

/-- What is claimed of the result: the value is `X` and the text from `p` on; or, where `L` allows it, an `e` at the
end of the input is dropped. -/
def Txt (D X : Bytes) (p : Nat) (L : Prop) (d0 : List LexDiag) (t : Tok) (s' : Lexer) : Prop :=
  s'.diagnostics = d0 → t ≠ .END_OF_INPUT → s'.lval = some (X ++ slice D p s'.buffer.pcur) ∨
    (D.length ≤ s'.buffer.pcur ∧ p < D.length ∧ L ∧ s'.lval = some (X ++ slice D p (D.length - 1)))

theorem slice_push {D : Bytes} {p q : Nat} {c : UInt8} (h : p ≤ q) (hc : D[q]? = some c) : slice D p (q + 1) = slice D p q ++ [c] := by
  unfold slice
  rw [show q + 1 - p = (q - p) + 1 by omega, List.take_add_one]
  congr 1
  rw [List.getElem?_drop, show p + (q - p) = q by omega, hc]; rfl

theorem txt_push {D X : Bytes} {p q : Nat} {c : UInt8} (h : p ≤ q) (hc : D[q]? = some c) : X ++ slice D p (q + 1) = X ++ slice D p q ++ [c] := by
  rw [slice_push h hc, List.append_assoc]

theorem slice_nil {D : Bytes} {p : Nat} : slice D p p = [] := by simp [slice]

theorem slice_append {D : Bytes} {p q r : Nat} (h1 : p ≤ q) (h2 : q ≤ r) : slice D p r = slice D p q ++ slice D q r := by
  unfold slice
  rw [show r - p = (q - p) + (r - q) by omega, List.take_add]
  congr 2
  rw [List.drop_drop]; congr 1; omega

/-- The text of a suffix. -/
def sufText (r : NumSuffix) : Bytes := (if r.r then [asc 'r'] else []) ++ if r.i then [asc 'i'] else []

theorem Pc.suffixLoop {D : Bytes} {q : Nat} : ∀ {n : Nat} {mask result : NumSuffix} {s : Lexer} {Q : NumSuffix → Lexer → Prop},
    Mid s.buffer → s.buffer.d.bytes = D → q ≤ s.buffer.pcur → slice D q s.buffer.pcur = sufText result →
    (result.i = true → mask = ⟨false, false⟩) → (result.r = true → mask.r = false) →
    (∀ r b, q ≤ b.pcur → slice D q b.pcur = sufText r → Q r { s with buffer := b }) → Pc (suffixLoop q n mask result) Q s := by
  intro n
  induction n with
  | zero => intros; exact Pc.fail
  | succ n ih =>
    intro mask result s Q hm hD hle ht h1 h2 hq
    unfold Lexer.suffixLoop
    refine Pc.bind (Pc.nextc hm hD fun c b hc => ?_)
    refine Pc.ite (fun hn => Pc.pure ?_) fun hn => ?_
    · obtain rfl : c = none := by cases c <;> simp_all
      obtain ⟨⟨p, hr, hp⟩, -⟩ := hc
      have := (hr.isNone rfl).2
      simp only at this
      exact hq _ _ (by rw [this, hp]; exact hle) (by rw [this, hp]; exact ht)
    · obtain ⟨ch, rfl⟩ : ∃ ch, c = some ch := by cases c <;> simp_all
      refine Pc.ite (fun hi => ?_) fun hi => Pc.ite (fun hr => ?_) fun hr => Pc.ite (fun hx => ?_) fun hx => ?_
      · obtain ⟨hi1, hi2⟩ : mask.i = true ∧ ch = asc 'i' := by simpa [isC] using hi
        subst hi2
        obtain ⟨(p1 : b.pcur = _), p2⟩ := hc.pos (by decide)
        have hni : result.i = false := by
          cases hb : result.i with
          | false => rfl
          | true => rw [h1 hb] at hi1; cases hi1
        refine ih (hc.mid (by decide)) hc.bytes (show q ≤ b.pcur by omega) ?_ (fun _ => rfl) (fun _ => rfl) hq
        show slice D q b.pcur = _
        rw [p1, slice_push hle p2, ht]
        simp [sufText, hni]
      · obtain ⟨hr1, hr2⟩ : mask.r = true ∧ ch = asc 'r' := by simpa [isC] using hr
        subst hr2
        obtain ⟨(p1 : b.pcur = _), p2⟩ := hc.pos (by decide)
        have hni : result.i = false := by
          cases hb : result.i with
          | false => rfl
          | true => rw [h1 hb] at hr1; cases hr1
        have hnr : result.r = false := by
          cases hb : result.r with
          | false => rfl
          | true => rw [h2 hb] at hr1; cases hr1
        refine ih (hc.mid (by decide)) hc.bytes (show q ≤ b.pcur by omega) ?_ (fun h => by simp [hni] at h) (fun _ => rfl) hq
        show slice D q b.pcur = _
        rw [p1, slice_push hle p2, ht]
        simp [sufText, hni, hnr]
      · refine Pc.bind ?_
        intro a s' e; cases e
        exact Pc.pure (hq _ _ (Nat.le_refl _) (by simp [slice_nil, sufText]))
      · refine Pc.bind (Pc.pushback hc.back fun b' k1 k2 k3 => Pc.pure (hq _ _ (by rw [k2]; exact hle) (by rw [k2]; exact ht)))

theorem Pc.numberLiteralSuffix {D : Bytes} {mask : NumSuffix} {s : Lexer} {Q : NumSuffix → Lexer → Prop} (hm : Mid s.buffer)
    (hD : s.buffer.d.bytes = D)
    (hq : ∀ r b, s.buffer.pcur ≤ b.pcur → slice D s.buffer.pcur b.pcur = sufText r → Q r { s with buffer := b }) :
    Pc (numberLiteralSuffix mask) Q s := by
  unfold Lexer.numberLiteralSuffix
  refine Pc.bind (Pc.getB (Pc.bind (Pc.getS ?_)))
  exact Pc.suffixLoop hm hD (Nat.le_refl _) (by simp [slice_nil, sufText]) (by simp) (by simp) hq

theorem Pc.setIntegerLiteral {v : Bytes} {r : NumSuffix} {s : Lexer} {Q : Tok → Lexer → Prop}
    (hq : ∀ t s', s'.lval = some (v ++ sufText r) → s'.buffer = s.buffer → Q t s') : Pc (setIntegerLiteral v r) Q s := by
  obtain ⟨r, i⟩ := r
  intro t s' e
  cases r <;> cases i <;> cases e <;> exact hq _ _ (by simp [sufText]) rfl

theorem Pc.setNumberLiteral {v : Bytes} {r : NumSuffix} {k : Tok} {s : Lexer} {Q : Tok → Lexer → Prop}
    (hq : ∀ t s', s'.lval = some (v ++ sufText ⟨false, r.i⟩) → s'.buffer = s.buffer → Q t s') : Pc (setNumberLiteral v k r) Q s := by
  obtain ⟨r, i⟩ := r
  intro t s' e
  cases i <;> cases e <;> exact hq _ _ (by simp [sufText]) rfl

theorem Pc.takeTok {s : Lexer} {Q : Bytes → Lexer → Prop} (hq : Q s.tokenbuf { s with tokenbuf := [] }) : Pc takeTok Q s := by
  intro a s' e; cases e; exact hq

/-- Digits collected in the token buffer, then a suffix. -/
theorem finish_txt {D X : Bytes} {L : Prop} {p : Nat} {pre : Bytes} {mask : NumSuffix} {s : Lexer} {d0 : List LexDiag} (hm : Mid s.buffer)
    (hD : s.buffer.d.bytes = D) (hp : p ≤ s.buffer.pcur) (ht : pre ++ s.tokenbuf = X ++ slice D p s.buffer.pcur) :
    Pc (do
      let suffix ← numberLiteralSuffix mask
      let tok ← takeTok
      setIntegerLiteral (pre ++ tok) suffix) (Txt D X p L d0) s := by
  refine Pc.bind (Pc.numberLiteralSuffix hm hD fun r b h1 h2 => Pc.bind (Pc.takeTok (Pc.setIntegerLiteral fun t s' k1 k2 _ _ => .inl ?_)))
  rw [k1, k2]
  simp only
  rw [ht, slice_append hp h1, h2, List.append_assoc]

/-- The value is what was collected and the suffix. -/
theorem Pc.parseNumericFooter {D : Bytes} {s : Lexer} {f e : Bool} {Q : Tok → Lexer → Prop} (hm : Mid s.buffer)
    (hD : s.buffer.d.bytes = D)
    (hq : ∀ t s', s.buffer.pcur ≤ s'.buffer.pcur → s'.lval = some (s.tokenbuf ++ slice D s.buffer.pcur s'.buffer.pcur) → Q t s') :
    Pc (parseNumericFooter f e) Q s := by
  unfold Lexer.parseNumericFooter
  refine Pc.ite (fun _ => ?_) fun _ => ?_
  · refine Pc.bind (Pc.numberLiteralSuffix hm hD fun r b h1 h2 => Pc.bind (Pc.takeTok (Pc.ite (fun hr => ?_) fun hr => ?_)))
    · refine Pc.setNumberLiteral fun t s' k1 k2 => hq t s' (by rw [k2]; exact h1) ?_
      rw [k1, k2]
      simp only
      rw [h2]
      simp [sufText, hr]
    · refine Pc.setNumberLiteral fun t s' k1 k2 => hq t s' (by rw [k2]; exact h1) ?_
      rw [k1, k2]
      simp only
      rw [h2]
      simp [sufText, hr]
  · refine Pc.bind (Pc.numberLiteralSuffix hm hD fun r b h1 h2 => Pc.bind (Pc.takeTok (Pc.setIntegerLiteral fun t s' k1 k2 =>
      hq t s' (by rw [k2]; exact h1) ?_)))
    rw [k1, k2]
    simp only
    rw [h2]

/-- Reporting a trailing character adds a diagnostic. -/
theorem Pc.trailingUc {s : Lexer} {c : UInt8} {Q : Tok → Lexer → Prop}
    (hq : ∀ s', s.diagnostics.length < s'.diagnostics.length → s'.buffer.nextline = s.buffer.nextline → Q .END_OF_INPUT s') :
    Pc (trailingUc c) Q s := by
  intro t s' e
  simp only [Lexer.trailingUc, Lexer.pcurSub, Lexer.liftB, Lexer.setPtok, Lexer.modB, Lexer.yyerror0, Lexer.compileError, Lexer.emit, Lexer.modS,
    Lexer.currentLoc, Lexer.getB, csub, Bind.bind, StateT.bind, Except.bind, Pure.pure, StateT.pure, Except.pure] at e
  split at e
  · cases e
  · rename_i v hv
    cases e
    have : v.2 = s := by
      split at hv
      · cases hv
      · cases hv; rfl
    rw [this]
    exact hq _ (by simp) rfl

theorem Pc.trailingUc_txt {D X : Bytes} {L : Prop} {p : Nat} {s : Lexer} {c : UInt8} {d0 : List LexDiag} : Pc (Lexer.trailingUc c) (Txt D X p L d0) s :=
  Pc.trailingUc fun _ _ _ _ h => absurd rfl h

theorem Pc.decodeNum_err {D X : Bytes} {L : Prop} {p : Nat} {s : Lexer} {c : MB} {byte : UInt8} {f e : Bool} {d0 : List LexDiag}
    (hn : s.buffer.nextline = 0) (hd : s.diagnostics = d0) : Pc (decodeNum c (some (some byte)) f e) (Txt D X p L d0) s := by
  unfold Lexer.decodeNum
  refine Pc.bind fun a s1 e1 => ?_
  have hk := Keeps.pushback c s a s1 hn e1
  refine Pc.bind (Pc.trailingUc fun s2 h1 h2 => ?_)
  refine Pc.grown Keeps.parseNumericFooter (by rw [h2]; exact hk.nl) ?_
  have := hk.diag.length_le
  rw [← hd]; omega

theorem Pc.decodeNum {D X : Bytes} {L : Prop} {p q : Nat} {s : Lexer} {c : MB} {nd : Option MB} {f e : Bool} {d0 : List LexDiag} (hc : Back D q c s)
    (hp : p ≤ q) (ht : s.tokenbuf = X ++ slice D p q) (hd : s.diagnostics = d0) : Pc (decodeNum c nd f e) (Txt D X p L d0) s := by
  match nd with
  | some (some byte) => exact Pc.decodeNum_err hc.nonl hd
  | none | some none =>
    unfold Lexer.decodeNum
    refine Pc.bind (Pc.pushback hc fun b k1 k2 k3 => ?_)
    refine Pc.parseNumericFooter k1 k3 fun t s' h1 h2 _ _ => .inl ?_
    simp only [k2] at h1 h2
    rw [h2, ht, slice_append hp h1, List.append_assoc]

theorem Pc.tokaddMB {s : Lexer} {c : UInt8} {Q : Unit → Lexer → Prop} (hq : Q () { s with tokenbuf := s.tokenbuf ++ [c] }) :
    Pc (tokaddMB (some c)) Q s := by
  intro a s' e; cases e; exact hq


theorem Rc.nil {D : Bytes} {q : Nat} {s : Lexer} (h : Rc D q none s) : s.buffer.pcur = q := by
  obtain ⟨⟨p, hr, rfl⟩, -⟩ := h
  exact (hr.isNone rfl).2

theorem Rc.noeof {D : Bytes} {q : Nat} {c : UInt8} {s : Lexer} (h : Rc D q (some c) s) : s.buffer.eofp = false := by
  obtain ⟨⟨p, hr, rfl⟩, -⟩ := h
  have := hr.isSome c rfl
  rw [this.eq]; exact this.noeof

/-- Reading, with what is known at the end of the input. -/
theorem Pc.nextc' {D : Bytes} {s : Lexer} {Q : MB → Lexer → Prop} (hm : Mid s.buffer) (hD : s.buffer.d.bytes = D)
    (hq : ∀ c b, Rc D s.buffer.pcur c { s with buffer := b } → Rd s c { s with buffer := b } →
      (c = none → s.buffer.eofp = false → s.buffer.pcur = D.length) → Q c { s with buffer := b }) : Pc Lexer.nextc Q s := by
  intro c s' e
  have hr := Pc.of_wp (Wp.nextc (Q := fun c s' => Rd s c s') hm fun c s' h => h) c s' e
  refine (Pc.nextc (Q := fun c s' => Rd s c s' → Q c s') hm hD fun c b hc hr => hq c b hc hr ?_) c s' e hr
  rintro rfl he
  rcases hr.atEnd rfl with h1 | h1
  · rw [he] at h1; cases h1
  · have := hm.toGood.lineEnd
    rw [hD] at this
    rcases this with h2 | h2
    · omega
    · have := hm.nolf
      rw [hD, h1] at this
      exact absurd h2 this

theorem Pc.numLoop {D X : Bytes} {p : Nat} {d0 : List LexDiag} {L : Prop} (hL : LastE D → L) : ∀ {n q : Nat} {s : Lexer} {c : MB} {f sp se : Bool} {nd : Option MB},
    Rc D q c s → p ≤ q → s.tokenbuf = X ++ slice D p q → s.diagnostics = d0 → nd ≠ some none → Pc (numLoop n c f sp se nd) (Txt D X p L d0) s := by
  intro n
  induction n with
  | zero => intros; exact Pc.fail
  | succ n ih =>
    intro q s c f sp se nd hc hp ht hd hnd
    have hdec : ∀ {f e}, Pc (Lexer.decodeNum c nd f e) (Txt D X p L d0) s := Pc.decodeNum hc.back hp ht hd
    unfold Lexer.numLoop
    refine Pc.ite (fun h1 => ?_) fun _ => Pc.ite (fun h1 => ?_) fun _ => Pc.ite (fun h1 => ?_) fun _ => Pc.ite (fun h1 => ?_) fun _ => hdec
    · obtain ⟨ch, rfl⟩ : ∃ ch, c = some ch := by cases c with | none => simp [MB.isDigit] at h1 | some ch => exact ⟨ch, rfl⟩
      have h10 : ch ≠ 10 := by rintro rfl; revert h1; decide
      obtain ⟨p1, p2⟩ := hc.pos h10
      refine Pc.bind (Pc.tokaddMB (Pc.bind ?_))
      refine Pc.nextc (s := { s with tokenbuf := s.tokenbuf ++ [ch] }) (hc.mid (by simpa using h10)) hc.bytes fun c' b hc' => ?_
      refine ih hc' (by show p ≤ s.buffer.pcur; omega) ?_ hd (by simp)
      show s.tokenbuf ++ [ch] = X ++ slice D p s.buffer.pcur
      rw [p1, txt_push hp p2, ht]
    · obtain rfl : c = some (asc '.') := by simpa [isC] using h1
      obtain ⟨p1, p2⟩ := hc.pos (by decide)
      match nd, hnd with
      | some (some b), _ => exact Pc.trailingUc_txt
      | none, hnd =>
      refine Pc.ite (fun _ => hdec) fun _ => Pc.bind (Pc.nextc' (hc.mid (by decide)) hc.bytes fun c0 b hc0 hr0 _ => Pc.ite (fun h2 => ?_) fun h2 => ?_)
      · refine Pc.bind (Pc.pushback2 hc hr0 fun b' k1 _ _ => ?_)
        exact Pc.decodeNum k1 hp ht hd
      · obtain ⟨ch, rfl⟩ : ∃ ch, c0 = some ch := by cases c0 with | none => simp [MB.isDigit] at h2 | some ch => exact ⟨ch, rfl⟩
        have h10 : ch ≠ 10 := by rintro rfl; revert h2; decide
        obtain ⟨(q1 : b.pcur = _), q2⟩ := hc0.pos h10
        refine Pc.bind ?_
        intro a s1 e1
        cases e1
        refine Pc.bind (Pc.tokaddMB (Pc.bind ?_))
        refine Pc.nextc (hc0.mid (by simpa using h10)) hc0.bytes fun c' b' hc' => ?_
        refine ih hc' (by show p ≤ b.pcur; omega) ?_ hd (by simp)
        show s.tokenbuf ++ [asc '.'] ++ [ch] = X ++ slice D p b.pcur
        rw [q1, txt_push (by omega) q2, p1, txt_push hp p2, ht]
    · have hce : c = some (asc 'e') ∨ c = some (asc 'E') := by simpa [isC] using h1
      obtain ⟨ce, rfl, h10, hce⟩ : ∃ ce, c = some ce ∧ ce ≠ 10 ∧ (ce = asc 'e' ∨ ce = asc 'E') := by
        rcases hce with rfl | rfl
        · exact ⟨_, rfl, by decide, .inl rfl⟩
        · exact ⟨_, rfl, by decide, .inr rfl⟩
      obtain ⟨p1, p2⟩ := hc.pos h10
      match nd, hnd with
      | some (some byte), _ =>
        refine Pc.bind (Pc.pushback hc.back fun b k1 k2 k3 => ?_)
        exact Pc.decodeNum_err k1.nonl hd
      | none, hnd =>
      refine Pc.ite (fun _ => hdec) fun _ => Pc.bind (Pc.nextc' (hc.mid (by simpa using h10)) hc.bytes fun c' b hc' hr' hend => Pc.ite (fun h2 => ?_) fun h2 => ?_)
      · refine Pc.bind (Pc.pushback2 hc hr' fun b' k1 k2 k3 => ?_)
        cases c' with
        | none =>
          have hl := hend rfl hc.noeof
          unfold Lexer.decodeNum
          refine Pc.bind (Pc.pure ?_)
          refine Pc.parseNumericFooter (s := { s with buffer := b' }) k2 k1.bytes fun t s' h1 h2 _ _ => .inr ?_
          simp only [k3] at h1 h2
          have hq : D.length - 1 = q := by omega
          refine ⟨by omega, by omega, hL ?_, ?_⟩
          · unfold LastE; rw [hq, p2]
            rcases hce with rfl | rfl <;> simp
          · rw [h2, hq, ht]
            have : slice D s.buffer.pcur s'.buffer.pcur = [] := by
              unfold slice; rw [List.drop_eq_nil_of_le (by omega)]; simp
            rw [this, List.append_nil]
        | some x =>
          have : Pc (Lexer.decodeNum (some ce) none f se) (Txt D X p L d0) { s with buffer := b' } := Pc.decodeNum k1 hp ht hd
          exact this
      · obtain ⟨ch, rfl⟩ : ∃ ch, c' = some ch := by cases c' with | none => simp [isC, MB.isDigit] at h2 | some ch => exact ⟨ch, rfl⟩
        have h10' : ch ≠ 10 := by rintro rfl; revert h2; decide
        obtain ⟨(q1 : b.pcur = _), q2⟩ := hc'.pos h10'
        refine Pc.bind (Pc.tokaddMB (Pc.bind (Pc.tokaddMB (Pc.bind ?_))))
        refine Pc.nextc (hc'.mid (by simpa using h10')) hc'.bytes fun c'' b' hc'' => ?_
        refine ih hc'' (by show p ≤ b.pcur; omega) ?_ hd (by split <;> simp)
        show s.tokenbuf ++ [ce] ++ [ch] = X ++ slice D p b.pcur
        rw [q1, txt_push (by omega) q2, p1, txt_push hp p2, ht]
    · obtain rfl : c = some (asc '_') := by simpa [isC] using h1
      obtain ⟨p1, p2⟩ := hc.pos (by decide)
      refine Pc.bind (Pc.tokaddMB (Pc.ite (fun h2 => ?_) fun h2 => ?_))
      · match nd, hnd with
        | some (some byte), _ => exact Pc.decodeNum_err hc.nonl hd
        | none, _ => simp at h2
      · refine Pc.bind (Pc.nextc (s := { s with tokenbuf := s.tokenbuf ++ [asc '_'] }) (hc.mid (by decide)) hc.bytes fun c' b hc' => ?_)
        refine ih hc' (by show p ≤ s.buffer.pcur; omega) ?_ hd (by simp)
        show s.tokenbuf ++ [asc '_'] = X ++ slice D p s.buffer.pcur
        rw [p1, txt_push hp p2, ht]

theorem Pc.fuel {Q : Nat → Lexer → Prop} {s : Lexer} (hq : ∀ n, Q n s) : Pc Lexer.fuel Q s := by
  intro a s' e
  have : s' = s := by unfold Lexer.fuel at e; cases e; rfl
  subst this; exact hq a

theorem Pc.invalidOctal {s : Lexer} {Q : Unit → Lexer → Prop}
    (hq : ∀ s', s.diagnostics.length < s'.diagnostics.length → s'.buffer.nextline = s.buffer.nextline → Q () s') :
    Pc invalidOctal Q s := by
  intro t s' e
  simp only [Lexer.invalidOctal, Lexer.yyerror0, Lexer.compileError, Lexer.emit, Lexer.modS,
    Lexer.currentLoc, Lexer.getB, Bind.bind, StateT.bind, Except.bind, Pure.pure, StateT.pure, Except.pure] at e
  cases e
  exact hq _ (by simp) rfl

/-- After a `0` that starts a literal. -/
theorem Pc.afterZero {D X : Bytes} {p q : Nat} {d0 : List LexDiag} {L : Prop} (hL : LastE D → L) {s : Lexer} {c : MB} {nd : Option MB} (hc : Rc D q c s) (hp : p ≤ q)
    (ht : s.tokenbuf ++ [asc '0'] = X ++ slice D p q) (hd : s.diagnostics = d0) (hnd : nd ≠ some none) : Pc (afterZero c nd) (Txt D X p L d0) s := by
  unfold Lexer.afterZero
  refine Pc.ite (fun h1 => ?_) fun _ => Pc.ite (fun h1 => ?_) fun _ => ?_
  · refine Pc.bind (Pc.invalidOctal fun s' h1 h2 => Pc.bind (Pc.fuel fun n => ?_))
    exact Pc.grown Keeps.numLoop (by rw [h2]; exact hc.nonl) (by rw [← hd]; exact h1)
  · refine Pc.bind ?_
    intro a s1 e1
    cases e1
    refine Pc.bind (Pc.fuel fun n => ?_)
    exact Pc.numLoop hL (hc.congr rfl ⟨rfl, rfl, rfl, rfl, rfl⟩) hp ht hd hnd
  · refine Pc.bind (Pc.pushback hc.back fun b k1 k2 k3 => ?_)
    refine Pc.bind (Pc.numberLiteralSuffix k1 k3 fun r b' h1 h2 => Pc.bind (Pc.takeTok (Pc.setIntegerLiteral fun t s' k1 k2' _ _ => .inl ?_)))
    simp only [k2] at h1 h2
    rw [k1, k2']
    simp only
    rw [ht, slice_append hp h1, h2, List.append_assoc]

/-- The digits of a literal with base prefix; `pre` is what the token buffer does not hold. -/
theorem Pc.digitLoop {D X : Bytes} {p : Nat} {pre : Bytes} {isD : MB → Bool} (hD10 : isD (some 10) = false) (hDn : isD none = false) :
    ∀ {n q : Nat} {s : Lexer} {c : MB} {nd : Option MB} {Q : MB × Option MB → Lexer → Prop},
    Rc D q c s → p ≤ q → pre ++ s.tokenbuf = X ++ slice D p q → nd ≠ some none →
    (∀ c' nd' q' b' T, Rc D q' c' { s with buffer := b', tokenbuf := T } → p ≤ q' → pre ++ T = X ++ slice D p q' → nd' ≠ some none →
      Q (c', nd') { s with buffer := b', tokenbuf := T }) → Pc (digitLoop isD n c nd) Q s := by
  intro n
  induction n with
  | zero => intros; exact Pc.fail
  | succ n ih =>
    intro q s c nd Q hc hp ht hnd hq
    unfold Lexer.digitLoop
    have hstep : ∀ {ch : UInt8} {nd' : Option MB}, c = some ch → ch ≠ 10 → nd' ≠ some none → Pc (do
        let c' ← Lexer.nextc
        if c'.isNone = true then Pure.pure (c', nd') else Lexer.digitLoop isD n c' nd') Q { s with tokenbuf := s.tokenbuf ++ [ch] } := by
      rintro ch nd' rfl h10 hnd'
      obtain ⟨p1, p2⟩ := hc.pos h10
      have ht' : pre ++ (s.tokenbuf ++ [ch]) = X ++ slice D p s.buffer.pcur := by
        rw [p1, txt_push hp p2, ← ht, List.append_assoc]
      refine Pc.bind (Pc.nextc (s := { s with tokenbuf := s.tokenbuf ++ [ch] }) (hc.mid (by simpa using h10)) hc.bytes fun c' b hc' => ?_)
      refine Pc.ite (fun h => ?_) fun h => ?_
      · exact Pc.pure (hq _ _ _ _ _ hc' (by show p ≤ s.buffer.pcur; omega) ht' hnd')
      · exact ih hc' (by show p ≤ s.buffer.pcur; omega) ht' hnd' fun c1 nd1 q1 b1 T1 => hq c1 nd1 q1 b1 T1
    refine Pc.ite (fun h1 => Pc.ite (fun h2 => ?_) fun h2 => ?_) fun h1 => Pc.ite (fun h2 => ?_) fun h2 => ?_
    · exact Pc.pure (hq c nd q s.buffer s.tokenbuf hc hp ht hnd)
    · obtain rfl : c = some (asc '_') := by simpa [isC] using h1
      exact Pc.bind (Pc.tokaddMB (hstep rfl (by decide) (by simp)))
    · exact Pc.pure (hq c nd q s.buffer s.tokenbuf hc hp ht hnd)
    · obtain ⟨ch, rfl⟩ : ∃ ch, c = some ch := by cases c with | none => simp [hDn] at h2 | some ch => exact ⟨ch, rfl⟩
      exact Pc.bind (Pc.tokaddMB (hstep rfl (by rintro rfl; simp [hD10] at h2) (by simp)))

theorem Pc.noDigits {D X : Bytes} {L : Prop} {p : Nat} {d0 : List LexDiag} {s : Lexer} (hn : s.buffer.nextline = 0) (hd : s.diagnostics = d0) :
    Pc noDigits (Txt D X p L d0) s := by
  unfold Lexer.noDigits
  refine Pc.bind ?_
  intro a s1 e1
  simp only [Lexer.yyerror0, Lexer.compileError, Lexer.emit, Lexer.modS,
    Lexer.currentLoc, Lexer.getB, Bind.bind, StateT.bind, Except.bind, Pure.pure, StateT.pure, Except.pure] at e1
  cases e1
  refine Pc.grown ?_ hn (by rw [← hd]; simp)
  repeat' keeps1

theorem Pc.prefixed {D X : Bytes} {L : Prop} {p q : Nat} {d0 : List LexDiag} {isD : MB → Bool} (hD10 : isD (some 10) = false) (hDn : isD none = false)
    {s : Lexer} {c : UInt8} {start : Nat} (hc : Rc D q (some c) s) (h10 : c ≠ 10) (hp : p ≤ q) (ht : [asc '0'] ++ s.tokenbuf = X ++ slice D p q)
    (hd : s.diagnostics = d0) : Pc (prefixed isD start (some c)) (Txt D X p L d0) s := by
  unfold Lexer.prefixed
  obtain ⟨p1, p2⟩ := hc.pos h10
  have ht' : [asc '0'] ++ (s.tokenbuf ++ [c]) = X ++ slice D p s.buffer.pcur := by
    rw [p1, txt_push hp p2, ← ht, List.append_assoc]
  refine Pc.bind (Pc.tokaddMB (Pc.bind (Pc.nextc (s := { s with tokenbuf := s.tokenbuf ++ [c] }) (hc.mid (by simpa using h10)) hc.bytes fun c' b hc' => ?_)))
  have hrest : ∀ c1 nd1 q1 b1 T1, Rc D q1 c1 { s with buffer := b1, tokenbuf := T1 } → p ≤ q1 → [asc '0'] ++ T1 = X ++ slice D p q1 → nd1 ≠ some none →
      Pc (do
        Lexer.pushback c1
        if (← toklen) = start + 1 then Lexer.noDigits
        else match nd1 with
          | some (some byte) => Lexer.trailingUc byte
          | _ =>
            let suffix ← Lexer.numberLiteralSuffix NUM_SUFFIX_ALL
            let tok ← Lexer.takeTok
            Lexer.setIntegerLiteral (ascs "0" ++ tok) suffix) (Txt D X p L d0) { s with buffer := b1, tokenbuf := T1 } := by
    intro c1 nd1 q1 b1 T1 h1 h2 h3 h4
    refine Pc.bind (Pc.pushback h1.back fun b2 k1 k2 k3 => Pc.bind (Pc.getS (Pc.ite (fun _ => ?_) fun _ => ?_)))
    · exact Pc.noDigits k1.nonl hd
    · match nd1, h4 with
      | some (some byte), _ => exact Pc.trailingUc_txt
      | none, _ =>
        exact finish_txt (pre := [asc '0']) k1 k3 (by simp only [k2]; exact h2) (by simp only [k2]; exact h3)
  dsimp only
  refine Pc.ite (fun hi => Pc.bind (Pc.fuel fun n => Pc.bind ?_)) fun hi => Pc.bind (Pc.pure ?_)
  · exact Pc.digitLoop hD10 hDn hc' (by show p ≤ s.buffer.pcur; omega) ht' (by simp) hrest
  · exact hrest c' none _ b _ hc' (by show p ≤ s.buffer.pcur; omega) ht' (by simp)

/-- The loop of `parse_octal` takes the character `c`. -/
def octTakes (c : MB) (nd : Option MB) : Prop := (isC c '_' = true ∧ nd = none) ∨ (MB.ge c (asc '0') && MB.le c (asc '7')) = true

/-- A diagnostic was added since `s`. -/
def Grown (s s' : Lexer) : Prop := s.diagnostics.length < s'.diagnostics.length ∧ s'.buffer.nextline = 0

theorem Pc.octalLoop {D X : Bytes} {p : Nat} {pre : Bytes} :
    ∀ {n q : Nat} {s : Lexer} {c : MB} {nd : Option MB} {Q : OctEnd → Lexer → Prop},
    Rc D q c s → p ≤ q → pre ++ s.tokenbuf = X ++ slice D p q → nd ≠ some none →
    (∀ c' nd' q' b' T, Rc D q' c' { s with buffer := b', tokenbuf := T } → p ≤ q' → pre ++ T = X ++ slice D p q' → nd' ≠ some none →
      s.tokenbuf.length ≤ T.length → (octTakes c nd → s.tokenbuf.length < T.length) → Q (.stop c' nd') { s with buffer := b', tokenbuf := T }) →
    (∀ c' nd' s', Grown s s' → Q (.invalid c' nd') s') →
    Pc (octalLoop n c nd) Q s := by
  intro n
  induction n with
  | zero => intros; exact Pc.fail
  | succ n ih =>
    intro q s c nd Q hc hp ht hnd hq hinv
    unfold Lexer.octalLoop
    have hstep : ∀ {ch : UInt8} {nd' : Option MB}, c = some ch → ch ≠ 10 → nd' ≠ some none → Pc (do
        let c' ← Lexer.nextc
        if c'.isNone = true then Pure.pure (OctEnd.stop c' nd') else Lexer.octalLoop n c' nd') Q { s with tokenbuf := s.tokenbuf ++ [ch] } := by
      rintro ch nd' rfl h10 hnd'
      obtain ⟨p1, p2⟩ := hc.pos h10
      have ht' : pre ++ (s.tokenbuf ++ [ch]) = X ++ slice D p s.buffer.pcur := by
        rw [p1, txt_push hp p2, ← ht, List.append_assoc]
      refine Pc.bind (Pc.nextc (s := { s with tokenbuf := s.tokenbuf ++ [ch] }) (hc.mid (by simpa using h10)) hc.bytes fun c' b hc' => ?_)
      refine Pc.ite (fun h => ?_) fun h => ?_
      · exact Pc.pure (hq _ _ _ _ _ hc' (by show p ≤ s.buffer.pcur; omega) ht' hnd' (by simp) (by simp))
      · refine ih hc' (by show p ≤ s.buffer.pcur; omega) ht' hnd' (fun c1 nd1 q1 b1 T1 h1 h2 h3 h4 h5 h6 => ?_)
          fun c1 nd1 s1 h => hinv c1 nd1 s1 h
        simp only [List.length_append, List.length_cons, List.length_nil] at h5
        exact hq c1 nd1 q1 b1 T1 h1 h2 h3 h4 (by omega) (by omega)
    refine Pc.ite (fun h1 => Pc.ite (fun h2 => ?_) fun h2 => ?_) fun h1 => Pc.ite (fun h2 => ?_) fun h2 => Pc.ite (fun h3 => ?_) fun h3 => ?_
    · refine Pc.pure (hq c nd q s.buffer s.tokenbuf hc hp ht hnd (Nat.le_refl _) ?_)
      obtain rfl : c = some (asc '_') := by simpa [isC] using h1
      rintro (⟨-, h⟩ | h)
      · rw [h] at h2; cases h2
      · exact absurd h (by decide)
    · obtain rfl : c = some (asc '_') := by simpa [isC] using h1
      exact Pc.bind (Pc.tokaddMB (hstep rfl (by decide) (by simp)))
    · refine Pc.pure (hq c nd q s.buffer s.tokenbuf hc hp ht hnd (Nat.le_refl _) ?_)
      rintro (⟨h, -⟩ | h)
      · exact absurd h h1
      · exfalso
        cases c with
        | none => simp [MB.ge] at h
        | some ch =>
          exact byte_forall (p := fun ch => (MB.lt (some ch) (asc '0') || MB.gt (some ch) (asc '9')) = true →
            (MB.ge (some ch) (asc '0') && MB.le (some ch) (asc '7')) = true → False) (by decide +kernel) ch h2 h
    · exact Pc.bind (Pc.invalidOctal fun s' k1 k2 => Pc.pure (hinv _ _ _ ⟨k1, by rw [k2]; exact hc.nonl⟩))
    · obtain ⟨ch, rfl⟩ : ∃ ch, c = some ch := by cases c with | none => simp [MB.lt] at h2 | some ch => exact ⟨ch, rfl⟩
      exact Pc.bind (Pc.tokaddMB (hstep rfl (by rintro rfl; revert h2; decide) (by simp)))

theorem Pc.parseOctal {D X : Bytes} {L : Prop} {p q : Nat} {d0 : List LexDiag} {s : Lexer} {c : MB} {nd : Option MB} {start : Nat} (hc : Rc D q c s) (hp : p ≤ q)
    (ht : [asc '0'] ++ s.tokenbuf = X ++ slice D p q) (hs : start ≤ s.tokenbuf.length) (hnd : nd ≠ some none)
    (hoct : octTakes c nd) {Q : OctRes → Lexer → Prop}
    (htok : ∀ t s', Txt D X p L d0 t s' → Q (.tok t) s') (hgr : ∀ c' nd' s', Grown s s' → Q (.cont c' nd') s') : Pc (parseOctal c nd start) Q s := by
  unfold Lexer.parseOctal
  refine Pc.bind (Pc.fuel fun n => Pc.bind (Pc.octalLoop hc hp ht hnd ?_ ?_))
  · intro c1 nd1 q1 b1 T1 h1 h2 h3 h4 _ h5
    have h5 := h5 hoct
    refine Pc.bind (Pc.getS (Pc.ite (fun hlt => ?_) fun hlt => ?_))
    · refine Pc.bind (Pc.pushback h1.back fun b2 k1 k2 k3 => ?_)
      match nd1, h4 with
      | some (some byte), _ => exact Pc.bind (Pc.mono (Pc.trailingUc_txt (D := D) (X := X) (p := p) (L := L) (d0 := d0)) fun t s' h => Pc.pure (htok t s' h))
      | none, _ =>
        have := finish_txt (pre := [asc '0']) (L := L) (d0 := d0) (mask := NUM_SUFFIX_ALL) (s := { s with buffer := b2, tokenbuf := T1 })
          k1 k3 (by simp only [k2]; exact h2) (by simp only [k2]; exact h3)
        intro t s' e
        simp only [Bind.bind, StateT.bind, Except.bind] at e
        simp only [Pc, Bind.bind, StateT.bind, Except.bind] at this
        split at e
        · cases e
        · rename_i v1 hv1
          simp only [hv1] at this
          split at e
          · cases e
          · rename_i v2 hv2
            simp only [hv2] at this
            split at e
            · cases e
            · rename_i v3 hv3
              cases e
              exact htok _ _ (this _ _ hv3)
    · exact absurd (Nat.lt_of_le_of_lt hs h5) (by simpa using hlt)
  · intro c1 nd1 s' h
    exact Pc.pure (hgr _ _ _ h)

theorem Txt.grown {D X : Bytes} {L : Prop} {p : Nat} {s : Lexer} {x : LexM Tok} (hk : Keeps x) {s0 : Lexer} (h : Grown s0 s) :
    Pc x (Txt D X p L s0.diagnostics) s := Pc.grown hk h.2 h.1

/-- The part of a literal after `0` and possibly a base prefix, without sign. -/
theorem Pc.zeroOctal {D X Y : Bytes} {p q r : Nat} {s : Lexer} {c : MB} {start : Nat} (hc : Rc D q c s) (hp : p ≤ q) (hr : r ≤ q)
    (ht : [asc '0'] ++ s.tokenbuf = X ++ slice D p q) (ht' : s.tokenbuf ++ [asc '0'] = Y ++ slice D r q)
    (hs : start = s.tokenbuf.length) {Q : Tok → Lexer → Prop}
    (hq1 : (MB.ge c (asc '0') && MB.le c (asc '9')) = true ∨ isC c 'o' = true ∨ isC c 'O' = true → ∀ t s', Txt D X p False s.diagnostics t s' → Q t s')
    (hq2 : ∀ t s', Txt D Y r (LastE D) s.diagnostics t s' → Q t s') : Pc (zeroOctal c none start) Q s := by
  have hcmp : ∀ c : UInt8, (MB.ge (some c) (asc '0') && MB.le (some c) (asc '7')) = true → (MB.ge (some c) (asc '0') && MB.le (some c) (asc '9')) = true :=
    byte_forall (by decide +kernel)
  have hcmp' : (MB.ge c (asc '0') && MB.le c (asc '7')) = true → (MB.ge c (asc '0') && MB.le c (asc '9')) = true := by
    intro h
    cases c with
    | none => simp [MB.ge] at h
    | some c => exact hcmp c h
  unfold Lexer.zeroOctal
  refine Pc.ite (fun h1 => ?_) fun h1 => Pc.ite (fun h2 => ?_) fun h2 => ?_
  · have h1' : isC c 'o' = true ∨ isC c 'O' = true := by simpa using h1
    obtain ⟨ch, rfl, h10⟩ : ∃ ch, c = some ch ∧ ch ≠ 10 := by
      rcases h1' with h | h
      · exact ⟨asc 'o', by simpa [isC] using h, by decide⟩
      · exact ⟨asc 'O', by simpa [isC] using h, by decide⟩
    have hq1 := hq1 (.inr h1')
    obtain ⟨p1, p2⟩ := hc.pos h10
    have ht1 : [asc '0'] ++ (s.tokenbuf ++ [ch]) = X ++ slice D p s.buffer.pcur := by
      rw [p1, txt_push hp p2, ← ht, List.append_assoc]
    refine Pc.bind (Pc.tokaddMB (Pc.bind (Pc.nextc (s := { s with tokenbuf := s.tokenbuf ++ [ch] }) (hc.mid (by simpa using h10)) hc.bytes fun c' b hc' => ?_)))
    refine Pc.ite (fun _ => ?_) fun h3 => Pc.ite (fun h4 => Pc.bind ?_) fun h4 => ?_
    · exact (Pc.noDigits hc'.nonl rfl).mono fun t s' h => hq1 t s' h
    · refine Pc.parseOctal (d0 := s.diagnostics) (X := X) (p := p) hc' (by show p ≤ s.buffer.pcur; omega) ht1 (by simp [hs]) (by simp) (.inr h4) (fun t s' h => Pc.pure (hq1 t s' h)) ?_
      intro c1 nd1 s1 h
      exact (Txt.grown (s0 := { s with buffer := b, tokenbuf := s.tokenbuf ++ [ch] }) Keeps.afterZero h).mono fun t s' h => hq1 t s' h
    · have h5 : (MB.gt c' (asc '7') && MB.le c' (asc '9')) = true := by
        cases c' with
        | none => simp at h3
        | some x =>
          have h3' : MB.isDigit (some x) = true := by
            simp only [Bool.or_eq_true, not_or] at h3
            simpa using h3.2
          exact byte_forall (p := fun x => MB.isDigit (some x) = true → ¬ (MB.ge (some x) (asc '0') && MB.le (some x) (asc '7')) = true →
            (MB.gt (some x) (asc '7') && MB.le (some x) (asc '9')) = true) (by decide +kernel) x h3' h4
      unfold Lexer.afterZero
      rw [if_pos h5]
      refine Pc.bind (Pc.invalidOctal fun s' k1 k2 => Pc.bind (Pc.fuel fun n => ?_))
      exact (Txt.grown (s0 := { s with buffer := b, tokenbuf := s.tokenbuf ++ [ch] }) Keeps.numLoop ⟨k1, by rw [k2]; exact hc'.nonl⟩).mono
        fun t s' h => hq1 t s' h
  · have hq1 := hq1 (.inl (hcmp' h2))
    refine Pc.bind (Pc.parseOctal (d0 := s.diagnostics) (X := X) (p := p) hc hp ht (by omega) (by simp) (.inr h2) (fun t s' h => Pc.pure (hq1 t s' h)) ?_)
    intro c1 nd1 s1 h
    exact (Txt.grown Keeps.afterZero h).mono fun t s' h => hq1 t s' h
  · exact (Pc.afterZero id hc hr ht' rfl (by simp)).mono hq2

/-- Does the character after a leading `0` belong to a base prefix? -/
abbrev baseChar (c : UInt8) : Prop := c ∈ ascs "xXbBdDoO_0123456789"

theorem Pc.zeroLiteral {D X Y : Bytes} {p r : Nat} {s : Lexer} (hm : Mid s.buffer) (hD : s.buffer.d.bytes = D) (hp : p ≤ s.buffer.pcur)
    (hr : r ≤ s.buffer.pcur) (ht : [asc '0'] ++ s.tokenbuf = X ++ slice D p s.buffer.pcur)
    (ht' : s.tokenbuf ++ [asc '0'] = Y ++ slice D r s.buffer.pcur) {Q : Tok → Lexer → Prop}
    (hq1 : (∃ c, D[s.buffer.pcur]? = some c ∧ baseChar c) → ∀ t s', Txt D X p False s.diagnostics t s' → Q t s')
    (hq2 : ∀ t s', Txt D Y r (LastE D) s.diagnostics t s' → Q t s') : Pc zeroLiteral Q s := by
  unfold Lexer.zeroLiteral
  refine Pc.bind (Pc.getS (Pc.bind (Pc.nextc hm hD fun c b hc => ?_)))
  have hbase : ∀ ch : UInt8, c = some ch → baseChar ch → ∀ t s', Txt D X p False s.diagnostics t s' → Q t s' := by
    intro ch e hb
    subst e
    refine hq1 ⟨ch, (hc.pos ?_).2, hb⟩
    rintro rfl
    exact absurd hb (by decide)
  have hpre : ∀ {isD : MB → Bool} {ch : UInt8}, c = some ch → isD (some 10) = false → isD none = false → baseChar ch →
      Pc (Lexer.prefixed isD s.tokenbuf.length c) Q { s with buffer := b } := by
    intro isD ch e h1 h2 hb
    have := hbase ch e hb
    subst e
    exact (Pc.prefixed h1 h2 hc (by rintro rfl; exact absurd hb (by decide)) hp ht rfl).mono fun t s' h => this t s' h
  refine Pc.ite (fun h => ?_) fun _ => Pc.ite (fun h => ?_) fun _ => Pc.ite (fun h => ?_) fun _ => Pc.ite (fun h => ?_) fun _ => ?_
  · have : c = some (asc 'x') ∨ c = some (asc 'X') := by simpa [isC] using h
    rcases this with e | e
    · exact hpre e rfl rfl (by decide)
    · exact hpre e rfl rfl (by decide)
  · have : c = some (asc 'b') ∨ c = some (asc 'B') := by simpa [isC] using h
    rcases this with e | e
    · exact hpre e rfl rfl (by decide)
    · exact hpre e rfl rfl (by decide)
  · have : c = some (asc 'd') ∨ c = some (asc 'D') := by simpa [isC] using h
    rcases this with e | e
    · exact hpre e rfl rfl (by decide)
    · exact hpre e rfl rfl (by decide)
  · have e : c = some (asc '_') := by simpa [isC] using h
    have hq1 := hbase _ e (by decide)
    refine Pc.bind (Pc.parseOctal (d0 := s.diagnostics) (X := X) (p := p) hc hp ht (Nat.le_refl _) (by simp) (.inl ⟨h, rfl⟩) (fun t s' h => Pc.pure (hq1 t s' h)) ?_)
    intro c1 nd1 s1 h
    exact (Txt.grown (s0 := { s with buffer := b }) Keeps.zeroOctal h).mono fun t s' h => hq1 t s' h
  · refine Pc.zeroOctal hc hp hr ht ht' rfl ?_ hq2
    intro h
    have key : ∃ ch, c = some ch ∧ baseChar ch := by
      cases c with
      | none => simp [MB.ge, isC] at h
      | some ch =>
        refine ⟨ch, rfl, ?_⟩
        exact byte_forall (p := fun ch => (MB.ge (some ch) (asc '0') && MB.le (some ch) (asc '9')) = true ∨ isC (some ch) 'o' = true ∨
          isC (some ch) 'O' = true → ch ∈ ascs "xXbBdDoO_0123456789") (by decide +kernel) ch h
    obtain ⟨ch, e, hb⟩ := key
    exact hbase ch e hb

/-- How `parse_numeric` starts. -/
theorem Pc.parseNumeric {D : Bytes} {s : Lexer} {c : UInt8} (hm : Mid s.buffer) (hD : s.buffer.d.bytes = D) {Q : Tok → Lexer → Prop}
    (h : ∀ s2 : Lexer, Mid s2.buffer → s2.buffer.d.bytes = D → s2.buffer.pcur = s.buffer.pcur → s2.tokenbuf = [] → s2.diagnostics = s.diagnostics →
      Pc (do
        let c ← if c = asc '-' ∨ c = asc '+' then do tokadd c; Lexer.nextc else Pure.pure (some c)
        if isC c '0' then Lexer.zeroLiteral
        else Lexer.numLoop (← Lexer.fuel) c false false false none) Q s2) : Pc (parseNumeric c) Q s := by
  unfold Lexer.parseNumeric
  refine Pc.bind fun a1 s1 e1 => Pc.bind fun a2 s2 e2 => ?_
  cases e1; cases e2
  exact h _ ⟨⟨hm.tab, hm.lc, hm.ll, hm.nl, hm.nl2, hm.stop, hm.start, hm.lo, hm.hi, hm.ns⟩, hm.lt, hm.nolf, hm.nonl⟩ hD rfl rfl rfl

/-- A literal without sign. -/
theorem parseNumeric_txt {D : Bytes} {p : Nat} {s : Lexer} {c : UInt8} (hm : Mid s.buffer) (hD : s.buffer.d.bytes = D) (hp : s.buffer.pcur = p + 1)
    (hc : D[p]? = some c) (hd : NumberSpec.Dec c) : Pc (parseNumeric c) (Txt D [] p (LastE D) s.diagnostics) s := by
  obtain ⟨k1, k2, k3, k4, k5⟩ := byte_forall (p := fun c => NumberSpec.Dec c → c ≠ asc '-' ∧ c ≠ asc '+' ∧ c ≠ asc '.' ∧ MB.isDigit (some c) = true ∧ c ≠ 10)
    (by decide +kernel) c hd
  refine Pc.parseNumeric hm hD fun s2 hm hD hp2 ht hdg => ?_
  rw [hp] at hp2
  rw [← hdg]
  have hsl : [c] = slice D p s2.buffer.pcur := by rw [hp2, slice_push (Nat.le_refl _) hc, slice_nil]; rfl
  dsimp only
  refine Pc.ite (fun h => absurd h (by simp [k1, k2])) fun _ => Pc.bind (Pc.pure (Pc.ite (fun h0 => ?_) fun h0 => ?_))
  · obtain rfl : c = asc '0' := by simpa [isC] using h0
    refine Pc.zeroLiteral (X := []) (Y := []) (p := p) (r := p) hm hD (by omega) (by omega) (by rw [ht]; exact hsl) (by rw [ht]; exact hsl) ?_ ?_
    · intro _ t s' h h1 h2
      rcases h h1 h2 with h | ⟨-, -, h, -⟩
      · exact .inl h
      · exact h.elim
    · exact fun t s' h => h
  · refine Pc.bind (Pc.fuel fun n => ?_)
    cases n with
    | zero => exact Pc.fail
    | succ n =>
      unfold Lexer.numLoop
      rw [if_pos k4]
      refine Pc.bind (Pc.tokaddMB (Pc.bind (Pc.nextc (s := { s2 with tokenbuf := s2.tokenbuf ++ [c] }) hm hD fun c' b hc' => ?_)))
      exact Pc.numLoop id hc' (by show p ≤ s2.buffer.pcur; omega)
        (by show s2.tokenbuf ++ [c] = [] ++ slice D p s2.buffer.pcur; rw [← hsl, ht]) rfl (by simp)

/-- A literal with the sign `+`. -/
theorem parseNumeric_plus_txt {D : Bytes} {p : Nat} {s : Lexer} (hm : Mid s.buffer) (hD : s.buffer.d.bytes = D) (hp : s.buffer.pcur = p + 1)
    (hc : D[p]? = some (asc '+')) : Pc (parseNumeric (asc '+')) (fun t s' => Txt D [] p (LastE D) s.diagnostics t s' ∨
      (D[p + 1]? = some (asc '0') ∧ (∃ c, D[p + 2]? = some c ∧ baseChar c) ∧ Txt D (ascs "0+") (p + 2) False s.diagnostics t s')) s := by
  refine Pc.parseNumeric hm hD fun s2 hm hD hp2 ht hdg => ?_
  rw [hp] at hp2
  rw [← hdg]
  have hsl : [asc '+'] = slice D p s2.buffer.pcur := by rw [hp2, slice_push (Nat.le_refl _) hc, slice_nil]; rfl
  dsimp only
  refine Pc.ite (fun _ => ?_) fun h => absurd (.inr rfl) h
  refine Pc.bind fun a1 s1 e1 => ?_
  cases e1
  refine Pc.bind (Pc.nextc (s := { s2 with tokenbuf := s2.tokenbuf ++ [asc '+'] }) hm hD fun c b hc' => Pc.ite (fun h0 => ?_) fun h0 => ?_)
  · obtain rfl : c = some (asc '0') := by simpa [isC] using h0
    obtain ⟨(p1 : b.pcur = s2.buffer.pcur + 1), (p2 : D[s2.buffer.pcur]? = _)⟩ := hc'.pos (by decide)
    rw [hp2] at p2
    refine Pc.zeroLiteral (X := ascs "0+") (Y := []) (p := p + 2) (r := p) (hc'.mid (by decide)) hc'.bytes (by show p + 2 ≤ b.pcur; omega) (by show p ≤ b.pcur; omega)
      ?_ ?_ ?_ ?_
    · show [asc '0'] ++ (s2.tokenbuf ++ [asc '+']) = ascs "0+" ++ slice D (p + 2) b.pcur
      rw [p1, hp2, slice_nil, ht]; rfl
    · show s2.tokenbuf ++ [asc '+'] ++ [asc '0'] = [] ++ slice D p b.pcur
      rw [p1, hp2, slice_push (by omega) p2, ← hp2, ← hsl, ht]; rfl
    · rintro ⟨c, (h1 : D[b.pcur]? = _), h2⟩ t s' h
      rw [p1, hp2] at h1
      exact .inr ⟨p2, ⟨c, h1, h2⟩, h⟩
    · exact fun t s' h => .inl h
  · refine Pc.bind (Pc.fuel fun n => ?_)
    refine (Pc.numLoop id hc' (by show p ≤ s2.buffer.pcur; omega) (X := [])
      (by show s2.tokenbuf ++ [asc '+'] = [] ++ slice D p s2.buffer.pcur; rw [← hsl, ht]) rfl (by simp)).mono ?_
    exact fun t s' h => .inl h

end Verif.Lexer
