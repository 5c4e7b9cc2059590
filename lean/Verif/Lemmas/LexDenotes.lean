import Verif.Lemmas.LexQuoted
import Verif.Props.Escapes
import Verif.Spec.Escapes
/-! Escape sequences of literals denote what the specification says. -/
namespace Verif.Lexer
open Verif.Props (collapse Seq nextc_text)
open EscapeSpec (Byte Codes Escape Denotes Number Graph Itself controls letters Sep)

/-- As `Upcoming`, inside a line. -/
structure Inline (bs text : Bytes) (b : Buffer) : Prop where
  at' : Upcoming bs text b
  noeof : b.eofp = false
  lt : text ≠ [] → b.pcur < b.pend

theorem Inline.bsame {bs text : Bytes} {b b' : Buffer} (h : Inline bs text b) (hb : BSame b b') : Inline bs text b' :=
  ⟨h.at'.bsame hb, by rw [hb.eofp]; exact h.noeof, fun e => by rw [hb.pcur, hb.same.pend]; exact h.lt e⟩

/-- Behind a character that is not the end of a line. -/
theorem Took.inline {bs text : Bytes} {c : UInt8} {b : Buffer} (h : Took bs c text b) (hc : c ≠ 10) : Inline bs text b := by
  refine ⟨h.at', h.noeof, fun ht => ?_⟩
  by_contra hn
  have h1 := line_end h.at' (Nat.le_refl _) h.pos h.last hc (by omega) h.at'.seq.good.hi
  have h2 : bs.drop b.pcur = [] := by
    rw [List.drop_eq_nil_iff]; exact List.getElem?_eq_none_iff.1 h1
  have h3 := h.at'.txt
  rw [h2] at h3
  exact ht (by rw [← h3]; simp [collapse])

/-- The state with the cursor moved. -/
def at_ (s : Lexer) (p : Nat) : Lexer := { s with buffer := { s.buffer with pcur := p } }

theorem at_at_ (s : Lexer) (p q : Nat) : at_ (at_ s p) q = at_ s q := rfl
theorem at_self (s : Lexer) : at_ s s.buffer.pcur = s := rfl

/-- `c` is read at the cursor, inside the line; it can be pushed back. -/
structure ReadOne (bs : Bytes) (c : UInt8) (text : Bytes) (s : Lexer) : Prop where
  run : Lexer.nextc s = .ok (some c, at_ s (s.buffer.pcur + 1))
  next : Inline bs text (at_ s (s.buffer.pcur + 1)).buffer
  byte : bs[s.buffer.pcur]? = some c
  back : ∀ c', Lexer.pushback (some c') (at_ s (s.buffer.pcur + 1)) = .ok ((), s)

/-- Reading a character that is not the end of the line. -/
theorem Inline.step {bs text : Bytes} {c : UInt8} {s : Lexer} (h : Inline bs (c :: text) s.buffer) (hc : c ≠ 10) : ReadOne bs c text s := by
  obtain ⟨c', b', e, hn⟩ := nextc_good h.at'.seq.good
  have hrun : Lexer.nextc s = .ok (c', { s with buffer := b' }) := by simp [Lexer.nextc, e, Bind.bind, Except.bind, Pure.pure, Except.pure]
  obtain ⟨c2, s2, e2, h1, h2, h3⟩ := Upcoming.nextc (Q := fun r s' => r = some c ∧ Took bs c text s'.buffer ∧ s'.buffer.pbPos = s.buffer.pcur)
    h.at' fun b ht hm => ⟨rfl, ht, hm.back⟩
  rw [hrun] at e2
  simp only [Except.ok.injEq, Prod.mk.injEq] at e2
  obtain ⟨rfl, rfl⟩ := e2
  subst h1
  have hlt := h.lt (by simp)
  cases hn with
  | load ch b1 b' hl hr => exact absurd (hl.atEnd h.at'.seq.nl).1 (by omega)
  | here ch b' h4 hr =>
    obtain ⟨h5, h6⟩ := hr.byte hc
    have eb : ({ s with buffer := b' } : Lexer) = at_ s (s.buffer.pcur + 1) := by
      unfold at_; rw [← h5, ← hr.eq]
    refine ⟨by rw [hrun, eb], by rw [← eb]; exact h2.inline hc, by rw [← h.at'.d]; exact h6, fun c' => ?_⟩
    rw [← eb]
    dsimp only at h3
    simp only [Lexer.pushback, Buffer.pushback, pushbackByte_eq _ h2.pos, Bind.bind, Except.bind, Pure.pure, Except.pure, h3]
    have : ({ b' with pcur := s.buffer.pcur } : Buffer) = s.buffer := by rw [hr.eq]
    rw [this]

theorem ReadOne.nextc {bs text : Bytes} {c : UInt8} {s : Lexer} (h : ReadOne bs c text s) {Q : MB → Lexer → Prop} (hq : Q (some c) (at_ s (s.buffer.pcur + 1))) :
    Wp Lexer.nextc Q s := ⟨_, _, h.run, hq⟩

theorem ReadOne.pushback {bs text : Bytes} {c c' : UInt8} {s : Lexer} (h : ReadOne bs c text s) {Q : Unit → Lexer → Prop} (hq : Q () s) :
    Wp (Lexer.pushback (some c')) Q (at_ s (s.buffer.pcur + 1)) := ⟨_, _, h.back c', hq⟩

/-- Several characters of the line. -/
theorem Inline.skip {bs rest : Bytes} : ∀ (ds : Bytes) {s : Lexer}, Inline bs (ds ++ rest) s.buffer → (∀ c ∈ ds, c ≠ 10) →
    Inline bs rest (at_ s (s.buffer.pcur + ds.length)).buffer ∧ ∃ w, bs.drop s.buffer.pcur = ds ++ w ∧ collapse w = rest
  | [], s, h, _ => ⟨h, bs.drop s.buffer.pcur, rfl, h.at'.txt⟩
  | c :: ds, s, h, hc => by
    have h1 := Inline.step h (hc c (by simp))
    obtain ⟨h2, w, h3, h4⟩ := Inline.skip ds (s := at_ s (s.buffer.pcur + 1)) h1.next fun c h => hc c (by simp [h])
    refine ⟨?_, w, ?_, h4⟩
    · have e : s.buffer.pcur + (c :: ds).length = (at_ s (s.buffer.pcur + 1)).buffer.pcur + ds.length := by
        simp only [List.length_cons, at_]; omega
      rw [e]; exact h2
    · rw [drop_cons h1.byte]
      exact congrArg _ h3

theorem hex_eq : EscapeSpec.hex = Digits.hex := rfl
theorem oct_eq' : EscapeSpec.oct = Digits.oct := rfl
theorem value_eq : EscapeSpec.value = Digits.value := rfl

theorem run_all {dig : UInt8 → Option Nat} : ∀ {ds : Bytes}, (∀ c ∈ ds, (dig c).isSome = true) → Digits.run dig ds = ds
  | [], _ => rfl
  | c :: ds, h => by
    have ih := run_all (dig := dig) (ds := ds) fun c hc => h c (by simp [hc])
    unfold Digits.run at ih ⊢
    rw [List.takeWhile_cons, if_pos (h c (by simp)), ih]

/-- The digits of a number are the run of digits in the source. -/
theorem Number.run {dig : UInt8 → Option Nat} {most : Nat} {ds rest w : Bytes} (h : Number dig most ds rest) (hdig : dig 10 = none ∧ dig 13 = none)
    (hw : collapse w = rest) : Digits.run dig ((ds ++ w).take most) = ds := by
  rcases h.whole with e | e
  · subst e
    rw [List.take_left]
    exact run_all h.digits
  · cases w with
    | nil =>
      rw [List.append_nil, List.take_of_length_le h.len]
      exact run_all h.digits
    | cons c w =>
      refine run_append h.digits ?_ h.len
      by_cases hc : c ≠ 10 ∧ c ≠ 13
      · exact e c (by rw [← hw]; exact (collapse_head hc).2 rfl)
      · by_cases h1 : c = 10
        · rw [h1]; exact hdig.1
        · have : c = 13 := by by_contra h2; exact hc ⟨h1, h2⟩
          rw [this]; exact hdig.2

theorem digit_line {dig : UInt8 → Option Nat} (h : dig 10 = none) {ds : Bytes} (hd : ∀ c ∈ ds, (dig c).isSome = true) : ∀ c ∈ ds, c ≠ 10 := by
  intro c hc e
  have := hd c hc
  rw [e, h] at this; cases this

/-- What reading an escape sequence leaves. -/
def Past (bs rest : Bytes) (s : Lexer) (v : UInt8) (r : MB) (s' : Lexer) : Prop :=
  r = some v ∧ ∃ p, s' = at_ s p ∧ Inline bs rest s'.buffer

theorem Past.of {bs rest : Bytes} {s : Lexer} {v : UInt8} {r : MB} {s' : Lexer} {p : Nat} (h : Past bs rest (at_ s p) v r s') : Past bs rest s v r s' := by
  obtain ⟨h1, q, h2, h3⟩ := h
  exact ⟨h1, q, h2, h3⟩

theorem peekU_run {bs text : Bytes} {s : Lexer} (h : Inline bs text s.buffer) (hu : text.head? ≠ some (asc 'u')) (hU : text.head? ≠ some (asc 'U')) {Q : Bool → Lexer → Prop}
    (hq : Q false s) : Wp peekU Q s := by
  unfold peekU
  refine Wp.getB ?_
  have key : ∀ ch : Char, asc ch ≠ 10 ∧ asc ch ≠ 13 → text.head? ≠ some (asc ch) → isC s.buffer.peekc ch = false := by
    intro ch hch hne
    by_contra he
    have he : s.buffer.peekc = some (asc ch) := by simpa [isC] using he
    unfold Buffer.peekc Buffer.peekcN at he
    split at he
    · cases he
    · refine hne ?_
      rw [← h.at'.txt, collapse_head hch, List.head?_drop, ← h.at'.d]
      exact he
  rw [key 'u' (by decide) hu, key 'U' (by decide) hU]; exact hq

theorem byte_head_u {without : Bytes} {m k : Bool} {text rest : Bytes} {v : UInt8} (h : Byte without m k text v rest) : text.head? ≠ some (asc 'u') := by
  cases h with
  | letter h =>
    rename_i c
    intro e
    simp only [List.head?_cons, Option.some.injEq] at e
    subst e
    simp only [letters, List.mem_cons, List.not_mem_nil, Prod.mk.injEq, or_false] at h
    rcases h with h | h | h | h | h | h | h | h | h <;> exact absurd h.1 (by decide)
  | itself h =>
    intro e
    simp only [List.head?_cons, Option.some.injEq] at e
    subst e
    exact absurd (show asc 'u' ∈ ascs "01234567xuMCc" by decide) h.special
  | @octal _ _ ds rest h =>
    intro e
    cases ds with
    | nil => have := h.pos; simp at this
    | cons d ds =>
      simp only [List.cons_append, List.head?_cons, Option.some.injEq] at e
      have := h.digits d (by simp)
      rw [e] at this; exact absurd this (by decide)
  | hex => simp; decide
  | delete hp => simp only [controls, List.mem_cons, List.not_mem_nil, or_false] at hp; rcases hp with rfl | rfl <;> (simp [ascs]; decide)
  | control hp => simp only [controls, List.mem_cons, List.not_mem_nil, or_false] at hp; rcases hp with rfl | rfl <;> (simp [ascs]; decide)
  | controlOf hp => simp only [controls, List.mem_cons, List.not_mem_nil, or_false] at hp; rcases hp with rfl | rfl <;> (simp [ascs]; decide)
  | alt => simp [ascs]; decide
  | altOf => simp [ascs]; decide

theorem graph_class {c : UInt8} (h : Graph c) : c ≠ 10 ∧ MB.isAscii (some c) = true ∧ MB.escapedControlCode (some c) = none ∧ MB.isControl (some c) = false :=
  byte_forall (p := fun c => (33 ≤ c ∧ c ≤ 126) → c ≠ 10 ∧ MB.isAscii (some c) = true ∧ MB.escapedControlCode (some c) = none ∧ MB.isControl (some c) = false)
    (by decide +kernel) c h

theorem tokHex_run {bs ds rest : Bytes} {s : Lexer} (ha : Inline bs (ds ++ rest) s.buffer) (hd : Number EscapeSpec.hex 2 ds rest) {Q : MB × Nat → Lexer → Prop}
    (hq : Inline bs rest (at_ s (s.buffer.pcur + ds.length)).buffer →
      Q (some (UInt8.ofNat (EscapeSpec.value 16 EscapeSpec.hex ds)), ds.length) (at_ s (s.buffer.pcur + ds.length))) : Wp tokHex Q s := by
  obtain ⟨h1, w, h2, h3⟩ := Inline.skip ds ha (digit_line (by decide) hd.digits)
  have hrun := Number.run hd (by decide) h3
  have hval := (C27_exact s.buffer 2 s.buffer.pcur).1 (by decide)
  have hlen := C27_scan_hex s.buffer 2 s.buffer.pcur
  rw [ha.at'.d, h2] at hval hlen
  rw [show Digits.run Digits.hex ((ds ++ w).take 2) = ds from hrun] at hval hlen
  unfold tokHex
  refine Wp.bind (Wp.getB ?_)
  generalize scanHex s.buffer 2 s.buffer.pcur 0 = r at hval hlen
  obtain ⟨r1, r2⟩ := r
  simp only [Prod.mk.injEq] at hval hlen
  obtain ⟨-, rfl⟩ := hlen
  subst hval
  have hpos := hd.pos
  exact Wp.ite (fun e => absurd e (by omega)) fun _ => Wp.bind (Wp.modB (Wp.pure (hq h1)))

/-- What follows the prefix of a control character. -/
def afterControl (n : Nat) (meta_ : Bool) : LexM MB := do
  let c ← Lexer.nextc
  if isC c '\\' then
    if ← peekU then
      let _ ← Lexer.nextc
      readEscapeEof
    else
      let r ← readEscape n meta_ true
      return r.map fun c => c &&& 0x9f
  else if isC c '?' then return some 0x7f
  else if c.isNone || !MB.isAscii c then readEscapeEof
  else
    match MB.escapedControlCode c with
    | some c2 =>
      if MB.isControl c then
        if meta_ then warnSpaceChar c2 "\\M-" else warnSpaceChar c2 ""
      else if meta_ then warnSpaceChar c2 "\\M-\\C-"
      else warnSpaceChar c2 "\\C-"
      return c.map fun c => c &&& 0x9f
    | none =>
      if MB.isControl c then readEscapeEof
      else return c.map fun c => c &&& 0x9f

theorem readEscape_control {bs p text rest : Bytes} {v : UInt8} (hp : p ∈ controls) {n : Nat} {m : Bool} {s : Lexer} (ha : Inline bs (p ++ text) s.buffer)
    (h : ∀ t, Inline bs text t.buffer → Wp (afterControl n m) (Past bs rest t v) t) : Wp (readEscape (n + 1) m false) (Past bs rest s v) s := by
  simp only [controls, List.mem_cons, List.not_mem_nil, or_false] at hp
  rcases hp with rfl | rfl
  · have h1 := Inline.step (c := asc 'c') ha (by decide)
    unfold readEscape
    refine Wp.bind (h1.nextc ?_)
    dsimp only
    repeat refine Wp.ite (fun e => absurd e (by decide)) fun _ => ?_
    refine Wp.ite (fun _ => ?_) fun e => absurd (.inr rfl) e
    refine Wp.bind (Wp.pure ?_)
    refine Wp.ite (fun e => absurd e (by decide)) fun _ => ?_
    refine Wp.ite (fun e => absurd e (by decide)) fun _ => ?_
    exact (h _ h1.next).mono fun r s' h2 => h2.of
  · have h1 := Inline.step (c := asc 'C') ha (by decide)
    have h2 := Inline.step (c := asc '-') h1.next (by decide)
    unfold readEscape
    refine Wp.bind (h1.nextc ?_)
    dsimp only
    repeat refine Wp.ite (fun e => absurd e (by decide)) fun _ => ?_
    refine Wp.ite (fun _ => ?_) fun e => absurd (.inl rfl) e
    refine Wp.bind ⟨false, at_ (at_ s (s.buffer.pcur + 1)) ((at_ s (s.buffer.pcur + 1)).buffer.pcur + 1), ?_, ?_⟩
    · show (Functor.map (fun c => !isC c '-') Lexer.nextc) _ = _
      simp only [Functor.map, StateT.map, Bind.bind, Except.bind, h2.run, Pure.pure, Except.pure]
      rfl
    refine Wp.ite (fun e => absurd e (by decide)) fun _ => ?_
    refine Wp.ite (fun e => absurd e (by decide)) fun _ => ?_
    exact (h _ h2.next).mono fun r s' h2 => h2.of.of

/-- The characters that the code does not leave as they are although they have no meaning. -/
def misread : Bytes := ascs "89"

theorem readEscape_byte {bs : Bytes} {m k : Bool} {text rest : Bytes} {v : UInt8} (h : Byte misread m k text v rest) : ∀ {n : Nat} {s : Lexer},
    (if m then 0 else 1) + (if k then 0 else 1) < n → Inline bs text s.buffer → Wp (readEscape n m k) (Past bs rest s v) s := by
  induction h with
  | @letter m k c v rest hl =>
    intro n s hn ha
    obtain ⟨n, rfl⟩ : ∃ k', n = k' + 1 := ⟨n - 1, by omega⟩
    simp only [letters, List.mem_cons, List.not_mem_nil, Prod.mk.injEq, or_false] at hl
    unfold readEscape
    have hc : c ≠ 10 := by rcases hl with h | h | h | h | h | h | h | h | h <;> rw [h.1] <;> decide
    refine Wp.bind ((ha.step hc).nextc ?_)
    have hfin : Past bs rest s v (some v) (at_ s (s.buffer.pcur + 1)) := ⟨rfl, _, rfl, (ha.step hc).next⟩
    dsimp only
    rcases hl with h | h | h | h | h | h | h | h | h <;>
    · obtain ⟨rfl, rfl⟩ := h
      repeat refine Wp.ite (fun e => absurd e (by decide)) fun _ => ?_
      refine Wp.ite (fun _ => Wp.pure hfin) fun e => absurd rfl e
  | @itself m k c rest hi =>
    intro n s hn ha
    obtain ⟨n, rfl⟩ : ∃ k', n = k' + 1 := ⟨n - 1, by omega⟩
    unfold readEscape
    refine Wp.bind ((ha.step hi.line).nextc ?_)
    have hfin : Past bs rest s c (some c) (at_ s (s.buffer.pcur + 1)) := ⟨rfl, _, rfl, (ha.step hi.line).next⟩
    dsimp only
    refine Wp.ite (fun _ => Wp.pure hfin) fun _ => ?_
    have hl : ∀ d, d ∈ letters.map (·.1) → c ≠ d := fun d hd e => hi.letter (e ▸ hd)
    have hs : ∀ d, d ∈ ascs "01234567xuMCc" → c ≠ d := fun d hd e => hi.special (e ▸ hd)
    iterate 7 refine Wp.ite (fun e => absurd e (hl _ (by decide))) fun _ => ?_
    refine Wp.ite (fun e => ?_) fun _ => ?_
    · have := byte_forall (p := fun c => MB.u8Digit c = true → c ∈ ascs "01234567xuMCc" ∨ c ∈ misread) (by decide +kernel) c e
      rcases this with h | h
      · exact absurd h hi.special
      · exact absurd h hi.out
    refine Wp.ite (fun e => absurd e (hs _ (by decide))) fun _ => ?_
    refine Wp.ite (fun e => absurd e (hl _ (by decide))) fun _ => ?_
    refine Wp.ite (fun e => absurd e (hl _ (by decide))) fun _ => ?_
    refine Wp.ite (fun e => absurd e (hs _ (by decide))) fun _ => ?_
    refine Wp.ite (fun e => ?_) fun _ => Wp.pure hfin
    rcases e with e | e <;> exact absurd e (hs _ (by decide))
  | @octal m k ds rest hd =>
    intro n s hn ha
    obtain ⟨n, rfl⟩ : ∃ k', n = k' + 1 := ⟨n - 1, by omega⟩
    obtain ⟨h1, w, h2, h3⟩ := Inline.skip ds ha (digit_line (by decide) hd.digits)
    cases hds : ds with
    | nil => have := hd.pos; rw [hds] at this; simp at this
    | cons d ds' =>
      have hdd := hd.digits d (by rw [hds]; simp)
      have ha' : Inline bs (d :: (ds' ++ rest)) s.buffer := by rw [hds] at ha; exact ha
      have hd10 : d ≠ 10 := digit_line (by decide) hd.digits d (by rw [hds]; simp)
      unfold readEscape
      refine Wp.bind ((ha'.step hd10).nextc ?_)
      dsimp only
      have hno : ∀ c, c ∈ asc '\\' :: letters.map (·.1) → d ≠ c := fun c hc e => by
        have := byte_forall (p := fun d => (EscapeSpec.oct d).isSome = true → d ∉ asc '\\' :: letters.map (·.1)) (by decide +kernel) d hdd
        exact this (e ▸ hc)
      iterate 8 refine Wp.ite (fun e => absurd e (hno _ (by decide))) fun _ => ?_
      refine Wp.ite (fun _ => ?_) fun e => absurd (byte_forall (p := fun d => (EscapeSpec.oct d).isSome = true → MB.u8Digit d = true) (by decide +kernel) d hdd) e
      refine Wp.bind ((ha'.step hd10).pushback (Wp.bind (Wp.getB ?_)))
      have hrun := Number.run hd (by decide) h3
      have hval := (C27_exact s.buffer 3 s.buffer.pcur).2 (by decide)
      have hlen := C27_scan_oct s.buffer 3 s.buffer.pcur
      rw [ha.at'.d, h2] at hval hlen
      rw [show Digits.run Digits.oct ((ds ++ w).take 3) = ds from hrun] at hval hlen
      generalize scanOct s.buffer 3 s.buffer.pcur 0 = r at hval hlen
      obtain ⟨r1, r2⟩ := r
      simp only [Prod.mk.injEq] at hval hlen
      obtain ⟨-, rfl⟩ := hlen
      subst hval
      refine Wp.bind (Wp.modB (Wp.pure ⟨?_, _, rfl, h1⟩))
      rw [← hds]; rfl
  | @hex m k ds rest hd =>
    intro n s hn ha
    obtain ⟨n, rfl⟩ : ∃ k', n = k' + 1 := ⟨n - 1, by omega⟩
    have hx := ha.step (by decide)
    unfold readEscape
    refine Wp.bind (hx.nextc ?_)
    dsimp only
    repeat refine Wp.ite (fun e => absurd e (by decide)) fun _ => ?_
    refine Wp.ite (fun _ => ?_) fun e => absurd rfl e
    refine Wp.bind (tokHex_run hx.next hd fun h1 => ?_)
    have hpos := hd.pos
    exact Wp.ite (fun e => absurd e (by omega)) fun _ => Wp.pure ⟨rfl, _, rfl, h1⟩
  | @delete m p rest hp =>
    intro n s hn ha
    obtain ⟨n, rfl⟩ : ∃ k', n = k' + 1 := ⟨n - 1, by omega⟩
    refine readEscape_control hp ha fun t ht => ?_
    have h1 := ht.step (by decide)
    unfold afterControl
    refine Wp.bind (h1.nextc ?_)
    refine Wp.ite (fun e => absurd e (by decide)) fun _ => ?_
    exact Wp.ite (fun _ => Wp.pure ⟨rfl, _, rfl, h1.next⟩) fun e => absurd rfl e
  | @control m p c rest hp hg h1 h2 =>
    intro n s hn ha
    obtain ⟨n, rfl⟩ : ∃ k', n = k' + 1 := ⟨n - 1, by omega⟩
    refine readEscape_control hp ha fun t ht => ?_
    obtain ⟨g1, g2, g3, g4⟩ := graph_class hg
    have h3 := ht.step g1
    unfold afterControl
    refine Wp.bind (h3.nextc ?_)
    refine Wp.ite (fun e => absurd (by simpa [isC] using e) h2) fun _ => ?_
    refine Wp.ite (fun e => absurd (by simpa [isC] using e) h1) fun _ => ?_
    rw [g2, g3, g4]
    exact Wp.ite (fun e => absurd e (by simp)) fun _ => Wp.ite (fun e => absurd e (by simp)) fun _ => Wp.pure ⟨rfl, _, rfl, h3.next⟩
  | @controlOf m p text v rest hp hU hb ih =>
    intro n s hn ha
    obtain ⟨n, rfl⟩ : ∃ k', n = k' + 1 := ⟨n - 1, by omega⟩
    refine readEscape_control hp ha fun t ht => ?_
    have h1 := ht.step (by decide)
    unfold afterControl
    refine Wp.bind (h1.nextc ?_)
    refine Wp.ite (fun _ => ?_) fun e => absurd rfl e
    refine Wp.bind (peekU_run h1.next (byte_head_u hb) hU ?_)
    refine Wp.ite (fun e => absurd e (by simp)) fun _ => ?_
    refine Wp.bind ((ih (by simp at hn ⊢; omega) h1.next).mono fun r s' h2 => Wp.pure ?_)
    obtain ⟨rfl, q, h2, h3⟩ := h2.of
    exact ⟨rfl, q, h2, h3⟩
  | @alt k c rest hg hc =>
    intro n s hn ha
    obtain ⟨n, rfl⟩ : ∃ k', n = k' + 1 := ⟨n - 1, by omega⟩
    have h1 := Inline.step (c := asc 'M') ha (by decide)
    have h2 := Inline.step (c := asc '-') h1.next (by decide)
    obtain ⟨g1, g2, g3, g4⟩ := graph_class hg
    have h3 := Inline.step (c := c) h2.next g1
    unfold readEscape
    refine Wp.bind (h1.nextc ?_)
    dsimp only
    repeat refine Wp.ite (fun e => absurd e (by decide)) fun _ => ?_
    refine Wp.ite (fun _ => ?_) fun e => absurd rfl e
    refine Wp.ite (fun e => absurd e (by decide)) fun _ => ?_
    refine Wp.bind (h2.nextc ?_)
    refine Wp.ite (fun e => absurd e (by decide)) fun _ => ?_
    refine Wp.bind (h3.nextc ?_)
    refine Wp.ite (fun e => absurd (by simpa [isC] using e) hc) fun _ => ?_
    rw [g2, g3, g4]
    exact Wp.ite (fun e => absurd e (by simp)) fun _ => Wp.ite (fun e => absurd e (by simp)) fun _ => Wp.pure ⟨rfl, _, rfl, h3.next⟩
  | @altOf k text v rest hU hb ih =>
    intro n s hn ha
    obtain ⟨n, rfl⟩ : ∃ k', n = k' + 1 := ⟨n - 1, by omega⟩
    have h1 := Inline.step (c := asc 'M') ha (by decide)
    have h2 := Inline.step (c := asc '-') h1.next (by decide)
    have h3 := Inline.step (c := asc '\\') h2.next (by decide)
    unfold readEscape
    refine Wp.bind (h1.nextc ?_)
    dsimp only
    repeat refine Wp.ite (fun e => absurd e (by decide)) fun _ => ?_
    refine Wp.ite (fun _ => ?_) fun e => absurd rfl e
    refine Wp.ite (fun e => absurd e (by decide)) fun _ => ?_
    refine Wp.bind (h2.nextc ?_)
    refine Wp.ite (fun e => absurd e (by decide)) fun _ => ?_
    refine Wp.bind (h3.nextc ?_)
    refine Wp.ite (fun _ => ?_) fun e => absurd rfl e
    refine Wp.bind (peekU_run h3.next (byte_head_u hb) hU ?_)
    refine Wp.ite (fun e => absurd e (by simp)) fun _ => ?_
    refine Wp.bind ((ih (by simp at hn ⊢; omega) h3.next).mono fun r s' h2 => Wp.pure ?_)
    obtain ⟨rfl, q, h2, h3⟩ := h2.of
    exact ⟨rfl, q, h2, h3⟩

/-! ### Escape sequences in the loop -/

theorem byte_shorter {without : Bytes} {m k : Bool} {text rest : Bytes} {v : UInt8} (h : Byte without m k text v rest) : rest.length < text.length := by
  induction h with
  | letter => simp
  | itself => simp
  | octal h => have := h.pos; simp only [List.length_append]; omega
  | hex => simp only [List.length_cons, List.length_append]; omega
  | delete => simp only [List.length_cons, List.length_append]; omega
  | control => simp only [List.length_cons, List.length_append]; omega
  | controlOf _ _ _ ih => simp only [List.length_cons, List.length_append]; omega
  | alt => simp only [List.length_cons, List.length_append]; omega
  | altOf _ _ ih => simp only [List.length_cons, List.length_append]; omega

/-- The parts of a list of code points. -/
theorem codes_parts {text rest : Bytes} {ns : List Nat} (h : Codes text ns rest) : ∃ ps, text = UPart.text ps ++ asc '}' :: rest ∧
    ns.flatMap Utf8.encode = UPart.utf8 ps ∧ (∀ p ∈ ps, p.Ok) ∧ UPart.Separated ps ∧ ps ≠ [] ∧ (∀ c ∈ UPart.text ps, c ≠ 10) := by
  have hsp : ∀ {sp : Bytes}, (∀ c ∈ sp, Sep c) → (∀ c ∈ sp, MB.u8Space c = true) ∧ ∀ c ∈ sp, c ≠ 10 := fun h =>
    ⟨fun c hc => by rcases h c hc with rfl | rfl <;> decide, fun c hc => by rcases h c hc with rfl | rfl <;> decide⟩
  induction h with
  | @last ds sp rest h1 h2 h3 h4 h5 =>
    refine ⟨[⟨ds, sp⟩], by simp [UPart.text], by simp [UPart.utf8]; rfl, ?_, trivial, by simp, ?_⟩
    · simp only [List.mem_singleton, forall_eq]; exact ⟨h1, h2, h3, h4, (hsp h5).1⟩
    · simp only [UPart.text, List.flatMap_cons, List.flatMap_nil, List.append_nil, List.mem_append]
      rintro c (h | h)
      · exact digit_line (by decide) h1 c h
      · exact (hsp h5).2 c h
  | @cons ds sp text ns rest h1 h2 h3 h4 h5 h6 _ ih =>
    obtain ⟨ps, e1, e2, e3, e4, e5, e6⟩ := ih
    refine ⟨⟨ds, sp⟩ :: ps, by simp [UPart.text, e1], by simp [UPart.utf8, e2]; rfl, ?_, ?_, by simp, ?_⟩
    · simp only [List.mem_cons, forall_eq_or_imp]; exact ⟨⟨h1, h2, h3, h4, (hsp h5).1⟩, e3⟩
    · cases ps with
      | nil => exact absurd rfl e5
      | cons p ps => exact ⟨h6, e4⟩
    · have : UPart.text (⟨ds, sp⟩ :: ps) = ds ++ sp ++ UPart.text ps := by simp [UPart.text]
      rw [this]
      simp only [List.mem_append]
      rintro c ((h | h) | h)
      · exact digit_line (by decide) h1 c h
      · exact (hsp h5).2 c h
      · exact e6 c h

theorem escape_shorter {without : Bytes} {text rest w : Bytes} (h : Escape without text w rest) : rest.length < text.length := by
  cases h with
  | byte h => exact byte_shorter h
  | join => simp
  | four => simp only [List.length_cons, List.length_append]; omega
  | codes _ hc =>
    obtain ⟨ps, rfl, -⟩ := codes_parts hc
    simp only [List.length_cons, List.length_append]; omega

/-- Delimiters and flags of literals with escape sequences. -/
structure Expands (f : Nat) (t : UInt8) (pa : Option UInt8) : Prop where
  e : hasF f STR_FUNC_EXPAND = true
  r : hasF f STR_FUNC_REGEXP = false
  esc : hasF f STR_FUNC_ESCAPE = false
  w : hasF f STR_FUNC_QWORDS = false
  i : hasF f STR_FUNC_INDENT = false
  nl : t ≠ 10
  hex : Digits.hex t = none
  bs : t ≠ asc '\\'
  pbs : pa ≠ some (asc '\\')
  ph : pa ≠ some (asc '#')

/-- The text of an escape sequence was read and its value added. -/
def Added (bs rest w : Bytes) (s s' : Lexer) : Prop :=
  Upcoming bs rest s'.buffer ∧ s' = { s with buffer := s'.buffer, tokenbuf := s.tokenbuf ++ w }

theorem tokaddUtf8_four {bs ds rest : Bytes} {t : UInt8} {s : Lexer} (ha : Inline bs (ds ++ rest) s.buffer) (h1 : ∀ c ∈ ds, (EscapeSpec.hex c).isSome = true) (h2 : ds.length = 4)
    (h3 : Utf8.isScalar (EscapeSpec.value 16 EscapeSpec.hex ds) = true) :
    Wp (tokaddUtf8 (some t) false) (fun _ s' => Added bs rest (Utf8.encode (EscapeSpec.value 16 EscapeSpec.hex ds)) s s') s := by
  obtain ⟨k1, w, k2, k3⟩ := Inline.skip ds ha (digit_line (by decide) h1)
  unfold tokaddUtf8
  refine Wp.bind (Wp.peek ha.at'.seq.good fun r hr => ?_)
  have hr : r = false := by
    by_contra e
    obtain ⟨-, hb⟩ := hr.1 (by simpa using e)
    cases ds with
    | nil => simp at h2
    | cons d ds =>
      rw [ha.at'.d, get_of_drop (show bs.drop s.buffer.pcur = d :: (ds ++ w) from k2)] at hb
      simp only [Option.some.injEq] at hb
      have := h1 d (by simp)
      rw [hb] at this; exact absurd this (by decide)
  subst hr
  refine Wp.ite (fun e => absurd e (by simp)) fun _ => ?_
  have hu : uDigits s.buffer false = ds := by
    unfold uDigits
    rw [ha.at'.d, k2]
    exact Number.run (dig := EscapeSpec.hex) (most := 4) ⟨h1, by omega, by omega, .inl h2⟩ (by decide) k3
  have hs := C26_scalar s false ha.at'.seq.good.hi (by rw [hu]; exact h2) (by rw [hu]; exact h3)
  rw [hu] at hs
  refine Wp.bind ⟨_, _, hs, ?_⟩
  refine Wp.ite (fun e => absurd e (by simp)) fun _ => Wp.pure ⟨?_, rfl⟩
  exact k1.at'.bsame ⟨⟨rfl, rfl, rfl, rfl, rfl, rfl, rfl, rfl⟩, rfl, rfl⟩

theorem tokaddUtf8_codes {bs sp text rest : Bytes} {ns : List Nat} {t : UInt8} (ht : Digits.hex t = none) {s : Lexer} (ha : Inline bs (asc '{' :: (sp ++ text)) s.buffer)
    (hsp : ∀ c ∈ sp, Sep c) (hc : Codes text ns rest) : Wp (tokaddUtf8 (some t) false) (fun _ s' => Added bs rest (ns.flatMap Utf8.encode) s s') s := by
  obtain ⟨ps, rfl, e2, e3, e4, e5, e6⟩ := codes_parts hc
  have hsp1 : ∀ c ∈ sp, MB.u8Space c = true := fun c hc => by rcases hsp c hc with rfl | rfl <;> decide
  have hsp2 : ∀ c ∈ sp, c ≠ 10 := fun c hc => by rcases hsp c hc with rfl | rfl <;> decide
  have ha' : Inline bs ((asc '{' :: (sp ++ UPart.text ps)) ++ asc '}' :: rest) s.buffer := by simpa using ha
  obtain ⟨k1, w, k2, k3⟩ := Inline.skip _ ha' (by
    simp only [List.mem_cons, List.mem_append]
    rintro c (rfl | h | h)
    · decide
    · exact hsp2 c h
    · exact e6 c h)
  have k4 := k1.step (by decide)
  have hlt := k1.lt (by simp)
  simp only [List.length_cons, List.length_append, at_] at hlt
  have hw : ∃ w', w = asc '}' :: w' := by
    cases w with
    | nil => simp [collapse] at k3
    | cons c w =>
      refine ⟨w, ?_⟩
      have := (collapse_head (bs := c :: w) (c := asc '}') (by decide)).1 (by rw [k3]; rfl)
      simpa using this
  obtain ⟨w', rfl⟩ := hw
  obtain ⟨k, hk⟩ := C26_braces s (some t) sp ps w' (fun t' h => by cases h; exact ht) (by simp) hsp1 e3 e4 ha.at'.seq.nl ha.noeof ha.at'.seq.good.pend_le
    (by rw [ha.at'.d, k2]; simp) (by omega)
  refine ⟨_, _, hk, ?_, ?_⟩
  · have h5 := k4.next.at'
    have e : s.buffer.pcur + 1 + sp.length + (UPart.text ps).length + 1 = s.buffer.pcur + (asc '{' :: (sp ++ UPart.text ps)).length + 1 := by
      simp only [List.length_cons, List.length_append]; omega
    rw [e]
    exact h5.bsame ⟨⟨rfl, rfl, rfl, rfl, rfl, rfl, rfl, rfl⟩, rfl, rfl⟩
  · rw [e2]; rfl

theorem itself_first {without : Bytes} {m k : Bool} {c v : UInt8} {text rest : Bytes} (h : Byte without m k (c :: text) v rest) : c ≠ 10 ∧ (c = asc '\\' → v = c ∧ rest = text) := by
  have key : ∀ {p : Bytes} {d : UInt8} {w : Bytes}, p ∈ controls → p ++ d :: w = c :: text → c = asc 'c' ∨ c = asc 'C' := by
    intro p d w hp e
    simp only [controls, List.mem_cons, List.not_mem_nil, or_false] at hp
    rcases hp with rfl | rfl
    · left; simp only [ascs, List.map] at e; exact (List.cons.inj e).1.symm
    · right; exact (List.cons.inj (show asc 'C' :: _ = c :: text from e)).1.symm
  generalize e : c :: text = full at h
  cases h with
  | letter hl =>
    cases e
    simp only [letters, List.mem_cons, List.not_mem_nil, Prod.mk.injEq, or_false] at hl
    rcases hl with h | h | h | h | h | h | h | h | h <;> (rw [h.1]; exact ⟨by decide, fun e => absurd e (by decide)⟩)
  | itself hi => cases e; exact ⟨hi.line, fun _ => ⟨rfl, rfl⟩⟩
  | @octal _ _ ds rest hd =>
    cases ds with
    | nil => have := hd.pos; simp at this
    | cons d ds =>
      simp only [List.cons_append, List.cons.injEq] at e
      have h1 := hd.digits d (by simp)
      rw [← e.1] at h1
      exact ⟨fun h => by rw [h] at h1; exact absurd h1 (by decide), fun h => by rw [h] at h1; exact absurd h1 (by decide)⟩
  | hex => cases e; exact ⟨by decide, fun e => absurd e (by decide)⟩
  | delete hp => rcases key hp e.symm with rfl | rfl <;> exact ⟨by decide, fun e => absurd e (by decide)⟩
  | control hp => rcases key hp e.symm with rfl | rfl <;> exact ⟨by decide, fun e => absurd e (by decide)⟩
  | controlOf hp => rcases key hp e.symm with rfl | rfl <;> exact ⟨by decide, fun e => absurd e (by decide)⟩
  | alt => have : c = asc 'M' := (List.cons.inj e).1
           subst this; exact ⟨by decide, fun e => absurd e (by decide)⟩
  | altOf => have : c = asc 'M' := (List.cons.inj e).1
             subst this; exact ⟨by decide, fun e => absurd e (by decide)⟩

/-- One escape sequence in a literal. -/
theorem tsBackslash_escape {bs : Bytes} {f : Nat} {t : UInt8} {pa : Option UInt8} (hf : Expands f t pa) {depth : Nat} {text rest w : Bytes} {s : Lexer}
    (h : Escape misread text w rest) (ha : Inline bs text s.buffer) (hpos : 0 < s.buffer.pcur) :
    Wp (tsBackslash f t pa depth) (fun r s' => r = .go depth ∧ Added bs rest w s s') s := by
  unfold tsBackslash
  refine Wp.bind (Wp.pcurSub hpos (Wp.bind ⟨_, _, rfl, ?_⟩))
  have ha' : Inline bs text ({ s.buffer with ptok := s.buffer.pcur - 1 } : Buffer) := ha.bsame ⟨⟨rfl, rfl, rfl, rfl, rfl, rfl, rfl, rfl⟩, rfl, rfl⟩
  obtain ⟨s1, hs1⟩ : ∃ s1, s1 = ({ s with buffer := { s.buffer with ptok := s.buffer.pcur - 1 } } : Lexer) := ⟨_, rfl⟩
  have ha1 : Inline bs text s1.buffer := by rw [hs1]; exact ha'
  have hadd : ∀ {w s'}, Added bs rest w s1 s' → Added bs rest w s s' := by
    rintro w s' ⟨h1, h2⟩
    refine ⟨h1, ?_⟩
    rw [h2, hs1]
  show Wp _ _ ({ s with buffer := { s.buffer with ptok := s.buffer.pcur - 1 } } : Lexer)
  rw [← hs1]
  cases h with
  | join =>
    refine Wp.bind (Upcoming.nextc ha1.at' fun b h1 _ => ?_)
    dsimp only
    refine Wp.ite (fun _ => ?_) fun e => absurd rfl e
    rw [hf.w, hf.e, hf.i]
    simp only [Bool.false_eq_true, if_false, if_true, Bool.not_false, Bool.true_or]
    refine Wp.bind (Wp.getB (Wp.pure ⟨rfl, hadd ⟨h1.at', ?_⟩⟩))
    simp
  | @four ds rest h1 h2 h3 =>
    have hu := ha1.step (by decide)
    refine Wp.bind (hu.nextc ?_)
    dsimp only
    refine Wp.ite (fun e => absurd e (by decide)) fun _ => ?_
    refine Wp.ite (fun e => absurd e (by decide)) fun _ => ?_
    refine Wp.ite (fun _ => ?_) fun e => absurd rfl e
    rw [hf.e, hf.r]
    simp only [Bool.not_true, Bool.false_eq_true, if_false]
    exact Wp.bind ((tokaddUtf8_four hu.next h1 h2 h3).mono fun _ s' h4 => Wp.pure ⟨rfl, hadd h4⟩)
  | @codes sp text ns rest h1 h2 =>
    have hu := ha1.step (by decide)
    refine Wp.bind (hu.nextc ?_)
    dsimp only
    refine Wp.ite (fun e => absurd e (by decide)) fun _ => ?_
    refine Wp.ite (fun e => absurd e (by decide)) fun _ => ?_
    refine Wp.ite (fun _ => ?_) fun e => absurd rfl e
    rw [hf.e, hf.r]
    simp only [Bool.not_true, Bool.false_eq_true, if_false]
    exact Wp.bind ((tokaddUtf8_codes hf.hex hu.next h1 h2).mono fun _ s' h4 => Wp.pure ⟨rfl, hadd h4⟩)
  | @byte text v rest hb =>
    cases htext : text with
    | nil => have := byte_shorter hb; rw [htext] at this; simp at this
    | cons c text' =>
      rw [htext] at hb ha1
      obtain ⟨hc10, hcb⟩ := itself_first hb
      have hu' := byte_head_u hb
      have h1 := ha1.step hc10
      refine Wp.bind (h1.nextc ?_)
      dsimp only
      refine Wp.ite (fun e => absurd e hc10) fun _ => ?_
      refine Wp.ite (fun e => ?_) fun _ => ?_
      · obtain ⟨rfl, rfl⟩ := hcb e
        rw [hf.esc]
        simp only [Bool.false_eq_true, if_false]
        exact Wp.bind ⟨_, _, rfl, Wp.pure ⟨rfl, hadd ⟨h1.next.at', rfl⟩⟩⟩
      refine Wp.ite (fun e => absurd (by rw [e]; rfl) hu') fun _ => ?_
      unfold tsEscapeOther
      rw [hf.e, hf.r, hf.esc]
      simp only [Bool.not_true, Bool.and_false, Bool.false_eq_true, if_false, if_true]
      refine Wp.bind (h1.pushback ?_)
      refine Wp.bind ((readEscape_byte hb (by decide) ha1).mono fun r s' h2 => ?_)
      obtain ⟨rfl, p, h2, h3⟩ := h2
      refine Wp.bind ⟨_, _, rfl, Wp.pure ⟨rfl, hadd ⟨h3.at', ?_⟩⟩⟩
      rw [h2]; rfl

/-- A number sign that starts no interpolation. -/
theorem hash_plain {bs text : Bytes} {b : Buffer} (h : Upcoming bs text b) (hh : ∀ d, text.head? = some d → d ∉ ascs "$@{") :
    (isC (b.byteAt b.pcur) '$' || isC (b.byteAt b.pcur) '@' || isC (b.byteAt b.pcur) '{') = false := by
  have key : ∀ ch : Char, asc ch ≠ 10 ∧ asc ch ≠ 13 → asc ch ∈ ascs "$@{" → isC (b.byteAt b.pcur) ch = false := by
    intro ch hch hm
    by_contra he
    have he : b.byteAt b.pcur = some (asc ch) := by simpa [isC] using he
    refine hh (asc ch) ?_ hm
    rw [← h.txt, collapse_head hch, List.head?_drop, ← h.d]
    exact he
  rw [key '$' (by decide) (by decide), key '@' (by decide) (by decide), key '{' (by decide) (by decide)]
  rfl

theorem tsLoop_denotes {bs : Bytes} {f : Nat} {t : UInt8} {pa : Option UInt8} (hf : Expands f t pa) {depth : Nat} {text v rest : Bytes}
    (hd : Denotes misread t pa depth text v rest) : ∀ {k : Nat} {s : Lexer}, text.length < k → Upcoming bs text s.buffer →
    Wp (tsLoop f t pa k depth) (QRead bs v rest 0 s) s := by
  induction hd with
  | @stop rest hne =>
    intro k s hk ha
    obtain ⟨k, rfl⟩ : ∃ k', k = k' + 1 := ⟨k - 1, by omega⟩
    unfold tsLoop tsStep
    refine Wp.bind (Wp.bind (ha.nextc fun b1 h1 hlt => ?_))
    dsimp only
    refine Wp.bind (Wp.modB ?_)
    have hb : BSame b1 (if b1.heredocIndent > 0 then updateIndent (some t) b1 else b1) := by
      split
      · exact (updateIndent_bsame _ _).1
      · exact .refl _
    dsimp only
    have h2 := h1.bsame hb
    generalize (if b1.heredocIndent > 0 then updateIndent (some t) b1 else b1) = b2 at h2 ⊢
    refine Wp.ite (fun e => absurd e hne) fun _ => ?_
    refine Wp.ite (fun _ => ?_) fun e => absurd rfl e
    refine Wp.ite (fun _ => ?_) fun e => absurd rfl e
    exact Wp.bind (Took.pushback (s := { s with buffer := b2 }) h2 fun h3 => Wp.pure (Wp.pure ⟨rfl, rfl, h3, h3.noeof, by simp, rfl⟩))
  | @up depth c text v rest hc _ ih =>
    intro k s hk ha
    simp only [List.length_cons] at hk
    obtain ⟨k, rfl⟩ : ∃ k', k = k' + 1 := ⟨k - 1, by omega⟩
    unfold tsLoop tsStep
    refine Wp.bind (Wp.bind (ha.nextc fun b1 h1 hlt => ?_))
    dsimp only
    refine Wp.bind (Wp.modB ?_)
    have hb : BSame b1 (if b1.heredocIndent > 0 then updateIndent (some c) b1 else b1) := by
      split
      · exact (updateIndent_bsame _ _).1
      · exact .refl _
    dsimp only
    have h2 := h1.bsame hb
    generalize (if b1.heredocIndent > 0 then updateIndent (some c) b1 else b1) = b2 at h2 ⊢
    refine Wp.ite (fun _ => ?_) fun e => absurd hc e
    refine Wp.bind ⟨_, _, rfl, Wp.pure ?_⟩
    refine (ih (s := { s with buffer := b2, tokenbuf := s.tokenbuf ++ [c] }) (by omega) h2.at').mono fun r s2 h3 => ?_
    exact h3.trans (w := [c]) rfl
  | @down depth text v rest hne _ ih =>
    intro k s hk ha
    simp only [List.length_cons] at hk
    obtain ⟨k, rfl⟩ : ∃ k', k = k' + 1 := ⟨k - 1, by omega⟩
    unfold tsLoop tsStep
    refine Wp.bind (Wp.bind (ha.nextc fun b1 h1 hlt => ?_))
    dsimp only
    refine Wp.bind (Wp.modB ?_)
    have hb : BSame b1 (if b1.heredocIndent > 0 then updateIndent (some t) b1 else b1) := by
      split
      · exact (updateIndent_bsame _ _).1
      · exact .refl _
    dsimp only
    have h2 := h1.bsame hb
    generalize (if b1.heredocIndent > 0 then updateIndent (some t) b1 else b1) = b2 at h2 ⊢
    refine Wp.ite (fun e => absurd e hne) fun _ => ?_
    refine Wp.ite (fun _ => ?_) fun e => absurd rfl e
    refine Wp.ite (fun e => absurd e (by simp)) fun _ => ?_
    refine Wp.bind ⟨_, _, rfl, Wp.pure ?_⟩
    refine (ih (s := { s with buffer := b2, tokenbuf := s.tokenbuf ++ [t] }) (by omega) h2.at').mono fun r s2 h3 => ?_
    exact h3.trans (w := [t]) rfl
  | @plain depth c text v rest h1 h2 h3 h4 _ ih =>
    intro k s hk ha
    simp only [List.length_cons] at hk
    obtain ⟨k, rfl⟩ : ∃ k', k = k' + 1 := ⟨k - 1, by omega⟩
    unfold tsLoop tsStep
    refine Wp.bind (Wp.bind (ha.nextc fun b1 k1 hlt => ?_))
    dsimp only
    refine Wp.bind (Wp.modB ?_)
    have hb : BSame b1 (if b1.heredocIndent > 0 then updateIndent (some c) b1 else b1) := by
      split
      · exact (updateIndent_bsame _ _).1
      · exact .refl _
    dsimp only
    have k2 := k1.bsame hb
    generalize (if b1.heredocIndent > 0 then updateIndent (some c) b1 else b1) = b2 at k2 ⊢
    have go : Wp (do Lexer.tokadd c; Pure.pure (TsStep.go depth)) (fun r s1 => Wp (match r with
            | .done r nest => Pure.pure (r, nest)
            | .go nest => tsLoop f t pa k nest) (QRead bs (c :: v) rest 0 s) s1) { s with buffer := b2 } := by
      refine Wp.bind ⟨_, _, rfl, Wp.pure ?_⟩
      refine (ih (s := { s with buffer := b2, tokenbuf := s.tokenbuf ++ [c] }) (by omega) k2.at').mono fun r s2 h3 => ?_
      exact h3.trans (w := [c]) rfl
    refine Wp.ite (fun e => absurd e h1) fun _ => ?_
    refine Wp.ite (fun e => absurd e h2) fun _ => ?_
    refine Wp.bind (Wp.getB ?_)
    refine Wp.ite (fun e => ?_) fun _ => ?_
    · have hc : c = asc '#' := by
        simp only [Bool.and_eq_true, beq_iff_eq] at e
        exact e.1.2
      refine Wp.bind (Wp.getB ?_)
      rw [hash_plain k2.at' (h4 hc)]
      exact Wp.ite (fun e => absurd e (by simp)) fun _ => go
    refine Wp.ite (fun e => absurd e h3) fun _ => ?_
    refine Wp.bind (Wp.isAsciiPrev k2.pos ?_)
    refine Wp.ite (fun _ => go) fun _ => ?_
    rw [hf.w]
    exact Wp.ite (fun e => absurd e (by simp)) fun _ => go
  | @escape depth text text' w v rest he _ ih =>
    intro k s hk ha
    simp only [List.length_cons] at hk
    obtain ⟨k, rfl⟩ : ∃ k', k = k' + 1 := ⟨k - 1, by omega⟩
    unfold tsLoop tsStep
    refine Wp.bind (Wp.bind (ha.nextc fun b1 k1 hlt => ?_))
    dsimp only
    refine Wp.bind (Wp.modB ?_)
    have hb : BSame b1 (if b1.heredocIndent > 0 then updateIndent (some (asc '\\')) b1 else b1) := by
      split
      · exact (updateIndent_bsame _ _).1
      · exact .refl _
    dsimp only
    have k2 := k1.bsame hb
    generalize (if b1.heredocIndent > 0 then updateIndent (some (asc '\\')) b1 else b1) = b2 at k2 ⊢
    refine Wp.ite (fun e => absurd e.symm hf.pbs) fun _ => ?_
    refine Wp.ite (fun e => absurd e.symm hf.bs) fun _ => ?_
    refine Wp.bind (Wp.getB ?_)
    refine Wp.ite (fun e => ?_) fun _ => ?_
    · simp only [Bool.and_eq_true, beq_iff_eq] at e
      exact absurd e.1.2 (by decide)
    refine Wp.ite (fun _ => ?_) fun e => absurd rfl e
    have hin := k2.inline (by decide)
    refine (tsBackslash_escape (s := { s with buffer := b2 }) hf he hin k2.pos).mono fun r s1 h1 => ?_
    obtain ⟨rfl, h2, h3⟩ := h1
    have hsh := escape_shorter he
    refine (ih (s := s1) (by omega) h2).mono fun r s2 h4 => ?_
    exact h4.trans (w := w) (by rw [h3])

/-- The next token is the content of the literal. -/
theorem yylex_expanded {x : Ext} {bs text v rest : Bytes} {q : StringLiteral} {s : Lexer} {c : UInt8} (hl : Lit bs q (c :: text) s)
    (hf : Expands q.func q.term q.paren) (ht : hasF q.func STR_FUNC_TERM = false) (hli : hasF q.func STR_FUNC_LIST = false) (hn : q.nest = 0)
    (hne : c ≠ q.term) (hc : Denotes misread q.term q.paren 0 (c :: text) v rest) (hrest : rest ≠ []) :
    Wp (yylex x) (fun t s' => t = ⟨.tSTRING_CONTENT, v, ⟨s.buffer.pcur, s'.buffer.pcur⟩⟩ ∧ Lit bs q rest s' ∧
      s'.diagnostics = s.diagnostics ∧ s'.lexState = s.lexState) s := by
  refine yylex_string hl.st ?_
  unfold parseString
  dsimp only
  refine Wp.bind (Wp.modS (Wp.bind (Wp.modS ?_)))
  rw [ht]
  simp only [Bool.false_eq_true, if_false]
  have ha : Upcoming bs (c :: text) ({ s.buffer with ptok := s.buffer.pcur } : Buffer) :=
    hl.at'.bsame ⟨⟨rfl, rfl, rfl, rfl, rfl, rfl, rfl, rfl⟩, rfl, rfl⟩
  refine Wp.bind (Upcoming.nextc (s := { s with lval := none, buffer := { s.buffer with ptok := s.buffer.pcur }, strterm := none, lvalStart := some s.buffer.pcur }) ha fun b1 h1 hlt => ?_)
  rw [hf.w, hli]
  simp only [Bool.false_and, Bool.false_eq_true, if_false]
  refine Wp.bind (Wp.pure ?_)
  refine Wp.ite (fun e => absurd (by simpa using e.1) hne) fun _ => ?_
  refine Wp.ite (fun e => by simp at e) fun _ => ?_
  refine Wp.bind (Wp.modS ?_)
  dsimp only
  have hlen : (c :: text).length ≤ bs.length := by
    rw [← hl.at'.txt]
    exact Nat.le_trans (collapse_length _ (Nat.le_refl _)) (by simp)
  -- reading the content, with a part of it read already
  have body : ∀ (w v' text' : Bytes) (b : Buffer), w ++ v' = v → text'.length ≤ bs.length → Upcoming bs text' b → Denotes misread q.term q.paren 0 text' v' rest →
      Wp (stringContent q q.func q.term q.paren) (Finish fun t s' => t = ⟨.tSTRING_CONTENT, v, ⟨s.buffer.pcur, s'.buffer.pcur⟩⟩ ∧ Lit bs q rest s' ∧
        s'.diagnostics = s.diagnostics ∧ s'.lexState = s.lexState)
        { s with lval := none, buffer := b, strterm := none, lvalStart := some s.buffer.pcur, tokenbuf := w } := by
    intro w v' text' b hv hlen' hb hden
    unfold stringContent tokaddString
    refine Wp.bind (Wp.bind (Wp.fuel ?_))
    rw [hn]
    refine (tsLoop_denotes hf hden (s := { s with lval := none, buffer := b, strterm := none, lvalStart := some s.buffer.pcur, tokenbuf := w })
      (by show _ < 64 * (b.d.bytes.length + 1); rw [hb.d]; omega) hb).mono fun r s2 h3 => ?_
    obtain ⟨r1, r2⟩ := r
    obtain ⟨h4, h5, h6, h7, h8, h9⟩ := h3
    dsimp only at h4 h5 h6 h7 h8 h9 ⊢
    subst h5
    refine Wp.bind (Wp.getB ?_)
    rw [h7, Bool.and_false]
    simp only [Bool.false_eq_true, if_false]
    refine Wp.bind (Wp.modS (Wp.bind (Wp.modS (Wp.pure ⟨by decide, v, .inl ?_, ?_⟩))))
    · dsimp only; rw [h8, hv]
    · refine ⟨?_, ⟨h6, ?_, rfl, rfl⟩, ?_, ?_⟩
      · simp only [tBegin, tEnd]
        rw [h9]; simp [hl.le]
      · show some (StrTerm.string { q with nest := 0 }) = _
        rw [← hn]
      · dsimp only; rw [h9]
      · dsimp only; rw [h9]
  rw [hf.e]
  have h1 : Took bs c text ({ b1 with tokidx := 0, tokline := b1.rubySourceline } : Buffer) := h1.bsame ⟨⟨rfl, rfl, rfl, rfl, rfl, rfl, rfl, rfl⟩, rfl, rfl⟩
  show Wp _ _ ({ s with lval := none, buffer := { b1 with tokidx := 0, tokline := b1.rubySourceline }, strterm := none, lvalStart := some s.buffer.pcur, tokenbuf := [] } : Lexer)
  generalize ({ b1 with tokidx := 0, tokline := b1.rubySourceline } : Buffer) = b1 at h1 ⊢
  refine Wp.ite (fun e => ?_) fun _ => ?_
  · have hch : c = asc '#' := by simpa [isC] using e
    cases hc with
    | stop => exact absurd rfl hne
    | up he => exact absurd (by rw [← he, hch]) hf.ph
    | escape => exact absurd hch (by decide)
    | @plain _ _ _ v _ _ _ _ hh hd =>
      have hpv : Wp peekVariableName (fun r s' => r = none ∧ s' = ({ s with lval := none, buffer := b1, strterm := none, lvalStart := some s.buffer.pcur, tokenbuf := [] } : Lexer))
          ({ s with lval := none, buffer := b1, strterm := none, lvalStart := some s.buffer.pcur, tokenbuf := [] } : Lexer) := by
        unfold peekVariableName
        refine Wp.bind (Wp.getB (Wp.bind (Wp.getB (Wp.ite (fun _ => Wp.pure ⟨rfl, rfl⟩) fun _ => Wp.bind (Wp.getB ?_)))))
        have hk := hash_plain h1.at' (hh hch)
        simp only [Bool.or_eq_false_iff] at hk
        dsimp only
        rw [hk.1.1, hk.1.2, hk.2]
        exact Wp.ite (fun e => absurd e (by simp)) fun _ => Wp.ite (fun e => absurd e (by simp)) fun _ => Wp.ite (fun e => absurd e (by simp)) fun _ => Wp.pure ⟨rfl, rfl⟩
      refine Wp.bind (hpv.mono fun r s1 h2 => ?_)
      obtain ⟨rfl, rfl⟩ := h2
      refine Wp.bind ⟨_, _, rfl, ?_⟩
      cases text with
      | nil => cases hd
      | cons d text =>
        refine Wp.bind (Upcoming.nextc (s := { s with lval := none, buffer := b1, strterm := none, lvalStart := some s.buffer.pcur, tokenbuf := [asc '#'] }) h1.at' fun b2 h2 _ => ?_)
        refine Wp.bind (Took.pushback (s := { s with lval := none, buffer := b2, strterm := none, lvalStart := some s.buffer.pcur, tokenbuf := [asc '#'] }) h2 fun h3 => ?_)
        exact body [asc '#'] v (d :: text) _ (by rw [hch]; rfl) (by simp only [List.length_cons] at hlen ⊢; omega) h3 hd
  · refine Wp.bind (Took.pushback (c := c) (text := text) (bs := bs) (h1.bsame ⟨⟨rfl, rfl, rfl, rfl, rfl, rfl, rfl, rfl⟩, rfl, rfl⟩) fun h2 => ?_)
    exact body [] v (c :: text) _ rfl hlen h2 hc

theorem yylex_open_backtick {x : Ext} {bs blanks text : Bytes} {s : Lexer} (h : Upcoming bs (blanks ++ asc '`' :: text) s.buffer) (hb : ∀ c ∈ blanks, Blank c)
    (hfn : s.lexState.isSome EXPR_FNAME = false) (hdot : s.lexState.isSome EXPR_DOT = false)
    (hst : s.strterm = none) (hls : s.lvalStart = none) (hle : s.lvalEnd = none) :
    Wp (yylex x) (fun t s' => t = ⟨.tXSTRING_BEG, ascs "`", ⟨s.buffer.pcur + blanks.length, s.buffer.pcur + blanks.length + 1⟩⟩ ∧
      Lit bs ⟨0, str_xquote, none, asc '`', none⟩ text s' ∧ s'.buffer.pcur = s.buffer.pcur + blanks.length + 1 ∧
      s'.diagnostics = s.diagnostics) s := by
  refine yylex_code hst ?_
  have hlen : (blanks ++ asc '`' :: text).length ≤ bs.length := by
    rw [← h.txt]
    exact Nat.le_trans (collapse_length _ (Nat.le_refl _)) (by simp)
  refine yylexLoop_blanks blanks (text := asc '`' :: text) (bs := bs) hb ?_ h fun n b sp hn h1 hp => ?_
  · rw [h.d]; simp only [List.length_append, List.length_cons] at hlen; omega
  obtain ⟨n, rfl⟩ : ∃ k', n = k' + 1 := ⟨n - 1, by omega⟩
  refine yylexLoop_char (s := { s with lval := none, commandStart := false, tokenSeen := true, buffer := b }) h1 fun b1 h2 hm ht => Wp.bind ?_
  unfold dispatch
  repeat refine Wp.ite (fun e => absurd e (by decide)) fun _ => ?_
  refine Wp.ite (fun _ => ?_) fun e => absurd rfl e
  unfold lexBacktick
  refine Wp.bind (Wp.getS ?_)
  refine Wp.ite (fun e => absurd e (by rw [hfn]; simp)) fun _ => ?_
  refine Wp.ite (fun e => absurd e (by rw [hdot]; simp)) fun _ => ?_
  refine Wp.bind (Wp.modS (Wp.pure (Wp.pure ?_)))
  have hone := hm.one (by decide)
  dsimp only at hone hp ht
  have hlast := h2.last
  have hle2 := h2.at'.le
  have hsl : Spec.slice bs b1.ptok b1.pcur = ascs "`" := by
    rw [Verif.slice_head (c := asc '`') (by omega) (by rw [← hlast]; congr 1; omega), show b1.ptok + 1 = b1.pcur by omega, Verif.slice_empty]; rfl
  refine ⟨by decide, ascs "`", .inr ⟨rfl, ?_, ?_, ?_⟩, ?_, ⟨h2.at'.bsame ⟨⟨rfl, rfl, rfl, rfl, rfl, rfl, rfl, rfl⟩, rfl, rfl⟩, rfl, rfl, rfl⟩, ?_, rfl⟩
  · simp only [tBegin, tEnd, hls, hle, Option.getD]
    show b1.ptok ≤ b1.pcur
    omega
  · simp only [tEnd, hle, Option.getD]
    show b1.pcur ≤ b1.d.bytes.length
    rw [h2.at'.d]; exact hle2
  · simp only [tBegin, tEnd, hls, hle, Option.getD]
    show _ = Spec.slice b1.d.bytes b1.ptok b1.pcur
    rw [h2.at'.d, hsl]
  · simp only [tBegin, tEnd, hls, hle, Option.getD]
    show Token.mk _ _ ⟨b1.ptok, b1.pcur⟩ = _
    rw [show b1.ptok = s.buffer.pcur + blanks.length by omega, show b1.pcur = s.buffer.pcur + blanks.length + 1 by omega]
  · show b1.pcur = _
    omega

open QuoteSpec (closeOf openerOf Delimiter)

/-- `%` without a letter. -/
theorem yylex_open_bare {x : Ext} {bs blanks text : Bytes} {s : Lexer} {d : UInt8} (hd : Delimiter d)
    (h : Upcoming bs (blanks ++ asc '%' :: d :: text) s.buffer) (hb : ∀ c ∈ blanks, Blank c) (hbeg : s.lexState.isBeg = true)
    (hst : s.strterm = none) (hls : s.lvalStart = none) (hle : s.lvalEnd = none) :
    Wp (yylex x) (fun tok s' => tok = ⟨.tSTRING_BEG, [asc '%', d], ⟨s.buffer.pcur + blanks.length, s.buffer.pcur + blanks.length + 2⟩⟩ ∧
      Lit bs ⟨0, str_dquote, openerOf d, closeOf d, none⟩ text s' ∧ s'.buffer.pcur = s.buffer.pcur + blanks.length + 2 ∧ s'.diagnostics = s.diagnostics) s := by
  refine yylex_code hst ?_
  have hlen : (blanks ++ asc '%' :: d :: text).length ≤ bs.length := by
    rw [← h.txt]
    exact Nat.le_trans (collapse_length _ (Nat.le_refl _)) (by simp)
  refine yylexLoop_blanks blanks (text := asc '%' :: d :: text) (bs := bs) hb ?_ h fun n b sp hn h1 hp => ?_
  · rw [h.d]; simp only [List.length_append, List.length_cons] at hlen; omega
  obtain ⟨n, rfl⟩ : ∃ k', n = k' + 1 := ⟨n - 1, by omega⟩
  refine yylexLoop_char (s := { s with lval := none, commandStart := false, tokenSeen := true, buffer := b }) h1 fun b1 h2 hm ht => Wp.bind ?_
  unfold dispatch
  repeat refine Wp.ite (fun e => absurd e (by decide)) fun _ => ?_
  refine Wp.ite (fun _ => ?_) fun e => absurd rfl e
  unfold parsePercent
  have hone := hm.one (by decide)
  dsimp only at hone hp
  have hd' : d ≠ 10 ∧ MB.u8Alnum d = false ∧ MB.u8Ascii d = true :=
    byte_forall (p := fun d => Delimiter d → d ≠ 10 ∧ MB.u8Alnum d = false ∧ MB.u8Ascii d = true) (by decide +kernel) d hd
  refine Wp.bind (Wp.bind (Wp.getB (Wp.bind (Wp.getS ?_))))
  refine Wp.ite (fun _ => ?_) fun e => absurd hbeg e
  refine Wp.bind (Upcoming.nextc (s := { s with lval := none, commandStart := false, tokenSeen := true, buffer := b1 }) h2.at' fun b2 h3 hm2 => ?_)
  have hone2 := hm2.one hd'.1
  dsimp only at hone2
  unfold percentQuotation
  dsimp only
  rw [hd'.2.1, hd'.2.2]
  simp only [Bool.not_false, Bool.not_true, Bool.false_eq_true, if_false, if_true]
  refine percentOpen_run .Q h2.pos fun st => Wp.pure (Wp.pure ?_)
  have hl1 := h2.last
  have hl2 := h3.last
  have hle2 := h3.at'.le
  have hsl : Spec.slice bs (b1.pcur - 1) b2.pcur = [asc '%', d] := by
    rw [Verif.slice_head (c := asc '%') (by omega) hl1, Verif.slice_head (c := d) (by omega) (by rw [← hl2]; congr 1; omega),
      show b1.pcur - 1 + 1 + 1 = b2.pcur by omega, Verif.slice_empty]
  refine ⟨by decide, [asc '%', d], .inr ⟨rfl, ?_, ?_, ?_⟩, ?_, ⟨h3.at'.bsame ⟨⟨rfl, rfl, rfl, rfl, rfl, rfl, rfl, rfl⟩, rfl, rfl⟩, rfl, rfl, rfl⟩, ?_, rfl⟩
  · simp only [tBegin, tEnd, hls, hle, Option.getD]
    omega
  · simp only [tEnd, hle, Option.getD]
    show b2.pcur ≤ b2.d.bytes.length
    rw [h3.at'.d]; exact hle2
  · simp only [tBegin, tEnd, hls, hle, Option.getD]
    show _ = Spec.slice b2.d.bytes (b1.pcur - 1) b2.pcur
    rw [h3.at'.d, hsl]
  · simp only [tBegin, tEnd, hls, hle, Option.getD]
    rw [show b1.pcur - 1 = s.buffer.pcur + blanks.length by omega, show b2.pcur = s.buffer.pcur + blanks.length + 2 by omega]
  · show b2.pcur = _
    omega

end Verif.Lexer
