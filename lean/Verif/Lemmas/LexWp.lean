import Verif.Model.Lexer.Core
import Verif.Lemmas.Buffer
/-!
Weakest preconditions for lexer computations, and the specifications of the basic steps within one line.
-/
namespace Verif.Lexer

/-- `x` runs without panic from `s` and establishes `Q`. -/
def Wp (x : LexM α) (Q : α → Lexer → Prop) (s : Lexer) : Prop := ∃ a s', x s = .ok (a, s') ∧ Q a s'

section
variable {α β : Type} {Q : α → Lexer → Prop} {s : Lexer}

theorem Wp.pure {a : α} (h : Q a s) : Wp (pure a) Q s := ⟨a, s, rfl, h⟩

theorem Wp.bind {x : LexM β} {f : β → LexM α} (h : Wp x (fun b s' => Wp (f b) Q s') s) : Wp (x >>= f) Q s := by
  obtain ⟨b, s', e, a, s'', e', hq⟩ := h
  refine ⟨a, s'', ?_, hq⟩
  show StateT.bind x f s = _
  simp only [StateT.bind, Bind.bind, Except.bind]
  rw [e]; exact e'

theorem Wp.map {x : LexM β} {f : β → α} (h : Wp x (fun b s' => Q (f b) s') s) : Wp (f <$> x) Q s := by
  obtain ⟨b, s', e, hq⟩ := h
  refine ⟨f b, s', ?_, hq⟩
  show StateT.map f x s = _
  simp only [StateT.map, Bind.bind, Except.bind]
  rw [e]; rfl

theorem Wp.mono {Q' : α → Lexer → Prop} {x : LexM α} (h : Wp x Q' s) (hq : ∀ a s', Q' a s' → Q a s') : Wp x Q s := by
  obtain ⟨a, s', e, h⟩ := h
  exact ⟨a, s', e, hq a s' h⟩

theorem Wp.ite {c : Prop} [Decidable c] {x y : LexM α} (h1 : c → Wp x Q s) (h2 : ¬c → Wp y Q s) :
    Wp (if c then x else y) Q s := by
  split
  · exact h1 ‹_›
  · exact h2 ‹_›

/-- A join point: prove the continuation once. -/
theorem Wp.jp {γ : Type} (P : γ → Lexer → Prop) {f : γ → LexM β} {body : (γ → LexM β) → LexM α}
    {Q' : β → Lexer → Prop} (h1 : ∀ a s', P a s' → Wp (f a) Q' s')
    (h2 : ∀ jp : γ → LexM β, (∀ a s', P a s' → Wp (jp a) Q' s') → Wp (body jp) Q s) :
    Wp (have jp := f; body jp) Q s := h2 f h1

theorem Wp.getS {f : Lexer → α} (h : Q (f s) s) : Wp (getS f) Q s := ⟨_, _, rfl, h⟩
theorem Wp.getB {f : Buffer → α} (h : Q (f s.buffer) s) : Wp (getB f) Q s := ⟨_, _, rfl, h⟩
theorem Wp.modS {Q : Unit → Lexer → Prop} {f : Lexer → Lexer} (h : Q () (f s)) : Wp (modS f) Q s := ⟨_, _, rfl, h⟩
theorem Wp.modB {Q : Unit → Lexer → Prop} {f : Buffer → Buffer} (h : Q () { s with buffer := f s.buffer }) :
    Wp (modB f) Q s := ⟨_, _, rfl, h⟩
theorem Wp.liftB {f : Buffer → Res α} (a : α) (e : f s.buffer = .ok a) (h : Q a s) : Wp (liftB f) Q s :=
  ⟨a, s, by simp [Lexer.liftB, e, Bind.bind, Except.bind, Pure.pure, Except.pure], h⟩

end

/-- The fields other than the buffer that reading a token within a line leaves alone. -/
def Fr (s s' : Lexer) : Prop :=
  s'.strterm = s.strterm ∧ s'.lvalStart = s.lvalStart ∧ s'.lvalEnd = s.lvalEnd ∧ s'.comments = s.comments ∧
  s'.magicComments = s.magicComments

theorem Fr.refl (s : Lexer) : Fr s s := ⟨rfl, rfl, rfl, rfl, rfl⟩
theorem Fr.trans {a b c : Lexer} (h : Fr a b) (h' : Fr b c) : Fr a c :=
  ⟨h'.1.trans h.1, h'.2.1.trans h.2.1, h'.2.2.1.trans h.2.2.1, h'.2.2.2.1.trans h.2.2.2.1, h'.2.2.2.2.trans h.2.2.2.2⟩

/-- Progress within a line. -/
structure LocB (b b' : Buffer) : Prop where
  same : SameLine b b'
  pcur : b.pcur ≤ b'.pcur
  meas : b'.R + 8 * (b'.pcur - b.pcur) ≤ b.R
  ptok : b.ptok ≤ b.pcur → b'.ptok ≤ b'.pcur
  eof : b.eofp = true → b'.eofp = true
  low : ∀ p, p ≤ b.ptok → p < b.pcur → p ≤ b'.ptok

theorem LocB.refl (b : Buffer) : LocB b b := ⟨.refl b, Nat.le_refl _, by omega, id, id, fun _ h _ => h⟩
theorem LocB.trans {a b c : Buffer} (h : LocB a b) (h' : LocB b c) : LocB a c :=
  ⟨h.same.trans h'.same, Nat.le_trans h.pcur h'.pcur, by have := h.meas; have := h'.meas; have := h.pcur; have := h'.pcur; omega,
   h'.ptok ∘ h.ptok, h'.eof ∘ h.eof, fun p h1 h2 => h'.low p (h.low p h1 h2) (Nat.lt_of_lt_of_le h2 h.pcur)⟩

/-- Progress within a line, with the frame. -/
def Loc (s s' : Lexer) : Prop := LocB s.buffer s'.buffer ∧ Fr s s'

theorem Loc.refl (s : Lexer) : Loc s s := ⟨.refl _, .refl _⟩
theorem Loc.trans {a b c : Lexer} (h : Loc a b) (h' : Loc b c) : Loc a c := ⟨h.1.trans h'.1, h.2.trans h'.2⟩

/-- The result of reading a character within a line. -/
structure Rd (s : Lexer) (c : MB) (s' : Lexer) : Prop where
  mid0 : Mid s.buffer
  eqB : s'.buffer = { s.buffer with pcur := s'.buffer.pcur, eofp := s'.buffer.eofp }
  good : Good s'.buffer
  loc : Loc s s'
  isNone : c = none → s'.buffer.eofp = true ∧ s'.buffer.pcur = s.buffer.pcur
  atEnd : c = none → s.buffer.eofp = true ∨ s.buffer.pcur = s.buffer.pend
  isSome : ∀ ch, c = some ch → ReadIn s.buffer ch s'.buffer

theorem Rd.ptokEq {s s' : Lexer} {c : MB} (h : Rd s c s') : s'.buffer.ptok = s.buffer.ptok := by rw [h.eqB]

theorem Rd.mid {s s' : Lexer} {c : MB} (h : Rd s c s') (hc : c ≠ some 10) : Mid s'.buffer := by
  have hs := h.loc.1.same
  cases c with
  | none =>
    obtain ⟨h1, h2⟩ := h.isNone rfl
    refine { h.good with
      lt := by rw [hs.pbeg, h2]; exact h.mid0.lt
      nolf := by rw [h2]; simp only [Buffer.d, hs.input]; exact h.mid0.nolf
      nonl := by rw [hs.nextline]; exact h.mid0.nonl }
  | some ch =>
    have hr := h.isSome ch rfl
    have hne : ch ≠ 10 := fun e => hc (by rw [e])
    obtain ⟨h1, h2⟩ := hr.byte hne
    refine { h.good with
      lt := by rw [hs.pbeg]; have := h.mid0.lt; omega
      nolf := by
        rw [h1]; simp only [Buffer.d, hs.input, Nat.add_sub_cancel]
        simp only [Buffer.d] at h2
        rw [h2]; simpa using hne
      nonl := by rw [hs.nextline]; exact h.mid0.nonl }

/-- The character read is the byte at the cursor, unless that is a line end. -/
theorem Rd.of_byte {s s' : Lexer} {c : MB} {x : UInt8} (h : Rd s c s') (hx : s.buffer.d.bytes[s.buffer.pcur]? = some x)
    (h10 : x ≠ 10) (h13 : x ≠ 13) : c = some x ∨ c = none := by
  cases c with
  | none => exact .inr rfl
  | some ch =>
    left
    have hr := h.isSome ch rfl
    by_cases e : ch = 10
    · have h1 := (hr.lf e).2
      have h2 := hr.back
      unfold Buffer.pbPos at h2
      have hd : s'.buffer.d = s.buffer.d := by simp only [Buffer.d, h.loc.1.same.input]
      rw [hd] at h2
      have := hr.lt
      split at h2
      · rename_i h3
        rw [show s'.buffer.pcur - 1 - 1 = s.buffer.pcur by omega, hx] at h3
        exact absurd (by simpa using h3.2.2) h13
      · rw [h2, hx] at h1
        exact absurd (by simpa using h1) h10
    · have := (hr.byte e).2
      rw [hx] at this; exact this.symm

/-- Before the end of the line there is a character to read. -/
theorem Rd.not_none {s s' : Lexer} {c : MB} (h : Rd s c s') (he : s.buffer.eofp = false) (hlt : s.buffer.pcur < s.buffer.pend) :
    c ≠ none := by
  intro hc
  rcases h.atEnd hc with h | h
  · rw [he] at h; simp at h
  · omega

theorem Rd.some_eof {s s' : Lexer} {c : MB} (h : Rd s c s') (hc : c ≠ none) :
    s.buffer.eofp = false ∧ s'.buffer.eofp = false ∧ s.buffer.pcur < s'.buffer.pcur := by
  cases c with
  | none => exact absurd rfl hc
  | some ch =>
    have hr := h.isSome ch rfl
    exact ⟨hr.noeof, by rw [hr.eq]; exact hr.noeof, hr.lt⟩

/-- Reading a character uses up the measure. -/
theorem Rd.meas {s s' : Lexer} {c : MB} (h : Rd s c s') (hc : c ≠ none) : s'.buffer.R + 8 ≤ s.buffer.R := by
  have := (h.some_eof hc).2.2
  have := h.loc.1.meas
  omega

theorem Wp.nextc {Q : MB → Lexer → Prop} {s : Lexer} (hm : Mid s.buffer) (hq : ∀ c s', Rd s c s' → Q c s') :
    Wp nextc Q s := by
  obtain ⟨c, b', e, hn⟩ := nextc_good hm.toGood
  refine ⟨c, { s with buffer := b' }, by simp [Lexer.nextc, e, Bind.bind, Except.bind, Pure.pure, Except.pure], hq _ _ ?_⟩
  cases hn with
  | here ch b' h1 hr =>
    have hsame : SameLine s.buffer b' := by rw [hr.eq]; exact ⟨rfl, rfl, rfl, rfl, rfl, rfl, rfl, rfl⟩
    have heof : b'.eofp = false := by rw [hr.eq]; exact hr.noeof
    have hptok : b'.ptok = s.buffer.ptok := by rw [hr.eq]
    exact {
      mid0 := hm
      eqB := by
        have := hr.eq
        dsimp only
        rw [heof]
        conv_lhs => rw [this]
        rw [← hr.noeof]
      good := hr.good
      loc := ⟨⟨hsame, Nat.le_of_lt hr.lt, R_mid hm hr.good hsame (Nat.le_of_lt hr.lt) (by simp [hr.noeof]),
        fun h => by have := hr.lt; dsimp only; omega, by simp [hr.noeof], fun p h _ => by dsimp only; omega⟩, Fr.refl _⟩
      isNone := by simp
      atEnd := by simp
      isSome := by intro ch' e; cases e; exact hr }
  | load ch b1 b' hl hr =>
    have h1 := hl.atEnd hm.nonl
    exact absurd hl.was (by
      intro he
      -- at the end of the line without a line feed, `nextc` does not load
      have hlt := hm.lt
      have h2 := h1.1
      have h3 := hl.later
      have := hm.tab.last_lf (i := s.buffer.lastline) (by
        have := hl.good.llen; have h4 := hl.input; simp only [Buffer.d, h4] at this ⊢; omega)
      rw [← hm.stop, ← h2] at this
      exact hm.nolf this)
  | eof he =>
    exact {
      mid0 := hm, eqB := by rfl, good := hm.toGood, loc := Loc.refl _
      isNone := fun _ => ⟨he, rfl⟩
      atEnd := fun _ => .inl he
      isSome := by simp }
  | eofNow he hn hp hx =>
    have hg : Good { s.buffer with eofp := true } :=
      { hm.toGood with nl2 := fun h => absurd hn h }
    have hsame : SameLine s.buffer { s.buffer with eofp := true } := ⟨rfl, rfl, rfl, rfl, rfl, rfl, rfl, rfl⟩
    exact {
      mid0 := hm, eqB := rfl, good := hg
      loc := ⟨⟨hsame, Nat.le_refl _, R_mid hm hg hsame (Nat.le_refl _) (by simp), id, by simp, fun _ h _ => h⟩, Fr.refl _⟩
      isNone := fun _ => ⟨rfl, rfl⟩
      atEnd := fun _ => .inr hp
      isSome := by simp }
  | eofLoad b1 hl hp hx _ =>
    have h1 := hl.atEnd hm.nonl
    exact absurd hl.was (by
      intro he
      have hlt := hm.lt
      have h2 := h1.1
      have h3 := hl.later
      have := hm.tab.last_lf (i := s.buffer.lastline) (by
        have := hl.good.llen; have h4 := hl.input; simp only [Buffer.d, h4] at this ⊢; omega)
      rw [← hm.stop, ← h2] at this
      exact hm.nolf this)

/-- Pushing back the character just read restores the position. -/
theorem Wp.pushback_gen {Q : Unit → Lexer → Prop} {s0 s1 s2 : Lexer} {c : MB} (h : Rd s0 c s1)
    (hs : SameLine s1.buffer s2.buffer) (hp : s2.buffer.pcur = s1.buffer.pcur) (ht : s0.buffer.ptok ≤ s0.buffer.pcur → s2.buffer.ptok ≤ s0.buffer.pcur)
    (hl : ∀ p, p ≤ s0.buffer.ptok → p < s0.buffer.pcur → p ≤ s2.buffer.ptok)
    (he : s1.buffer.eofp = true → s2.buffer.eofp = true) (hf : Fr s1 s2)
    (hq : ∀ s3, Loc s0 s3 → Mid s3.buffer → s3.buffer.pcur = s0.buffer.pcur → s3.buffer.ptok = s2.buffer.ptok →
      s3 = { s2 with buffer := s3.buffer } → s3.buffer.eofp = s2.buffer.eofp → Q () s3) : Wp (pushback c) Q s2 := by
  cases c with
  | none =>
    obtain ⟨h1, h2⟩ := h.isNone rfl
    have hm := h.mid (by simp)
    refine ⟨(), s2, rfl, hq s2 ?_ ?_ (hp.trans h2) rfl rfl rfl⟩
    · refine ⟨⟨h.loc.1.same.trans hs, by omega, ?_, ?_, by intro _; exact he h1, hl⟩, h.loc.2.trans hf⟩
      · have h4 := h.loc.1.meas
        have : s2.buffer.R = s1.buffer.R := by
          unfold Buffer.R Buffer.unread Buffer.curW Buffer.d
          rw [hs.input, hs.lineCount, hs.nextline, hs.lastline, hs.pbeg, hs.pend, hp, he h1, h1]
        omega
      · intro h; have := ht h; omega
    · exact {
        tab := by rw [Buffer.d, hs.input]; exact hm.tab
        lc := by rw [hs.lineCount, Buffer.d, hs.input]; exact hm.lc
        ll := by rw [hs.lineCount, hs.lastline]; exact hm.ll
        nl := by rw [hs.lineCount, hs.nextline]; exact hm.nl
        nl2 := by rw [hs.nextline]; exact fun h => absurd hm.nonl h
        stop := by rw [hs.pend, hs.lastline, Buffer.d, hs.input]; exact hm.stop
        start := by rw [hs.pbeg, hs.lastline, Buffer.d, hs.input]; exact hm.start
        lo := by rw [hs.pbeg, hp]; exact hm.lo
        hi := by rw [hs.pend, hp]; exact hm.hi
        ns := by rw [hs.pbeg, hs.pend, hp, Buffer.d, hs.input]; exact hm.ns
        lt := by rw [hs.pbeg, hp]; exact hm.lt
        nolf := by rw [hp, Buffer.d, hs.input]; exact hm.nolf
        nonl := by rw [hs.nextline]; exact hm.nonl }
  | some ch =>
    have hr := h.isSome ch rfl
    have hm := h.mid0
    have hss := h.loc.1.same
    have hs' := hss.trans hs
    have h0 : 0 < s2.buffer.pcur := by have := hr.lt; omega
    have hpb : s2.buffer.pbPos = s0.buffer.pcur := by
      rw [← hr.back]; unfold Buffer.pbPos
      rw [hp, hs.pbeg]; simp only [Buffer.d, hs.input]
    refine ⟨(), { s2 with buffer := { s2.buffer with pcur := s0.buffer.pcur } }, ?_, hq _ ?_ ?_ rfl rfl rfl rfl⟩
    · simp [Lexer.pushback, Buffer.pushback, pushbackByte_eq _ h0, hpb, Bind.bind, Except.bind, Pure.pure, Except.pure]
    · have hsame : SameLine s0.buffer { s2.buffer with pcur := s0.buffer.pcur } :=
        ⟨hs'.input, hs'.lineCount, hs'.prevline, hs'.lastline, hs'.nextline, hs'.pbeg, hs'.pend, hs'.sl⟩
      refine ⟨⟨hsame, Nat.le_refl _, ?_, ?_, by simp [hr.noeof], hl⟩, h.loc.2.trans hf⟩
      · exact R_sameLine hsame hm.nonl hr.noeof (Nat.le_refl _) (by dsimp only; rw [hs'.pend]; exact hm.hi)
      · intro h2; dsimp only; exact ht h2
    · exact {
        tab := by rw [Buffer.d]; dsimp only; rw [hs'.input]; exact hm.tab
        lc := by rw [Buffer.d]; dsimp only; rw [hs'.lineCount, hs'.input]; exact hm.lc
        ll := by dsimp only; rw [hs'.lineCount, hs'.lastline]; exact hm.ll
        nl := by dsimp only; rw [hs'.lineCount, hs'.nextline]; exact hm.nl
        nl2 := by dsimp only; rw [hs'.nextline]; exact fun h => absurd hm.nonl h
        stop := by rw [Buffer.d]; dsimp only; rw [hs'.pend, hs'.lastline, hs'.input]; exact hm.stop
        start := by rw [Buffer.d]; dsimp only; rw [hs'.pbeg, hs'.lastline, hs'.input]; exact hm.start
        lo := by dsimp only; rw [hs'.pbeg]; exact hm.lo
        hi := by dsimp only; rw [hs'.pend]; exact hm.hi
        ns := by rw [Buffer.d]; dsimp only; rw [hs'.pbeg, hs'.pend, hs'.input]; exact hm.ns
        lt := by dsimp only; rw [hs'.pbeg]; exact hm.lt
        nolf := by rw [Buffer.d]; dsimp only; rw [hs'.input]; exact hm.nolf
        nonl := by dsimp only; rw [hs'.nextline]; exact hm.nonl }

/-- Pushing back the character just read restores the position and the token start. -/
theorem Wp.pushback {Q : Unit → Lexer → Prop} {s0 s1 s2 : Lexer} {c : MB} (h : Rd s0 c s1)
    (hs : SameLine s1.buffer s2.buffer) (hp : s2.buffer.pcur = s1.buffer.pcur) (ht : s2.buffer.ptok = s1.buffer.ptok)
    (he : s1.buffer.eofp = true → s2.buffer.eofp = true) (hf : Fr s1 s2)
    (hq : ∀ s3, Loc s0 s3 → Mid s3.buffer → s3.buffer.pcur = s0.buffer.pcur → s3.buffer.ptok = s0.buffer.ptok →
      s3 = { s2 with buffer := s3.buffer } → s3.buffer.eofp = s2.buffer.eofp → Q () s3) : Wp (pushback c) Q s2 := by
  have h0 : s1.buffer.ptok = s0.buffer.ptok := by rw [h.eqB]
  refine Wp.pushback_gen h hs hp (by rw [ht, h0]; exact id) (by rw [ht, h0]; exact fun _ h _ => h) he hf ?_
  intro s3 h1 h2 h3 h4 h5 h6
  exact hq s3 h1 h2 h3 (by rw [h4, ht, h0]) h5 h6

end Verif.Lexer
