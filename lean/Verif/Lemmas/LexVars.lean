import Verif.Lemmas.LexWord
import Verif.Spec.Variables
/-! Instance, class and global variables are read as the specification says. -/
namespace Verif.Lexer
open Verif.Props (collapse Seq nextc_text)
open NameSpec (NameChar NameByte Name Stops Variable)

/-- Is the character before the cursor one of a name? -/
theorem identHere {bs : Bytes} {c : UInt8} {s : Lexer} (hp : 0 < s.buffer.pcur) (he : s.buffer.eofp = false) (hd : s.buffer.d.bytes = bs)
    (hb : bs[s.buffer.pcur - 1]? = some c) {Q : Bool → Lexer → Prop} (hq : ∀ r, (r = true ↔ NameByte c) → Q r s) : Wp Lexer.isIdentchar Q s := by
  refine Wp.isIdentchar hp fun r hr => hq r ?_
  rw [hr]
  have h3 : s.buffer.isIdentcharAt (s.buffer.pcur - 1) = (MB.u8Alnum c || c == asc '_' || !MB.u8Ascii c) := by
    unfold Buffer.isIdentcharAt
    have : s.buffer.input.byteAt (s.buffer.pcur - 1) = some c := by rw [← hb, ← hd]; rfl
    rw [this]
  rw [h3, identByte]
  simp [he]

/-- The rest of a name, whose first byte was read. -/
theorem tokaddIdent_run {bs text tl : Bytes} (hstop : Stops text) {cp : Nat} {cps : List Nat} {c : UInt8} {s : Lexer}
    {Q : Bool → Lexer → Prop} (hcs : ∀ c ∈ cp :: cps, NameChar c) (he : Utf8.encodeAll (cp :: cps) = c :: tl)
    (h : Inline bs (tl ++ text) s.buffer) (hp : 0 < s.buffer.pcur) (hb : bs[s.buffer.pcur - 1]? = some c)
    (hq : ∀ b, Upcoming bs text b → b.pcur = s.buffer.pcur + tl.length → b.ptok = s.buffer.ptok →
      Q false { s with buffer := b, tokenbuf := s.tokenbuf ++ (c :: tl) }) : Wp (Lexer.tokaddIdent (some c)) Q s := by
  obtain ⟨c', tl', he'⟩ := List.exists_cons_of_ne_nil (Utf8.encode_ne_nil cp)
  rw [Utf8.encodeAll_cons, he', List.cons_append, List.cons.injEq] at he
  obtain ⟨rfl, rfl⟩ := he
  have hfuel : cps.length < 64 * (s.buffer.d.bytes.length + 1) := by
    have e1 := encodeAll_length cps
    have e2 : (tl' ++ Utf8.encodeAll cps ++ text).length ≤ bs.length := by
      rw [← h.at'.txt]
      exact Nat.le_trans (collapse_length _ (Nat.le_refl _)) (by simp)
    simp only [List.length_append] at e2
    rw [h.at'.d]
    omega
  unfold tokaddIdent
  refine Wp.bind (Wp.fuel (Wp.bind (identLoop_run hstop cps (hcs cp (by simp)) (fun c hc => hcs c (by simp [hc])) he' hfuel
    (by rw [← List.append_assoc]; exact h) hp hb fun b0 b g1 g2 g3 g4 g5 => ?_)))
  dsimp only
  refine Wp.bind (Undo.pushback (b0 := b0) (text := text) g4.undo rfl fun b2 k1 k2 k3 => Wp.pure ?_)
  have := hq b2 k1 (by rw [k2, g2, List.length_append]; omega) (by rw [k3, g3])
  rw [he', List.append_assoc] at *
  exact this

theorem stops_head {text : Bytes} (h : Stops text) : ∀ r : Bool, (r = true ↔ ∃ c, text.head? = some c ∧ NameByte c) → r = false := by
  intro r hr
  by_contra hne
  obtain ⟨c, h3, h4⟩ := hr.1 (by simpa using hne)
  exact h c h3 h4

theorem same_flush {b : Buffer} {p : Nat} : BSame b { b with ptok := p } := ⟨⟨rfl, rfl, rfl, rfl, rfl, rfl, rfl, rfl⟩, rfl, rfl⟩

theorem same_newtok {b : Buffer} {p : Nat} : BSame b { b with ptok := p, tokidx := 0, tokline := b.rubySourceline } :=
  ⟨⟨rfl, rfl, rfl, rfl, rfl, rfl, rfl, rfl⟩, rfl, rfl⟩

theorem Behind.bsame {bs text : Bytes} {b b2 : Buffer} (h : Behind bs text b) (hb : BSame b b2) : Behind bs text b2 :=
  ⟨h.inline.bsame hb, by rw [hb.pcur]; exact h.prev⟩

section
variable {bs rest : Bytes} {p : Nat} {s : Lexer} {last : LexState}

/-- Facts about the first byte of a name. -/
theorem name_first_byte {cps : List Nat} (hn : Name cps) : ∃ cp cps' c tl, cps = cp :: cps' ∧ Utf8.encodeAll cps = c :: tl ∧ NameByte c ∧ wordByte c = true := by
  obtain ⟨cp, h1, h2⟩ := hn.first
  cases cps with
  | nil => cases h1
  | cons d cps =>
    obtain ⟨c, tl, he⟩ := List.exists_cons_of_ne_nil (Utf8.encode_ne_nil d)
    have hw : Utf8.encodeAll (d :: cps) = c :: (tl ++ Utf8.encodeAll cps) := by rw [Utf8.encodeAll_cons, he]; rfl
    exact ⟨d, cps, c, _, rfl, hw, encodeAll_bytes hn.chars c (by rw [hw]; simp), Name.wordByte hn hw⟩

theorem wordByte_plain : ∀ c : UInt8, wordByte c = true → c ≠ 10 ∧ c ≠ asc '@' ∧ MB.u8Digit c = false := byte_forall (by decide +kernel)

theorem atmark_ivar {cps : List Nat} (h : OpFirst bs (Utf8.encodeAll cps ++ rest) p s) (hn : Name cps) (hr' : Stops rest) :
    Wp (parseAtmark last) (WordRead bs (asc '@' :: Utf8.encodeAll cps) rest p (asc '@' :: Utf8.encodeAll cps).length s .tIVAR
      (if last.isSome EXPR_FNAME then EXPR_ENDFN else EXPR_END)) s := by
  obtain ⟨hb, h2, h3, h4, h5, h6, h7⟩ := h
  obtain ⟨cp, cps', c, tl, rfl, hw, hnb, hwb⟩ := name_first_byte hn
  obtain ⟨w1, w2, w3⟩ := wordByte_plain c hwb
  rw [hw] at hb ⊢
  unfold parseAtmark setPtok newtok tokadd setState setYylvalName
  refine Wp.bind (Wp.pcur (Wp.bind (Behind.eat hb w1 fun b k1 k2 k3 => ?_)))
  refine Wp.bind (Wp.liftB p (by rw [h2]; simp [csub]) (Wp.bind (Wp.modB (Wp.bind (Wp.modS (Wp.bind (Wp.modS ?_)))))))
  refine Wp.ite (fun e => absurd e (by simpa [isC] using w2)) fun _ => Wp.bind (Wp.pure ?_)
  dsimp only
  have k5 : Behind bs (tl ++ rest) { b with ptok := p, tokidx := 0, tokline := b.rubySourceline } := k1.bsame same_newtok
  have k6 : bs[b.pcur - 1]? = some c := by
    rw [k2]; exact (hb.inline.step w1).byte
  refine Wp.bind (Wp.modS (Wp.ite (fun e => absurd e (by simp)) fun _ => Wp.bind (Wp.map (identHere (bs := bs) (c := c) ?_ k5.inline.noeof k5.inline.at'.d k6 fun r hr => ?_))))
  · dsimp only [Buffer.setPtok]; omega
  rw [hr.2 hnb]
  refine Wp.ite (fun e => absurd e (by simp)) fun _ => ?_
  refine Wp.ite (fun e => absurd e (by simp [w3])) fun _ => ?_
  refine Wp.bind (tokaddIdent_run hr' hn.chars hw k5.inline ?_ k6 fun b2 g1 g2 g3 => ?_)
  · dsimp only [Buffer.setPtok]; omega
  refine Wp.ite (fun e => absurd e (by simp)) fun _ => Wp.bind (Wp.modS (Wp.pure ?_))
  refine ⟨rfl, g1, ?_, g3, .inr rfl, h5, h6, h7, rfl, rfl⟩
  dsimp only [Buffer.setPtok] at g2 ⊢
  simp only [List.length_cons]
  omega

theorem atmark_cvar {cps : List Nat} (h : OpFirst bs (asc '@' :: Utf8.encodeAll cps ++ rest) p s) (hn : Name cps) (hr' : Stops rest) :
    Wp (parseAtmark last) (WordRead bs (asc '@' :: asc '@' :: Utf8.encodeAll cps) rest p (asc '@' :: asc '@' :: Utf8.encodeAll cps).length s .tCVAR
      (if last.isSome EXPR_FNAME then EXPR_ENDFN else EXPR_END)) s := by
  obtain ⟨hb, h2, h3, h4, h5, h6, h7⟩ := h
  obtain ⟨cp, cps', c, tl, rfl, hw, hnb, hwb⟩ := name_first_byte hn
  obtain ⟨w1, w2, w3⟩ := wordByte_plain c hwb
  rw [hw] at hb ⊢
  unfold parseAtmark setPtok newtok tokadd setState setYylvalName
  refine Wp.bind (Wp.pcur (Wp.bind (Behind.eat hb (by decide) fun b k1 k2 k3 => ?_)))
  refine Wp.bind (Wp.liftB p (by rw [h2]; simp [csub]) (Wp.bind (Wp.modB (Wp.bind (Wp.modS (Wp.bind (Wp.modS ?_)))))))
  have k5 : Behind bs (c :: tl ++ rest) { b with ptok := p, tokidx := 0, tokline := b.rubySourceline } := k1.bsame same_newtok
  refine Wp.ite (fun _ => Wp.bind (Wp.modS (Wp.bind (Behind.eat k5 w1 fun b2 j1 j2 j3 => Wp.bind (Wp.pure ?_))))) fun e => absurd (by simp [isC]) e
  dsimp only
  have k6 : bs[b2.pcur - 1]? = some c := by
    rw [j2]; exact (Inline.step (s := { s with buffer := _ }) k5.inline w1).byte
  refine Wp.bind (Wp.modS (Wp.ite (fun e => absurd e (by simp)) fun _ => Wp.bind (Wp.map (identHere (bs := bs) (c := c) ?_ j1.inline.noeof j1.inline.at'.d k6 fun r hr => ?_))))
  · dsimp only [Buffer.setPtok] at j2 ⊢; omega
  rw [hr.2 hnb]
  refine Wp.ite (fun e => absurd e (by simp)) fun _ => ?_
  refine Wp.ite (fun e => absurd e (by simp [w3])) fun _ => ?_
  refine Wp.bind (tokaddIdent_run hr' hn.chars hw j1.inline ?_ k6 fun b3 g1 g2 g3 => ?_)
  · dsimp only [Buffer.setPtok] at j2 ⊢; omega
  refine Wp.ite (fun e => absurd e (by simp)) fun _ => Wp.bind (Wp.modS (Wp.pure ?_))
  refine ⟨rfl, g1, ?_, ?_, .inr rfl, h5, h6, h7, rfl, rfl⟩
  · dsimp only [Buffer.setPtok] at g2 j2 ⊢
    simp only [List.length_cons]
    omega
  · dsimp only [Buffer.setPtok] at g3 j3 ⊢
    omega

/-- `parseGvar` from the character after the dollar sign on. -/
def gvarTail (last : LexState) : LexM Tok := do
  let c ← nextc
  if isC c '_' then
    let c ← nextc
    if ← isIdentchar then
      tokadd (asc '$')
      tokadd (asc '_')
      gvarName c
    else
      pushback c
      tokadd (asc '$')
      tokadd (asc '_')
      return .tGVAR
  else if (match c with | some ch => (ascs "~*$?!@/\\;,.=:<>\"").contains ch | none => false) then
    tokadd (asc '$')
    tokaddMB c
    return .tGVAR
  else if isC c '-' then
    tokadd (asc '$')
    tokaddMB c
    let c ← nextc
    if ← isIdentchar then
      if !(← tokaddMbchar c) then return .END_OF_INPUT else return .tGVAR
    else
      pushback c
      pushbackByte
      return .tCHAR
  else if isC c '&' || isC c '`' || isC c '\'' || isC c '+' then
    if last.isSome EXPR_FNAME then
      tokadd (asc '$')
      tokaddMB c
      return .tGVAR
    else return .tBACK_REF
  else if MB.ge c (asc '1') && MB.le c (asc '9') then
    tokadd (asc '$')
    let c ← nthLoop (← fuel) c
    pushback c
    if last.isSome EXPR_FNAME then return .tGVAR else return .tNTH_REF
  else if !(← isIdentchar) then
    match c with
    | some name =>
      if name = asc ' ' then compileError .GvarWithoutId (← currentLoc)
      else compileError (.InvalidGvarName name) (← currentLoc)
      return .tGVAR
    | none =>
      compileError .GvarWithoutId (← currentLoc)
      return .tGVAR
  else
    tokadd (asc '$')
    gvarName c

/-- `parseGvar` up to the character after the dollar sign. -/
theorem gvar_head {Q : Tok → Lexer → Prop} {text : Bytes} (h : OpFirst bs text p s)
    (hq : ∀ s1, Behind bs text s1.buffer → s1.buffer.pcur = p + 1 → s1.buffer.ptok = p → s1.lval = none → s1.strterm = none → s1.lvalStart = none → s1.lvalEnd = none →
      s1.tokenbuf = [] → s1.lexState = EXPR_END → s1.diagnostics = s.diagnostics →
      Wp (gvarTail last) Q s1) : Wp (parseGvar last) Q s := by
  obtain ⟨hb, h2, h3, h4, h5, h6, h7⟩ := h
  unfold parseGvar setPtok newtok setState
  refine Wp.bind (Wp.modS (Wp.bind (Wp.pcurSub (by dsimp only; omega) (Wp.bind (Wp.modB (Wp.bind (Wp.modS ?_)))))))
  refine hq _ (hb.bsame ?_) h2 (by dsimp only [Buffer.setPtok]; omega) h4 h5 h6 h7 rfl rfl rfl
  exact ⟨⟨rfl, rfl, rfl, rfl, rfl, rfl, rfl, rfl⟩, rfl, rfl⟩

/-- The lexer after the dollar sign. -/
structure GvarFirst (bs text : Bytes) (p : Nat) (ds : List LexDiag) (s : Lexer) : Prop where
  behind : Behind bs text s.buffer
  pcur : s.buffer.pcur = p + 1
  ptok : s.buffer.ptok = p
  lval : s.lval = none
  strterm : s.strterm = none
  ls : s.lvalStart = none
  le : s.lvalEnd = none
  buf : s.tokenbuf = []
  state : s.lexState = EXPR_END
  diag : s.diagnostics = ds

theorem GvarFirst.of {Q : Tok → Lexer → Prop} {text : Bytes} (h : OpFirst bs text p s) (hq : ∀ s1, GvarFirst bs text p s.diagnostics s1 → Wp (gvarTail last) Q s1) :
    Wp (parseGvar last) Q s :=
  gvar_head h fun s1 h1 h2 h3 h4 h5 h6 h7 h8 h9 h10 => hq s1 ⟨h1, h2, h3, h4, h5, h6, h7, h8, h9, h10⟩

theorem gvar_punct {c : UInt8} (h : OpFirst bs (c :: rest) p s) (hc : c ∈ ascs "~*$?!@/\\;,.=:<>\"") :
    Wp (parseGvar last) (WordRead bs [asc '$', c] rest p 2 s .tGVAR EXPR_END) s := by
  have key : ∀ c ∈ ascs "~*$?!@/\\;,.=:<>\"", c ≠ 10 ∧ c ≠ asc '_' := by decide
  obtain ⟨k1, k2⟩ := key c hc
  refine GvarFirst.of h fun s1 g => ?_
  unfold gvarTail tokadd
  refine Wp.bind (Behind.eat g.behind k1 fun b j1 j2 j3 => ?_)
  refine Wp.ite (fun e => absurd e (by simpa [isC] using k2)) fun _ => ?_
  refine Wp.ite (fun _ => Wp.bind (Wp.modS (Wp.bind (Wp.modS (Wp.pure ?_))))) fun e => absurd (by simpa using hc) e
  exact ⟨rfl, j1.inline.at', by dsimp only; rw [j2, g.pcur], by dsimp only; rw [j3, g.ptok], .inl ⟨g.lval, rfl⟩, g.strterm, g.ls, g.le, g.diag, g.state⟩

theorem gvar_backRef {c : UInt8} (h : OpFirst bs (c :: rest) p s) (hc : c ∈ ascs "&`'+") :
    Wp (parseGvar last) (WordRead bs [asc '$', c] rest p 2 s (if last.isSome EXPR_FNAME then .tGVAR else .tBACK_REF) EXPR_END) s := by
  have key : ∀ c ∈ ascs "&`'+", c ≠ 10 ∧ c ≠ asc '_' ∧ c ∉ ascs "~*$?!@/\\;,.=:<>\"" ∧ c ≠ asc '-' ∧
      (c = asc '&' ∨ c = asc '`' ∨ c = asc '\'' ∨ c = asc '+') := by decide
  obtain ⟨k1, k2, k3, k4, k5⟩ := key c hc
  refine GvarFirst.of h fun s1 g => ?_
  unfold gvarTail tokadd
  refine Wp.bind (Behind.eat g.behind k1 fun b j1 j2 j3 => ?_)
  refine Wp.ite (fun e => absurd e (by simpa [isC] using k2)) fun _ => ?_
  refine Wp.ite (fun e => absurd e (by simpa using k3)) fun _ => ?_
  refine Wp.ite (fun e => absurd e (by simpa [isC] using k4)) fun _ => ?_
  refine Wp.ite (fun _ => ?_) fun e => absurd (by simpa [isC, or_assoc] using k5) e
  refine Wp.ite (fun e => Wp.bind (Wp.modS (Wp.bind (Wp.modS (Wp.pure ?_))))) fun e => Wp.pure ?_
  · rw [if_pos e]
    exact ⟨rfl, j1.inline.at', by dsimp only; rw [j2, g.pcur], by dsimp only; rw [j3, g.ptok], .inl ⟨g.lval, rfl⟩, g.strterm, g.ls, g.le, g.diag, g.state⟩
  · rw [if_neg e]
    exact ⟨rfl, j1.inline.at', by dsimp only; rw [j2, g.pcur], by dsimp only; rw [j3, g.ptok], .inl ⟨g.lval, rfl⟩, g.strterm, g.ls, g.le, g.diag, g.state⟩

theorem gvar_option {cp : Nat} (h : OpFirst bs (asc '-' :: Utf8.encode cp ++ rest) p s) (hc : NameChar cp) :
    Wp (parseGvar last) (WordRead bs (asc '$' :: asc '-' :: Utf8.encode cp) rest p (asc '$' :: asc '-' :: Utf8.encode cp).length s .tGVAR EXPR_END) s := by
  obtain ⟨hs, hlf⟩ := NameChar.scalar hc
  obtain ⟨c, tl, he⟩ := List.exists_cons_of_ne_nil (Utf8.encode_ne_nil cp)
  have hnl := encode_no_lf hs hlf c (by simp [he])
  have hnb := NameChar.byte hc (c := c) (by simp [he])
  rw [he] at h
  refine GvarFirst.of h fun s1 g => ?_
  unfold gvarTail tokadd
  refine Wp.bind (Behind.eat g.behind (by decide) fun b j1 j2 j3 => ?_)
  refine Wp.ite (fun e => absurd e (by simp [isC]; decide)) fun _ => ?_
  refine Wp.ite (fun e => absurd e (by decide)) fun _ => ?_
  refine Wp.ite (fun _ => ?_) fun e => absurd (by simp [isC]) e
  refine Wp.bind (Wp.modS (Wp.bind (Wp.modS (Wp.bind (Behind.eat (text := tl ++ rest) j1 hnl fun b2 i1 i2 i3 => Wp.bind ?_)))))
  have k6 : bs[b2.pcur - 1]? = some c := by
    rw [i2]; exact (Inline.step (s := { s with buffer := _ }) j1.inline hnl).byte
  have hp1 := g.pcur
  dsimp only at i2 j2
  refine identHere (bs := bs) (c := c) (by dsimp only; omega) i1.inline.noeof i1.inline.at'.d k6 fun r hr => ?_
  rw [hr.2 hnb]
  refine Wp.ite (fun _ => Wp.bind (tokaddMbchar_run hs hlf he (text := rest) i1.inline (by dsimp only; omega) k6 fun q1 => ?_)) fun e => absurd rfl e
  refine Wp.ite (fun e => absurd e (by simp)) fun _ => Wp.pure ?_
  refine ⟨rfl, q1.inline.at', ?_, ?_, .inl ⟨g.lval, rfl⟩, g.strterm, g.ls, g.le, g.diag, g.state⟩
  · simp only [at_, he, List.length_cons]; omega
  · have := g.ptok
    dsimp only [at_] at i3 j3 ⊢; omega

theorem nthLoop_run {text : Bytes} (hstop : ∀ c, text.head? = some c → ¬ (asc '0' ≤ c ∧ c ≤ asc '9')) : ∀ (ds : Bytes) {d : UInt8} {n : Nat} {s : Lexer} {Q : MB → Lexer → Prop},
    (∀ c ∈ ds, asc '0' ≤ c ∧ c ≤ asc '9') → ds.length < n → Behind bs (ds ++ text) s.buffer → 
    (∀ s' b0, Undo bs text b0 s'.buffer → b0.pcur = s.buffer.pcur + ds.length → b0.ptok = s.buffer.ptok → s'.lval = s.lval → s'.strterm = s.strterm → s'.lvalStart = s.lvalStart →
      s'.lvalEnd = s.lvalEnd → s'.diagnostics = s.diagnostics → s'.lexState = s.lexState → Q text.head? s') →
    Wp (nthLoop n (some d)) Q s
  | [], d, n + 1, s, Q, _, _, h, hq => by
    unfold nthLoop tokaddMB
    refine Wp.bind (Wp.modS (Wp.bind (Behind.peekc (text := text) (by simpa using h) fun b hu => ?_)))
    refine Wp.ite (fun _ => Wp.pure (hq _ _ hu rfl rfl rfl rfl rfl rfl rfl rfl)) fun e => absurd ?_ e
    cases text with
    | nil => rfl
    | cons c t =>
      have := hstop c rfl
      have k : ∀ c : UInt8, ¬ (asc '0' ≤ c ∧ c ≤ asc '9') → MB.u8Digit c = false := byte_forall (by decide +kernel)
      simp [MB.isDigit, k c this]
  | e :: ds, d, n + 1, s, Q, hd, hn, h, hq => by
    have k : ∀ c : UInt8, asc '0' ≤ c ∧ c ≤ asc '9' → MB.u8Digit c = true ∧ c ≠ 10 := byte_forall (by decide +kernel)
    obtain ⟨k1, k2⟩ := k e (hd e (by simp))
    unfold nthLoop tokaddMB
    refine Wp.bind (Wp.modS (Wp.bind (Behind.eat (text := ds ++ text) (s := { s with tokenbuf := s.tokenbuf ++ [d] }) h k2 fun b j1 j2 j3 => ?_)))
    refine Wp.ite (fun e => absurd e (by simp [MB.isDigit, k1])) fun _ => ?_
    refine nthLoop_run hstop ds (fun c hc => hd c (by simp [hc])) (by simp at hn; omega) j1 fun s' b0 g1 g2 g3 g4 g5 g6 g7 g8 g9 => ?_
    exact hq s' b0 g1 (by rw [g2]; dsimp only at j2 ⊢; rw [j2, List.length_cons]; omega) (by rw [g3]; exact j3) g4 g5 g6 g7 g8 g9
  | [], _, 0, _, _, _, hn, _, _ => absurd hn (by simp)
  | _ :: _, _, 0, _, _, _, hn, _, _ => absurd hn (by simp)

theorem gvar_nthRef {d : UInt8} {ds : Bytes} (h : OpFirst bs (d :: ds ++ rest) p s) (h1 : asc '1' ≤ d ∧ d ≤ asc '9') (hd : ∀ c ∈ ds, asc '0' ≤ c ∧ c ≤ asc '9')
    (hstop : ∀ c, rest.head? = some c → ¬ (asc '0' ≤ c ∧ c ≤ asc '9')) :
    Wp (parseGvar last) (WordRead bs (asc '$' :: d :: ds) rest p (asc '$' :: d :: ds).length s (if last.isSome EXPR_FNAME then .tGVAR else .tNTH_REF) EXPR_END) s := by
  have key : ∀ c : UInt8, asc '1' ≤ c ∧ c ≤ asc '9' → c ≠ 10 ∧ c ≠ asc '_' ∧ c ∉ ascs "~*$?!@/\\;,.=:<>\"" ∧ c ≠ asc '-' ∧
      c ∉ ascs "&`'+" := byte_forall (by decide +kernel)
  obtain ⟨k1, k2, k3, k4, k5⟩ := key d h1
  refine GvarFirst.of h fun s1 g => ?_
  unfold gvarTail tokadd
  refine Wp.bind (Behind.eat (text := ds ++ rest) g.behind k1 fun b j1 j2 j3 => ?_)
  refine Wp.ite (fun e => absurd e (by simpa [isC] using k2)) fun _ => ?_
  refine Wp.ite (fun e => absurd e (by simpa using k3)) fun _ => ?_
  refine Wp.ite (fun e => absurd e (by simpa [isC] using k4)) fun _ => ?_
  refine Wp.ite (fun e => absurd e ?_) fun _ => ?_
  · simpa [isC, ascs, asc, and_assoc] using k5
  refine Wp.ite (fun _ => ?_) fun e => absurd (by simpa [MB.ge, MB.le] using h1) e
  have hp1 := g.pcur
  have ht1 := g.ptok
  refine Wp.bind (Wp.modS (Wp.bind (Wp.fuel (Wp.bind (nthLoop_run hstop ds hd ?_ j1 fun s' b0 g1 g2 g3 g4 g5 g6 g7 g8 g9 => ?_)))))
  · have e2 : (ds ++ rest).length ≤ bs.length := by
      rw [← j1.inline.at'.txt]
      exact Nat.le_trans (collapse_length _ (Nat.le_refl _)) (by simp)
    simp only [List.length_append] at e2
    rw [j1.inline.at'.d]; omega
  refine Wp.bind (Undo.pushback g1 rfl fun b2 i1 i2 i3 => ?_)
  dsimp only at g2 g3 g4 g5 g6 g7 g8 g9
  have fin : ∀ {t}, WordRead bs (asc '$' :: d :: ds) rest p (asc '$' :: d :: ds).length s t EXPR_END t { s' with buffer := b2 } := fun {t} =>
    ⟨rfl, i1, by dsimp only; simp only [List.length_cons]; omega, by dsimp only; omega, .inl ⟨by rw [g4]; exact g.lval, rfl⟩, by rw [g5]; exact g.strterm, by rw [g6]; exact g.ls,
      by rw [g7]; exact g.le, by rw [g8]; exact g.diag, by rw [g9]; exact g.state⟩
  refine Wp.ite (fun e => Wp.pure ?_) fun e => Wp.pure ?_
  · rw [if_pos e]; exact fin
  · rw [if_neg e]; exact fin

theorem gvarName_run {text tl : Bytes} (hstop : Stops text) {cp : Nat} {cps : List Nat} {c : UInt8} {s : Lexer}
    {Q : Tok → Lexer → Prop} (hcs : ∀ c ∈ cp :: cps, NameChar c) (he : Utf8.encodeAll (cp :: cps) = c :: tl)
    (h : Inline bs (tl ++ text) s.buffer) (hp : 0 < s.buffer.pcur) (hb : bs[s.buffer.pcur - 1]? = some c)
    (hq : ∀ b, Upcoming bs text b → b.pcur = s.buffer.pcur + tl.length → b.ptok = s.buffer.ptok →
      Q .tGVAR { s with buffer := b, tokenbuf := s.tokenbuf ++ (c :: tl), lexState := EXPR_END, lval := some (s.tokenbuf ++ (c :: tl)) }) : Wp (gvarName (some c)) Q s := by
  unfold gvarName setState setYylvalName
  refine Wp.bind (tokaddIdent_run hstop hcs he h hp hb fun b h1 h2 h3 => ?_)
  exact Wp.ite (fun e => absurd e (by simp)) fun _ => Wp.bind (Wp.modS (Wp.bind (Wp.modS (Wp.pure (hq b h1 h2 h3)))))

theorem gvar_first {cps : List Nat} (hcs : ∀ c ∈ cps, NameChar c) (hf : ∃ c, cps.head? = some c ∧ ¬ (49 ≤ c ∧ c ≤ 57)) {c : UInt8} {tl : Bytes} (hw : Utf8.encodeAll cps = c :: tl) :
    ¬ (asc '1' ≤ c ∧ c ≤ asc '9') := by
  obtain ⟨cp, h1, h2⟩ := hf
  cases cps with
  | nil => cases h1
  | cons d cps =>
    simp only [List.head?_cons, Option.some.injEq] at h1
    subst h1
    by_cases hz : 48 ≤ d ∧ d ≤ 57
    · obtain rfl : d = 48 := by omega
      rw [Utf8.encodeAll_cons, encode_ascii (by decide), List.cons_append, List.cons.injEq] at hw
      rw [← hw.1]; decide
    · have := Name.wordByte ⟨hcs, d, rfl, hz⟩ hw
      revert this
      generalize c = c
      revert c
      exact byte_forall (by decide +kernel)

theorem gvar_name {cps : List Nat} (h : OpFirst bs (Utf8.encodeAll cps ++ rest) p s) (hcs : ∀ c ∈ cps, NameChar c) (hf : ∃ c, cps.head? = some c ∧ ¬ (49 ≤ c ∧ c ≤ 57))
    (hr : Stops rest) : Wp (parseGvar last) (WordRead bs (asc '$' :: Utf8.encodeAll cps) rest p (asc '$' :: Utf8.encodeAll cps).length s .tGVAR EXPR_END) s := by
  obtain ⟨c, tl, hw⟩ : ∃ c tl, Utf8.encodeAll cps = c :: tl := by
    obtain ⟨cp, h1, -⟩ := hf
    cases cps with
    | nil => cases h1
    | cons d cps =>
      obtain ⟨c, tl, he⟩ := List.exists_cons_of_ne_nil (Utf8.encode_ne_nil d)
      exact ⟨c, tl ++ Utf8.encodeAll cps, by rw [Utf8.encodeAll_cons, he]; rfl⟩
  have hbytes := encodeAll_bytes hcs
  have h19 := gvar_first hcs hf hw
  obtain ⟨cp, cps, rfl⟩ : ∃ cp cps', cps = cp :: cps' := by
    obtain ⟨cp, h1, -⟩ := hf
    cases cps with
    | nil => cases h1
    | cons d cps => exact ⟨_, _, rfl⟩
  have hw' := hw
  rw [hw] at h hbytes ⊢
  have hnb : NameByte c := hbytes c (by simp)
  have key : ∀ c : UInt8, NameByte c → c ≠ 10 ∧ c ∉ ascs "~*$?!@/\\;,.=:<>\"" ∧ c ≠ asc '-' ∧ c ∉ ascs "&`'+" := by
    unfold NameByte; exact byte_forall (by decide +kernel)
  obtain ⟨k1, k3, k4, k5⟩ := key c hnb
  refine GvarFirst.of h fun s1 g => ?_
  have hp1 := g.pcur
  have ht1 := g.ptok
  unfold gvarTail tokadd
  refine Wp.bind (Behind.eat (text := tl ++ rest) g.behind k1 fun b j1 j2 j3 => ?_)
  have k6 : bs[b.pcur - 1]? = some c := by
    rw [j2]; exact (Inline.step (s := s1) g.behind.inline k1).byte
  by_cases hu : c = asc '_'
  · subst hu
    refine Wp.ite (fun _ => ?_) fun e => absurd (by simp [isC]) e
    refine Wp.bind (Behind.next (s := { s1 with buffer := b }) j1 (by dsimp only; omega) fun b2 i1 i2 => Wp.bind (ReadNext.identchar (b0 := b) (s := { s1 with buffer := b2 }) i1 i2 fun r hr' => ?_))
    have htl : tl = Utf8.encodeAll cps := by
      have e1 : Utf8.encodeAll (cp :: cps) = Utf8.encode cp ++ Utf8.encodeAll cps := Utf8.encodeAll_cons ..
      rw [hw] at e1
      obtain ⟨e, he⟩ | hbig := Utf8.encode_bytes (NameChar.scalar (hcs cp (by simp))).1
      · rw [he.2] at e1
        simp only [List.cons_append, List.nil_append, List.cons.injEq] at e1
        exact e1.2
      · obtain ⟨c2, tl2, he2⟩ := List.exists_cons_of_ne_nil (Utf8.encode_ne_nil cp)
        rw [he2, List.cons_append, List.cons.injEq] at e1
        have := hbig c2 (by simp [he2])
        rw [← e1.1] at this
        exact absurd this (by decide)
    cases cps with
    | nil =>
      have : tl = [] := by rw [htl]; rfl
      subst this
      have hrf : r = false := stops_head (text := rest) hr r (by simpa using hr')
      subst hrf
      refine Wp.ite (fun e => absurd e (by simp)) fun _ => ?_
      refine Wp.bind (Undo.pushback (b0 := b) (text := rest) (s := { s1 with buffer := b2 }) i1.undo rfl fun b3 q1 q2 q3 => Wp.bind (Wp.modS (Wp.bind (Wp.modS (Wp.pure ?_)))))
      exact ⟨rfl, q1, by dsimp only; simp only [List.length_cons, List.length_nil]; omega, by dsimp only; omega, .inl ⟨g.lval, rfl⟩, g.strterm, g.ls, g.le, g.diag, g.state⟩
    | cons cp2 cps =>
      obtain ⟨c2, tl2, he2⟩ := List.exists_cons_of_ne_nil (Utf8.encode_ne_nil cp2)
      have hw2 : Utf8.encodeAll (cp2 :: cps) = c2 :: (tl2 ++ Utf8.encodeAll cps) := by rw [Utf8.encodeAll_cons, he2]; rfl
      rw [hw2] at htl
      generalize tl2 ++ Utf8.encodeAll cps = tl3 at hw2 htl
      subst htl
      have hnb2 : NameByte c2 := hbytes c2 (by simp)
      have hrt : r = true := hr'.2 ⟨c2, rfl, hnb2⟩
      subst hrt
      obtain ⟨q1, q2, q3⟩ := i1.took c2 (tl3 ++ rest) rfl
      obtain ⟨q3, q4, q5⟩ := q3 (nameByte_plain hnb2).1
      dsimp only at q4 q5
      refine Wp.ite (fun _ => ?_) fun e => absurd rfl e
      refine Wp.bind (Wp.modS (Wp.bind (Wp.modS ?_)))
      refine gvarName_run hr (fun c hc => hcs c (by simp [List.mem_cons] at hc ⊢; tauto)) hw2 q3.inline (by dsimp only; omega) q2 fun b3 o1 o2 o3 => ?_
      dsimp only at o2 o3
      refine ⟨rfl, o1, by dsimp only; simp only [List.length_cons]; omega, by dsimp only; omega, .inr ?_, g.strterm, g.ls, g.le, g.diag, rfl⟩
      dsimp only; rw [g.buf]; simp
  · refine Wp.ite (fun e => absurd e (by simpa [isC] using hu)) fun _ => ?_
    refine Wp.ite (fun e => absurd e (by simpa using k3)) fun _ => ?_
    refine Wp.ite (fun e => absurd e (by simpa [isC] using k4)) fun _ => ?_
    refine Wp.ite (fun e => absurd e ?_) fun _ => ?_
    · simpa [isC, ascs, asc, and_assoc] using k5
    refine Wp.ite (fun e => absurd e (by simpa [MB.ge, MB.le] using h19)) fun _ => ?_
    refine Wp.bind (identHere (bs := bs) (c := c) (by dsimp only; omega) j1.inline.noeof j1.inline.at'.d k6 fun r hr' => ?_)
    rw [hr'.2 hnb]
    refine Wp.ite (fun e => absurd e (by simp)) fun _ => Wp.bind (Wp.modS ?_)
    refine gvarName_run hr hcs hw j1.inline (by dsimp only; omega) k6 fun b3 o1 o2 o3 => ?_
    dsimp only at o2 o3
    refine ⟨rfl, o1, by dsimp only; simp only [List.length_cons]; omega, by dsimp only; omega, .inr ?_, g.strterm, g.ls, g.le, g.diag, rfl⟩
    dsimp only; rw [g.buf]; simp

/-- A character of the text can be read and put back. -/
theorem Behind.readBack {c : UInt8} {t : Bytes} {s : Lexer} (h : Behind bs (c :: t) s.buffer) :
    ∃ b, Lexer.nextc s = .ok (some c, { s with buffer := b }) ∧ b.pushback (some c) = .ok s.buffer := by
  obtain ⟨c', b', e, hn⟩ := nextc_good h.inline.at'.seq.good
  have hrun : Lexer.nextc s = .ok (c', { s with buffer := b' }) := by simp [Lexer.nextc, e, Bind.bind, Except.bind, Pure.pure, Except.pure]
  obtain ⟨c2, s2, e2, g1, g2, g3⟩ := Upcoming.nextc (Q := fun r s' => r = some c ∧ Took bs c t s'.buffer ∧ s'.buffer.pbPos = s.buffer.pcur)
    h.inline.at' fun b ht hm => ⟨rfl, ht, hm.back⟩
  rw [hrun] at e2
  simp only [Except.ok.injEq, Prod.mk.injEq] at e2
  obtain ⟨rfl, rfl⟩ := e2
  subst g1
  have hlt := h.inline.lt (by simp)
  cases hn with
  | load ch b1 b' hl hr => exact absurd (hl.atEnd h.inline.at'.seq.nl).1 (by omega)
  | here ch b' h4 hr =>
    refine ⟨b', hrun, ?_⟩
    dsimp only at g3
    simp only [Buffer.pushback, pushbackByte_eq _ g2.pos, g3]
    have : ({ b' with pcur := s.buffer.pcur } : Buffer) = s.buffer := by rw [hr.eq]
    rw [this]

/-- A dollar sign and a dash before something else: a character literal. -/
theorem gvar_dash {c : UInt8} (h : OpFirst bs (asc '-' :: c :: rest) p s) (hr : ¬ NameByte c) :
    Wp (parseGvar last) (WordRead bs (ascs "$") (asc '-' :: c :: rest) p 1 s .tCHAR EXPR_END) s := by
  refine GvarFirst.of h fun s1 g => ?_
  have hp1 := g.pcur
  have hb := g.behind
  unfold gvarTail tokadd
  have h1 := hb.inline.step (by decide)
  refine Wp.bind (h1.nextc ?_)
  refine Wp.ite (fun e => absurd e (by simp [isC]; decide)) fun _ => ?_
  refine Wp.ite (fun e => absurd e (by decide)) fun _ => ?_
  refine Wp.ite (fun _ => ?_) fun e => absurd (by simp [isC]) e
  have hb1 : Behind bs (c :: rest) (at_ s1 (s1.buffer.pcur + 1)).buffer := ⟨h1.next, _, h1.byte, by decide⟩
  refine Wp.bind (Wp.modS (Wp.bind (Wp.modS (Wp.bind ?_))))
  generalize htb : (at_ s1 (s1.buffer.pcur + 1)).tokenbuf ++ [asc '$'] ++ [asc '-'] = tb
  obtain ⟨b2, e2, e3⟩ := Behind.readBack (s := { at_ s1 (s1.buffer.pcur + 1) with tokenbuf := tb }) hb1
  obtain ⟨c3, s3, e4, b4, -, rfl, i1, i2⟩ := Behind.next (s := { at_ s1 (s1.buffer.pcur + 1) with tokenbuf := tb }) hb1 (by dsimp only [at_]; omega)
    (Q := fun r s' => ∃ b, r = some c ∧ s' = { at_ s1 (s1.buffer.pcur + 1) with tokenbuf := tb, buffer := b } ∧
      ReadNext bs (c :: rest) (at_ s1 (s1.buffer.pcur + 1)).buffer b ∧ b.d.bytes = bs) fun b h1 h2 => ⟨b, rfl, rfl, h1, h2⟩
  rw [e2] at e4
  simp only [Except.ok.injEq, Prod.mk.injEq, Lexer.mk.injEq, true_and, and_true] at e4
  obtain ⟨rfl, rfl⟩ := e4
  refine ⟨_, _, e2, Wp.bind (ReadNext.identchar (s := { at_ s1 (s1.buffer.pcur + 1) with tokenbuf := tb, buffer := b2 }) i1 i2 fun r hr' => ?_)⟩
  rw [stops_head (text := c :: rest) (fun c' hc' => by cases hc'; exact hr) r hr']
  refine Wp.ite (fun e => absurd e (by simp)) fun _ => ?_
  refine Wp.bind ⟨(), { at_ s1 (s1.buffer.pcur + 1) with tokenbuf := tb }, ?_, ?_⟩
  · simp only [Lexer.pushback, e3, Bind.bind, Except.bind, Pure.pure, Except.pure]
  refine Wp.bind ⟨(), { s1 with tokenbuf := tb }, ?_, Wp.pure ?_⟩
  · have := h1.back (asc '-')
    simp only [Lexer.pushback, Buffer.pushback, Lexer.pushbackByte, Bind.bind, Except.bind, Pure.pure, Except.pure] at this ⊢
    revert this
    dsimp only [at_]
    generalize Buffer.pushbackByte _ = z
    cases z with
    | error e => intro h; cases h
    | ok z =>
      intro h
      simp only [Except.ok.injEq, Prod.mk.injEq, true_and] at h ⊢
      have := congrArg Lexer.buffer h
      dsimp only at this
      rw [this]
  · exact ⟨rfl, hb.inline.at', hp1, g.ptok, .inl ⟨g.lval, rfl⟩, g.strterm, g.ls, g.le, g.diag, g.state⟩

/-- A word whose first character determines what it is, in the main loop. -/
theorem yylex_first {x : Ext} {bs blanks tl rest rest' v : Bytes} {c : UInt8} {s : Lexer} {t : Tok} {st : LexState}
    (h : Upcoming bs (blanks ++ (c :: tl ++ rest)) s.buffer)
    (hb : SkipsTo x bs s.lexState blanks (c :: tl ++ rest)) (hnl : ∀ e ∈ c :: tl, e ≠ 10) (htn : t ≠ .tNL) (hv : v <+: c :: tl)
    (hst : s.strterm = none) (hls : s.lvalStart = none) (hle : s.lvalEnd = none)
    (hd : ∀ cmd ts sp s1, SameForOps s s1 → OpFirst bs (tl ++ rest) (s.buffer.pcur + blanks.length) s1 →
      bs[s.buffer.pcur + blanks.length]? = some c → s1.buffer.pbeg ≤ s.buffer.pcur + blanks.length →
      Wp (dispatch x c sp s1.lexState cmd ts) (fun r s' => ∃ r', r = .tok r' ∧ WordRead bs v rest' (s.buffer.pcur + blanks.length) v.length s1 t st r' s') s1) :
    Wp (yylex x) (WordToken bs v rest' t st (s.buffer.pcur + blanks.length) v.length s) s := by
  refine yylex_code hst ?_
  have hlen : (blanks ++ (c :: tl ++ rest)).length ≤ bs.length := by
    rw [← h.txt]
    exact Nat.le_trans (collapse_length _ (Nat.le_refl _)) (by simp)
  refine hb.run (s := { s with lval := none, commandStart := false, tokenSeen := true }) rfl hst hls hle ?_ h fun n b sp tk cs hn h1 hp _ => ?_
  · rw [h.d]; simp only [List.length_append, List.length_cons] at hlen; omega
  obtain ⟨n, rfl⟩ : ∃ k', n = k' + 1 := ⟨n - 1, by omega⟩
  refine yylexLoop_char (s := { s with lval := none, commandStart := false, tokenSeen := tk, comments := cs, buffer := b }) h1 fun b1 h2 hm ht => Wp.bind ?_
  have hc := hnl c (by simp)
  have hone := hm.one hc
  dsimp only at hone hp ht
  have hbeh : Behind bs (tl ++ rest) b1 := h2.behind hc
  have g1 : bs[s.buffer.pcur + blanks.length]? = some c := by
    rw [← h2.last]; congr 1; omega
  have g2 : b1.pbeg ≤ s.buffer.pcur + blanks.length := by
    have h3 := h2.back.seq.good.lo
    have h4 := hm.back
    dsimp only at h3 h4
    omega
  refine (hd s.commandStart s.tokenSeen sp { s with lval := none, commandStart := false, tokenSeen := tk, comments := cs, buffer := b1 } ⟨rfl, rfl, rfl, rfl, rfl⟩
    ⟨hbeh, by dsimp only; omega, by dsimp only; omega, rfl, hst, hls, hle⟩ g1 g2).mono fun r s2 h3 => ?_
  obtain ⟨_, rfl, rfl, hup, hpc, hpt, hlv, hst2, hls2, hle2, hw, hpl⟩ := h3
  obtain ⟨-, w, hw1, hw2⟩ := Inline.skip tl (s := { s with buffer := b1 }) hbeh.inline fun e he => hnl e (by simp [he])
  dsimp only at hw1
  have hlast := h2.last
  have hsl : Spec.slice bs (s.buffer.pcur + blanks.length) (s.buffer.pcur + blanks.length + v.length) = v := by
    have e1 : s.buffer.pcur + blanks.length = b1.pcur - 1 := by omega
    obtain ⟨u, hu⟩ := hv
    have e2 : bs.drop (b1.pcur - 1) = v ++ (u ++ w) := by
      obtain ⟨g1, g2⟩ := List.getElem?_eq_some_iff.1 hlast
      rw [List.drop_eq_getElem_cons g1, g2, show b1.pcur - 1 + 1 = b1.pcur by omega, hw1, ← List.append_assoc, hu]
      rfl
    unfold Spec.slice
    rw [e1, e2, Nat.add_sub_cancel_left]
    simp
  have hb2 : tBegin s2 = s.buffer.pcur + blanks.length := by simp only [tBegin, hls2, Option.getD, hpt]
  have he2 : tEnd s2 = s.buffer.pcur + blanks.length + v.length := by simp only [tEnd, hle2, Option.getD, hpc]
  refine Wp.pure ⟨htn, v, ?_, ?_⟩
  · rcases hlv with ⟨hlv, -⟩ | hlv
    · refine .inr ⟨hlv, by omega, ?_, ?_⟩
      · rw [he2, ← hpc, hup.d]; exact hup.le
      · rw [hup.d, hb2, he2, hsl]
    · exact .inl hlv
  · exact ⟨by rw [hb2, he2], hup, hpc, hst2, rfl, rfl, hw, hpl⟩

/-- A word with a sign in front of it in the main loop. -/
theorem yylex_sigil {x : Ext} {bs blanks tl rest rest' v : Bytes} {c : UInt8} {s : Lexer} {t : Tok} {st : LexState}
    (h : Upcoming bs (blanks ++ (c :: tl ++ rest)) s.buffer)
    (hb : SkipsTo x bs s.lexState blanks (c :: tl ++ rest)) (hnl : ∀ e ∈ c :: tl, e ≠ 10) (htn : t ≠ .tNL) (hv : v <+: c :: tl)
    (hst : s.strterm = none) (hls : s.lvalStart = none) (hle : s.lvalEnd = none)
    (hd : ∀ cmd ts sp s1, SameForOps s s1 → OpFirst bs (tl ++ rest) (s.buffer.pcur + blanks.length) s1 →
      Wp (dispatch x c sp s1.lexState cmd ts) (fun r s' => ∃ r', r = .tok r' ∧ WordRead bs v rest' (s.buffer.pcur + blanks.length) v.length s1 t st r' s') s1) :
    Wp (yylex x) (WordToken bs v rest' t st (s.buffer.pcur + blanks.length) v.length s) s :=
  yylex_first h hb hnl htn hv hst hls hle fun cmd ts sp s1 h1 h2 _ _ => hd cmd ts sp s1 h1 h2

theorem dispatch_at {x : Ext} {sp cmd ts : Bool} {s : Lexer} {Q : Next → Lexer → Prop}
    (h : Wp (parseAtmark last) (fun r s' => Q (.tok r) s') s) : Wp (dispatch x (asc '@') sp last cmd ts) Q s := by
  unfold dispatch
  repeat ((with_reducible refine Wp.ite (fun e => absurd e ?_) fun _ => ?_); (· decide))
  exact Wp.ite (fun _ => Wp.bind (h.mono fun _ _ h => Wp.pure h)) fun e => absurd rfl e

theorem dispatch_dollar {x : Ext} {sp cmd ts : Bool} {s : Lexer} {Q : Next → Lexer → Prop}
    (h : Wp (parseGvar last) (fun r s' => Q (.tok r) s') s) : Wp (dispatch x (asc '$') sp last cmd ts) Q s := by
  unfold dispatch
  repeat ((with_reducible refine Wp.ite (fun e => absurd e ?_) fun _ => ?_); (· decide))
  exact Wp.ite (fun _ => Wp.bind (h.mono fun _ _ h => Wp.pure h)) fun e => absurd rfl e


theorem ReadNext.near {text : Bytes} {b0 b : Buffer} (h : ReadNext bs text b0 b) : b.ptok = b0.ptok ∧ b0.pcur ≤ b.pcur ∧ b.pcur ≤ bs.length := by
  obtain ⟨b2, h1, h2, h3, h4⟩ := h.undo
  cases text with
  | nil =>
    simp only [List.head?_nil, Buffer.pushback, Except.ok.injEq] at h1
    subst h1
    exact ⟨h4, by omega, h2.le⟩
  | cons c t =>
    obtain ⟨-, k2, -⟩ := h.took c t rfl
    have k3 := (List.getElem?_eq_some_iff.1 k2).1
    have hp := h.pos
    simp only [List.head?_cons, Buffer.pushback, pushbackByte_eq _ hp, Except.ok.injEq] at h1
    subst h1
    dsimp only at h3 h4
    have : b.pbPos ≤ b.pcur := by unfold Buffer.pbPos; split <;> omega
    exact ⟨h4, by omega, by omega⟩

/-- A token was made, with an error. -/
structure Faulty (bs : Bytes) (s0 : Lexer) (r : Tok) (s : Lexer) : Prop where
  tok : r ≠ .tNL
  bytes : s.buffer.d.bytes = bs
  low : s.buffer.ptok ≤ s.buffer.pcur
  high : s.buffer.pcur ≤ bs.length
  lval : s.lval = none
  ls : s.lvalStart = none
  le : s.lvalEnd = none
  diag : ∃ m l, s.diagnostics = s0.diagnostics ++ [⟨.error, m, l⟩]

theorem gvar_faulty {text : Bytes} (h : OpFirst bs text p s) (hr : Stops text) (hc : ∀ c, text.head? = some c → c ∉ ascs "-~*$?!@/\\;,.=:<>\"&`'+") :
    Wp (parseGvar last) (Faulty bs s) s := by
  refine GvarFirst.of h fun s1 g => ?_
  have hp1 := g.pcur
  have ht1 := g.ptok
  unfold gvarTail tokadd
  refine Wp.bind (Behind.next g.behind (by omega) fun b i1 i2 => ?_)
  obtain ⟨n1, n2, n3⟩ := i1.near
  have key : ∀ c : UInt8, ¬ NameByte c → c ∉ ascs "-~*$?!@/\\;,.=:<>\"&`'+" → c ≠ asc '_' ∧ c ∉ ascs "~*$?!@/\\;,.=:<>\"" ∧ c ≠ asc '-' ∧ c ∉ ascs "&`'+" ∧ ¬ (asc '1' ≤ c ∧ c ≤ asc '9') := by
    unfold NameByte; exact byte_forall (by decide +kernel)
  have fin : ∀ m l, Faulty bs s .tGVAR { s1 with buffer := b, diagnostics := s1.diagnostics ++ [⟨.error, m, l⟩] } := fun m l =>
    ⟨by decide, i2, by dsimp only; omega, n3, g.lval, g.ls, g.le, m, l, by dsimp only; rw [g.diag]⟩
  cases text with
  | nil =>
    refine Wp.ite (fun e => absurd e (by simp [isC])) fun _ => ?_
    refine Wp.ite (fun e => absurd e (by simp)) fun _ => ?_
    refine Wp.ite (fun e => absurd e (by simp [isC])) fun _ => ?_
    refine Wp.ite (fun e => absurd e (by simp [isC])) fun _ => ?_
    refine Wp.ite (fun e => absurd e (by simp [MB.ge])) fun _ => ?_
    refine Wp.bind (ReadNext.identchar (s := { s1 with buffer := b }) i1 i2 fun r hr' => ?_)
    rw [stops_head hr r hr']
    refine Wp.ite (fun _ => ?_) fun e => absurd rfl e
    unfold compileError emit currentLoc
    exact Wp.bind (Wp.getB (Wp.bind (Wp.modS (Wp.pure (fin _ _)))))
  | cons c t =>
    obtain ⟨k2, k3, k4, k5, k6⟩ := key c (hr c rfl) (hc c rfl)
    refine Wp.ite (fun e => absurd e (by simpa [isC] using k2)) fun _ => ?_
    refine Wp.ite (fun e => absurd e (by simpa using k3)) fun _ => ?_
    refine Wp.ite (fun e => absurd e (by simpa [isC] using k4)) fun _ => ?_
    refine Wp.ite (fun e => absurd e ?_) fun _ => ?_
    · simpa [isC, ascs, asc, and_assoc] using k5
    refine Wp.ite (fun e => absurd e (by simpa [MB.ge, MB.le] using k6)) fun _ => ?_
    refine Wp.bind (ReadNext.identchar (s := { s1 with buffer := b }) i1 i2 fun r hr' => ?_)
    rw [stops_head hr r hr']
    refine Wp.ite (fun _ => ?_) fun e => absurd rfl e
    unfold compileError emit currentLoc
    exact Wp.ite (fun _ => Wp.bind (Wp.getB (Wp.bind (Wp.modS (Wp.pure (fin _ _)))))) fun _ => Wp.bind (Wp.getB (Wp.bind (Wp.modS (Wp.pure (fin _ _)))))

/-- The part of `parseAtmark` after the signs. -/
def atTail (result : Tok) (c : MB) (last : LexState) : LexM Tok := do
  setState (if last.isSome EXPR_FNAME then EXPR_ENDFN else EXPR_END)
  let bad ← if c.isNone then pure true else (!·) <$> isIdentchar
  if bad then
    pushback c
    compileError (if result = .tIVAR then .IvarWithoutId else .CvarWithoutId) (← currentLoc)
    setState EXPR_END
    return result
  else
    match c with
    | some ch =>
      if MB.u8Digit ch then
        compileError (if result = .tIVAR then .InvalidIvarName ch else .InvalidCvarName ch) (← currentLoc)
        setState EXPR_END
        return result
      else if ← tokaddIdent c then return .END_OF_INPUT
      else
        setYylvalName
        return result
    | none => fail .unreachable

theorem digit_name : ∀ d : UInt8, asc '0' ≤ d ∧ d ≤ asc '9' → NameByte d ∧ MB.u8Digit d = true ∧ d ≠ 10 := by
  unfold NameByte; exact byte_forall (by decide +kernel)

theorem atTail_faulty {text : Bytes} {b0 : Buffer} {s0 : Lexer} {result : Tok} (hres : result ≠ .tNL) (h : ReadNext bs text b0 s.buffer) (hd : s.buffer.d.bytes = bs) (hp : b0.ptok ≤ b0.pcur)
    (hr : Stops text ∨ ∃ d, text.head? = some d ∧ asc '0' ≤ d ∧ d ≤ asc '9') (hl : s.lval = none) (hls : s.lvalStart = none) (hle : s.lvalEnd = none)
    (hdi : s.diagnostics = s0.diagnostics) : Wp (atTail result text.head? last) (Faulty bs s0) s := by
  obtain ⟨n1, n2, n3⟩ := h.near
  unfold atTail setState compileError emit currentLoc
  have bad : Wp (do
      Lexer.pushback text.head?
      let l ← getB fun b => (⟨b.ptok, b.pcur⟩ : _root_.Verif.Loc)
      modS fun s => { s with diagnostics := s.diagnostics ++ [⟨.error, if result = .tIVAR then .IvarWithoutId else .CvarWithoutId, l⟩] }
      modS fun s => { s with lexState := EXPR_END }
      return result) (Faulty bs s0) { s with lexState := if last.isSome EXPR_FNAME then EXPR_ENDFN else EXPR_END } := by
    refine Wp.bind (Undo.pushback (s := { s with lexState := if last.isSome EXPR_FNAME then EXPR_ENDFN else EXPR_END }) h.undo rfl fun b q1 q2 q3 => Wp.bind (Wp.getB (Wp.bind (Wp.modS (Wp.bind (Wp.modS (Wp.pure ?_)))))))
    exact ⟨hres, q1.d, by dsimp only; omega, q1.le, hl, hls, hle, _, _, by dsimp only; rw [hdi]⟩
  cases text with
  | nil =>
    refine Wp.bind (Wp.modS (Wp.ite (fun _ => Wp.bind (Wp.pure ?_)) fun e => absurd rfl e))
    exact Wp.ite (fun _ => bad) fun e => absurd rfl e
  | cons c t =>
    refine Wp.bind (Wp.modS (Wp.ite (fun e => absurd e (by simp)) fun _ => Wp.bind (Wp.map (ReadNext.identchar (s := { s with lexState := if last.isSome EXPR_FNAME then EXPR_ENDFN else EXPR_END })
      h hd fun r hr' => ?_))))
    rcases hr with hr | ⟨d, e, hdg⟩
    · rw [stops_head hr r hr']
      exact Wp.ite (fun _ => bad) fun e => absurd rfl e
    · simp only [List.head?_cons, Option.some.injEq] at e
      subst e
      obtain ⟨d1, d2, d3⟩ := digit_name c hdg
      rw [hr'.2 ⟨c, rfl, d1⟩]
      refine Wp.ite (fun e => absurd e (by simp)) fun _ => ?_
      refine Wp.ite (fun _ => ?_) fun e => absurd d2 e
      refine Wp.bind (Wp.getB (Wp.bind (Wp.modS (Wp.bind (Wp.modS (Wp.pure ?_))))))
      exact ⟨hres, hd, by dsimp only; omega, n3, hl, hls, hle, _, _, by dsimp only; rw [hdi]⟩


theorem ReadNext.newtok {text : Bytes} {b0 b : Buffer} (h : ReadNext bs text b0 b) {p n m : Nat} (hp : b.ptok = p) :
    ReadNext bs text b0 { b with ptok := p, tokidx := n, tokline := m } := by
  have same : ∀ {b : Buffer}, BSame b { b with ptok := p, tokidx := n, tokline := m } := ⟨⟨rfl, rfl, rfl, rfl, rfl, rfl, rfl, rfl⟩, rfl, rfl⟩
  obtain ⟨⟨b2, u1, u2, u3, u4⟩, h2, h3, h4⟩ := h
  refine ⟨?_, h2, h3, fun c t e => ?_⟩
  · cases text with
    | nil =>
      simp only [List.head?_nil, Buffer.pushback, Except.ok.injEq] at u1
      subst u1
      exact ⟨_, rfl, u2.bsame same, u3, by dsimp only; rw [← hp, u4]⟩
    | cons c t =>
      simp only [List.head?_cons, Buffer.pushback, pushbackByte_eq _ h3, Except.ok.injEq] at u1
      subst u1
      refine ⟨_, ?_, u2.bsame same, u3, by dsimp only at u4 ⊢; rw [← hp, u4]⟩
      simp only [List.head?_cons, Buffer.pushback]
      rw [pushbackByte_eq _ (by exact h3)]
      rfl
  · obtain ⟨k1, k2, k3⟩ := h4 c t e
    exact ⟨k1, k2, fun hc => ⟨(k3 hc).1.bsame same, (k3 hc).2.1, by dsimp only; rw [← hp, (k3 hc).2.2]⟩⟩

theorem atmark1_faulty {text : Bytes} (h : OpFirst bs text p s) (hn : text.head? ≠ some (asc '@'))
    (hr : Stops text ∨ ∃ d, text.head? = some d ∧ asc '0' ≤ d ∧ d ≤ asc '9') : Wp (parseAtmark last) (Faulty bs s) s := by
  obtain ⟨hb, h2, h3, h4, h5, h6, h7⟩ := h
  unfold parseAtmark setPtok newtok tokadd
  refine Wp.bind (Wp.pcur (Wp.bind (Behind.next hb (by omega) fun b i1 i2 => ?_)))
  refine Wp.bind (Wp.liftB p (by rw [h2]; simp [csub]) (Wp.bind (Wp.modB (Wp.bind (Wp.modS (Wp.bind (Wp.modS ?_)))))))
  refine Wp.ite (fun e => absurd (by simpa [isC] using e) hn) fun _ => Wp.bind (Wp.pure ?_)
  obtain ⟨n1, -, -⟩ := i1.near
  have hnt := i1.newtok (p := p) (n := 0) (m := b.rubySourceline) (by omega)
  exact atTail_faulty (result := .tIVAR) (by decide) hnt i2 (by omega) hr h4 h6 h7 rfl

theorem atmark2_faulty {text : Bytes} (h : OpFirst bs (asc '@' :: text) p s)
    (hr : Stops text ∨ ∃ d, text.head? = some d ∧ asc '0' ≤ d ∧ d ≤ asc '9') : Wp (parseAtmark last) (Faulty bs s) s := by
  obtain ⟨hb, h2, h3, h4, h5, h6, h7⟩ := h
  unfold parseAtmark setPtok newtok tokadd
  refine Wp.bind (Wp.pcur (Wp.bind (Behind.eat hb (by decide) fun b k1 k2 k3 => ?_)))
  refine Wp.bind (Wp.liftB p (by rw [h2]; simp [csub]) (Wp.bind (Wp.modB (Wp.bind (Wp.modS (Wp.bind (Wp.modS ?_)))))))
  have k5 : Behind bs text { b with ptok := p, tokidx := 0, tokline := b.rubySourceline } := k1.bsame same_newtok
  refine Wp.ite (fun _ => Wp.bind (Wp.modS (Wp.bind (Behind.next k5 ?_ fun b2 i1 i2 => Wp.bind (Wp.pure ?_))))) fun e => absurd (by simp [isC]) e
  · dsimp only [Buffer.setPtok]; omega
  refine atTail_faulty (result := .tCVAR) (by decide) i1 i2 ?_ hr h4 h6 h7 rfl
  dsimp only [Buffer.setPtok]; omega

/-- Such a token in the main loop. -/
theorem yylex_faulty {x : Ext} {bs blanks text : Bytes} {c : UInt8} {s : Lexer}
    (h : Upcoming bs (blanks ++ (c :: text)) s.buffer) (hb : ∀ c ∈ blanks, Blank c) (hc : c ≠ 10)
    (hst : s.strterm = none) (hls : s.lvalStart = none) (hle : s.lvalEnd = none)
    (hd : ∀ cmd ts sp s1, SameForOps s s1 → OpFirst bs text (s.buffer.pcur + blanks.length) s1 →
      Wp (dispatch x c sp s1.lexState cmd ts) (fun r s' => ∃ r', r = .tok r' ∧ Faulty bs s1 r' s') s1) :
    Wp (yylex x) (fun _ s' => ∃ m l, s'.diagnostics = s.diagnostics ++ [⟨.error, m, l⟩]) s := by
  refine yylex_code hst ?_
  have hlen : (blanks ++ (c :: text)).length ≤ bs.length := by
    rw [← h.txt]
    exact Nat.le_trans (collapse_length _ (Nat.le_refl _)) (by simp)
  refine yylexLoop_blanks blanks (text := c :: text) (bs := bs) hb ?_ h fun n b sp hn h1 hp => ?_
  · rw [h.d]; simp only [List.length_append, List.length_cons] at hlen; omega
  obtain ⟨n, rfl⟩ : ∃ k', n = k' + 1 := ⟨n - 1, by omega⟩
  refine yylexLoop_char (s := { s with lval := none, commandStart := false, tokenSeen := true, buffer := b }) h1 fun b1 h2 hm ht => Wp.bind ?_
  have hone := hm.one hc
  dsimp only at hone hp ht
  have hbeh : Behind bs text b1 := h2.behind hc
  refine (hd s.commandStart s.tokenSeen sp { s with lval := none, commandStart := false, tokenSeen := true, buffer := b1 } ⟨rfl, rfl, rfl, rfl, rfl⟩
    ⟨hbeh, by dsimp only; omega, by dsimp only; omega, rfl, hst, hls, hle⟩).mono fun r s2 h3 => ?_
  obtain ⟨r', rfl, htn, hby, hlo, hhi, hlv, hls2, hle2, hdi⟩ := h3
  refine Wp.pure ⟨htn, _, .inr ⟨hlv, ?_, ?_, rfl⟩, hdi⟩
  · simp only [tBegin, tEnd, hls2, hle2, Option.getD]; exact hlo
  · simp only [tEnd, hle2, Option.getD, hby]; exact hhi

end
end Verif.Lexer
